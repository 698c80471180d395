import Verif.Spec.Majority
import Verif.Lemmas.Rename
import Verif.Lemmas.Smote

/-!
# Lemmas: samplers which do not look at the majority rows
-/

namespace Verif

/-- What the two runs have in common. -/
structure SameMinority (X X' : List Row) (y y' : List Int) (s s' : Stats) : Prop where
  minLabel : s'.minLabel = s.minLabel
  majLabel : s'.majLabel = s.majLabel
  countMin : s'.count s.minLabel = s.count s.minLabel
  countMaj : s'.count s.majLabel = s.count s.majLabel
  rows : selectLabel X' y' s.minLabel = selectLabel X y s.minLabel
  length : X'.length = X.length
  ycountMin : y'.count s.minLabel = y.count s.minLabel
  ycountMaj : y'.count s.majLabel = y.count s.majLabel
  labels : X.length = y.length
  labels' : X'.length = y'.length
  two : IsMinority y s.minLabel s.majLabel
  two' : IsMinority y' s.minLabel s.majLabel

theorem new_bind {α : Type} (X : List Row) (m : Res α) (k : α → Res (List Row × List Int)) :
    newRows X (m >>= k) = m >>= fun a => newRows X (k a) := by
  cases m <;> rfl

theorem new_pure (X : List Row) (r : List Row × List Int) : newRows X (pure r) = pure (r.1.drop X.length) := rfl

theorem new_ok (X : List Row) (r : List Row × List Int) : newRows X (.ok r) = .ok (r.1.drop X.length) := rfl

theorem new_error (X : List Row) (e : PyErr) : newRows X (.error e) = .error e := rfl

theorem new_throw (X : List Row) (e : PyErr) : newRows X (throw e) = throw e := rfl

theorem new_ite (X : List Row) {p : Prop} [Decidable p] (a b : Res (List Row × List Int)) :
    newRows X (if p then a else b) = if p then newRows X a else newRows X b := by
  split <;> rfl

theorem withSamples_new (X : List Row) (y : List Int) (l : Int) (S : List Row) : (withSamples X y l S).1.drop X.length = S := by
  simp [withSamples]

theorem twoClass_length {y : List Int} {a b : Int} (h : IsMinority y a b) : y.length = y.count a + y.count b := by
  obtain ⟨-, -, h2, h3⟩ := h
  have hab : a ≠ b := by
    rcases h3 with h | h
    · rintro rfl
      omega
    · omega
  clear h3
  induction y with
  | nil => simp
  | cons l y ih =>
    have := ih fun l hl => h2 l (List.mem_cons_of_mem _ hl)
    rcases h2 l (List.mem_cons_self ..) with rfl | rfl
    · rw [List.length_cons, List.count_cons_self, List.count_cons_of_ne hab, this]
      omega
    · rw [List.length_cons, List.count_cons_self, List.count_cons_of_ne (Ne.symm hab), this]
      omega

theorem ignores_of_alg {checks : List Check} {d : Nat} {alg : Stats → List Row → List Int → Res (List Row × List Int)}
    (h : ∀ X X' y y' s s', SameMinority X X' y y' s s' → newRows X (alg s X y) = newRows X' (alg s' X' y')) :
    IgnoresMajority (sample checks d alg) := by
  intro X X' y y' a b hl hl' h1 h2 hr hc
  have hca : y'.count a = y.count a := by
    rw [← selectLabel_eq_classRows, ← selectLabel_eq_classRows] at hr
    rw [← selectLabel_length hl, ← selectLabel_length hl', hr]
  have hX : X'.length = X.length := by
    rw [hl, hl', twoClass_length h1, twoClass_length h2, hca, hc]
  obtain ⟨s, hs, rfl, rfl⟩ := stats_of_isMinority h1
  obtain ⟨s', hs', hm, hM⟩ := stats_of_isMinority h2
  obtain ⟨m1, m2, m3⟩ := stats_min_mem hs
  obtain ⟨m1', m2', m3'⟩ := stats_min_mem hs'
  have c1 : s'.count s.minLabel = s.count s.minLabel := by
    rw [stats_count hs m1, stats_count hs' (hm ▸ m1'), hca]
  have c2 : s'.count s.majLabel = s.count s.majLabel := by
    rw [stats_count hs m2, stats_count hs' (hM ▸ m2'), hc]
  unfold sample
  rw [hs, hs', ok_bind, ok_bind, hm, c1]
  split
  · rw [new_pure, new_pure, List.drop_length, List.drop_length]
  · exact h X X' y y' s s' ⟨hm, hM, c1, c2, by rw [selectLabel_eq_classRows, selectLabel_eq_classRows, hr], hX, hca, hc.symm, hl, hl', h1, h2⟩

end Verif

import Verif.Spec.Rename
import Verif.Lemmas.Stats
import Verif.Lemmas.Interp
import Verif.Model.Smote
import Verif.Model.Noise
import Verif.Model.Metrics
import Verif.Model.ProWSyn

/-!
# Lemmas: renaming the classes
-/

namespace Verif

/-- The statistics of the renamed labels. -/
structure StatsRenamed (f : Int → Int) (s s' : Stats) : Prop where
  minLabel : s'.minLabel = f s.minLabel
  majLabel : s'.majLabel = f s.majLabel
  countMin : s'.count (f s.minLabel) = s.count s.minLabel
  countMaj : s'.count (f s.majLabel) = s.count s.majLabel
  ne : s.minLabel ≠ s.majLabel

theorem count_map_inj {f : Int → Int} (hf : Function.Injective f) (y : List Int) (l : Int) : (y.map f).count (f l) = y.count l :=
  List.count_map_of_injective y f hf l

theorem sample_rename {checks : List Check} {d : Nat} {alg : Stats → List Row → List Int → Res (List Row × List Int)} {f : Int → Int}
    (hf : Function.Injective f) {X : List Row} {y : List Int} {a b : Int} (h1 : IsMinority y a b) (h2 : IsMinority (y.map f) (f a) (f b))
    (h : ∀ s s', StatsRenamed f s s' → IsMinority y s.minLabel s.majLabel → IsMinority (y.map f) (f s.minLabel) (f s.majLabel) →
      alg s' X (y.map f) = renameLabels f (alg s X y)) :
    sample checks d alg X (y.map f) = renameLabels f (sample checks d alg X y) := by
  obtain ⟨s, hs, rfl, rfl⟩ := stats_of_isMinority h1
  obtain ⟨s', hs', hm, hM⟩ := stats_of_isMinority h2
  obtain ⟨m1, m2, m3⟩ := stats_min_mem hs
  have c1 : s'.count (f s.minLabel) = s.count s.minLabel := by
    rw [stats_count hs m1, stats_count hs' (List.mem_map_of_mem m1), count_map_inj hf]
  have c2 : s'.count (f s.majLabel) = s.count s.majLabel := by
    rw [stats_count hs m2, stats_count hs' (List.mem_map_of_mem m2), count_map_inj hf]
  unfold sample
  rw [hs, hs', ok_bind, ok_bind, hm, c1]
  split
  · rfl
  · exact h s s' ⟨hm, hM, c1, c2, m3⟩ h1 h2

/-- It suffices that the algorithm treats renamed labels alike. -/
theorem names_of_alg {checks : List Check} {d : Nat} {alg : Stats → List Row → List Int → Res (List Row × List Int)}
    (h : ∀ f : Int → Int, Function.Injective f → ∀ X y s s', StatsRenamed f s s' → IsMinority y s.minLabel s.majLabel →
      IsMinority (y.map f) (f s.minLabel) (f s.majLabel) → alg s' X (y.map f) = renameLabels f (alg s X y)) :
    NamesDontMatter (sample checks d alg) :=
  fun f hf X y _ _ h1 h2 => sample_rename hf h1 h2 (h f hf X y)

section
variable {f : Int → Int}

theorem rename_bind {α : Type} (m : Res α) (k : α → Res (List Row × List Int)) :
    renameLabels f (m >>= k) = m >>= fun a => renameLabels f (k a) := by
  cases m <;> rfl

theorem rename_pure (r : List Row × List Int) : renameLabels f (pure r) = pure (r.1, r.2.map f) := rfl

theorem rename_ok (r : List Row × List Int) : renameLabels f (.ok r) = .ok (r.1, r.2.map f) := rfl

theorem rename_throw (e : PyErr) : renameLabels f (throw e) = throw e := rfl

theorem rename_error (e : PyErr) : renameLabels f (.error e) = .error e := rfl

theorem rename_ite (c : Prop) [Decidable c] (a b : Res (List Row × List Int)) :
    renameLabels f (if c then a else b) = if c then renameLabels f a else renameLabels f b := by
  split <;> rfl

theorem selectLabel_rename (hf : Function.Injective f) {α : Type} (X : List α) (y : List Int) (l : Int) :
    selectLabel X (y.map f) (f l) = selectLabel X y l := by
  unfold selectLabel
  rw [List.map_map]
  congr 1
  refine List.map_congr_left fun a _ => ?_
  simp [hf.eq_iff]

theorem withSamples_rename (X : List Row) (y : List Int) (l : Int) (S : List Row) :
    withSamples X (y.map f) (f l) S = ((withSamples X y l S).1, (withSamples X y l S).2.map f) := by
  simp [withSamples]

theorem getRow_rename {α β : Type} (g : α → β) (y : List α) (i : Nat) : getRow (y.map g) i = g <$> getRow y i := by
  unfold getRow
  rw [List.getElem?_map]
  cases y[i]? <;> rfl

theorem getRow_rename_bind {α β γ : Type} (g : α → β) (y : List α) (i : Nat) (k : β → Res γ) :
    (getRow (y.map g) i >>= k) = getRow y i >>= fun l => k (g l) := by
  rw [getRow_rename]
  cases getRow y i <;> rfl

theorem mapM_rename {α β γ : Type} (g : β → γ) (m : α → Res β) (l : List α) : l.mapM (fun a => g <$> m a) = (fun r => r.map g) <$> l.mapM m := by
  induction l with
  | nil => rfl
  | cons a l ih =>
    rw [List.mapM_cons, List.mapM_cons, ih]
    cases m a with
    | error e => rfl
    | ok b => cases l.mapM m <;> rfl

theorem takeRows_rename {α β : Type} (g : α → β) (y : List α) (idx : List Nat) : takeRows (y.map g) idx = (fun l => l.map g) <$> takeRows y idx := by
  unfold takeRows
  rw [← mapM_rename]
  congr 1
  funext i
  exact getRow_rename g y i

theorem takeRows_rename_bind {α β γ : Type} (g : α → β) (y : List α) (idx : List Nat) (k : List β → Res γ) :
    (takeRows (y.map g) idx >>= k) = takeRows y idx >>= fun l => k (l.map g) := by
  rw [takeRows_rename]
  cases takeRows y idx <;> rfl

theorem mapM_getRow_rename_bind {α β γ : Type} (g : α → β) (y : List α) (idx : List Nat) (k : List β → Res γ) :
    (idx.mapM (getRow (y.map g)) >>= k) = idx.mapM (getRow y) >>= fun l => k (l.map g) := takeRows_rename_bind g y idx k

theorem getElem?_rename (hf : Function.Injective f) (y : List Int) (i : Nat) (l : Int) : ((y.map f)[i]? = some (f l)) = (y[i]? = some l) := by
  rw [List.getElem?_map]
  cases y[i]? with
  | none => simp
  | some a => simp [hf.eq_iff]

theorem npDelete_rename {α β : Type} (g : α → β) (y : List α) (idx : List Nat) : npDelete (y.map g) idx = (npDelete y idx).map g := by
  unfold npDelete
  rw [List.zipIdx_map, List.filter_map, List.map_map, List.map_map]
  rfl

theorem assignAt_rename {α β : Type} (g : α → β) (y : List α) (idx : List Nat) (v : α) :
    assignAt (y.map g) idx (g v) = (assignAt y idx v).map g := by
  unfold assignAt
  induction idx generalizing y with
  | nil => rfl
  | cons i idx ih => rw [List.foldl_cons, List.foldl_cons, ← ih, List.map_set]

theorem labelPositions_rename (hf : Function.Injective f) (y : List Int) (l : Int) : labelPositions (y.map f) (f l) = labelPositions y l := by
  unfold labelPositions
  simp only [List.length_map, getElem?_rename hf]

theorem insertU_rename (hf : StrictMono f) (a : Int) (l : List Int) : insertU (f a) (l.map f) = (insertU a l).map f := by
  induction l with
  | nil => rfl
  | cons b l ih =>
    simp only [List.map_cons, insertU, hf.lt_iff_lt, hf.injective.eq_iff, ih]
    split
    · rfl
    · split <;> rfl

theorem npUnique_rename (hf : StrictMono f) (y : List Int) : npUnique (y.map f) = (npUnique y).map f := by
  unfold npUnique
  induction y with
  | nil => rfl
  | cons a y ih => rw [List.map_cons, List.foldr_cons, List.foldr_cons, ih, insertU_rename hf]

theorem npUnique_length_rename (hf : Function.Injective f) (y : List Int) : (npUnique (y.map f)).length = (npUnique y).length := by
  have h : ∀ y : List Int, (npUnique y).length = y.toFinset.card := by
    intro y
    rw [← List.toFinset_card_of_nodup (npUnique_nodup y)]
    congr 1
    ext a
    simp [mem_npUnique]
  rw [h, h, ← Finset.card_image_of_injective y.toFinset hf]
  congr 1
  ext a
  simp

theorem npUniqueCounts_rename (hf : StrictMono f) (y : List Int) :
    npUniqueCounts (y.map f) = (npUniqueCounts y).map (fun p => (f p.1, p.2)) := by
  unfold npUniqueCounts
  rw [npUnique_rename hf, List.map_map, List.map_map]
  refine List.map_congr_left fun a _ => ?_
  simp [count_map_inj hf.injective]

/-- The statistics with the other names. -/
def renameStats (f : Int → Int) (s : Stats) : Stats where
  classStats := s.classStats.map (fun p => (f p.1, p.2))
  minLabel := f s.minLabel
  majLabel := f s.majLabel

theorem stats_rename (hf : StrictMono f) (y : List Int) : classLabelStatistics (y.map f) = renameStats f <$> classLabelStatistics y := by
  unfold classLabelStatistics
  rw [npUniqueCounts_rename hf]
  match npUniqueCounts y with
  | [] => rfl
  | [_] => rfl
  | (u0, c0) :: (u1, c1) :: rest =>
    simp only [List.map_cons]
    show Except.ok _ = Except.ok _
    unfold renameStats
    simp only [List.map_cons, apply_ite f]

theorem stats_renamed (hf : StrictMono f) {y : List Int} {s : Stats} (hs : classLabelStatistics y = .ok s) : StatsRenamed f s (renameStats f s) := by
  have hs' : classLabelStatistics (y.map f) = .ok (renameStats f s) := by rw [stats_rename hf, hs]; rfl
  obtain ⟨m1, m2, m3⟩ := stats_min_mem hs
  refine ⟨rfl, rfl, ?_, ?_, m3⟩
  · rw [stats_count hs m1, stats_count hs' (List.mem_map_of_mem m1), count_map_inj hf.injective]
  · rw [stats_count hs m2, stats_count hs' (List.mem_map_of_mem m2), count_map_inj hf.injective]

theorem sample_order {checks : List Check} {d : Nat} {alg : Stats → List Row → List Int → Res (List Row × List Int)} (hf : StrictMono f)
    {X : List Row} {y : List Int} (h : ∀ s s', StatsRenamed f s s' → alg s' X (y.map f) = renameLabels f (alg s X y)) :
    sample checks d alg X (y.map f) = renameLabels f (sample checks d alg X y) := by
  unfold sample
  rw [stats_rename hf]
  match hs : classLabelStatistics y with
  | .error e => rfl
  | .ok s =>
    have hr := stats_renamed hf hs
    rw [show (renameStats f <$> Except.ok s : Res Stats) = Except.ok (renameStats f s) from rfl, ok_bind, ok_bind,
      show (renameStats f s).minLabel = f s.minLabel from rfl, hr.countMin]
    split
    · rfl
    · exact h s _ hr

/-- It suffices that the algorithm treats renamed labels alike. -/
theorem order_of_alg {checks : List Check} {d : Nat} {alg : Stats → List Row → List Int → Res (List Row × List Int)}
    (h : ∀ f : Int → Int, StrictMono f → ∀ X y s s', StatsRenamed f s s' → alg s' X (y.map f) = renameLabels f (alg s X y)) :
    OnlyOrderMatters (sample checks d alg) :=
  fun f hf X y => sample_order hf (h f hf X y)

theorem pyMode_rename (hf : StrictMono f) (y : List Int) : pyMode (y.map f) = f <$> pyMode y := by
  unfold pyMode
  rw [npUniqueCounts_rename hf]
  simp only [List.map_map]
  rw [show (Prod.snd ∘ fun p : Int × Nat => (f p.1, p.2)) = Prod.snd from rfl]
  cases pyMax ((npUniqueCounts y).map Prod.snd) with
  | error e => rfl
  | ok m =>
    simp only [ok_bind]
    rw [List.find?_map]
    rw [show ((fun p : Int × Nat => p.2 == m) ∘ fun p : Int × Nat => (f p.1, p.2)) = fun p => p.2 == m from rfl]
    cases (npUniqueCounts y).find? (fun p => p.2 == m) <;> rfl

theorem pyMode_rename_bind (hf : StrictMono f) {γ : Type} (y : List Int) (k : Int → Res γ) :
    (pyMode (y.map f) >>= k) = pyMode y >>= fun l => k (f l) := by
  rw [pyMode_rename hf]
  cases pyMode y <;> rfl

end

end Verif

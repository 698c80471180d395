import Verif.Model.Esmote
import Verif.Props.C01
import Verif.Props.C14
import Verif.Props.C38
import Verif.Lemmas.Interp
import Verif.Lemmas.Clusters
import Verif.Lemmas.SmoteExample
import Mathlib.Tactic.Linarith
import Mathlib.Tactic.Positivity

/-!
# C99: E_SMOTE
-/

namespace Verif

/-! ## Specification -/

/-- What is assumed of the environment for `d` features: the draws are in range, the classifier labels every row, and every feature is drawn among
the first `fuel` draws of the loop that adds features. -/
structure EsEnv.OK (env : EsEnv) (d : Nat) : Prop where
  start : env.start d < d
  i0 : ∀ g k, env.i0 g k < 5
  i1 : ∀ g k, env.i1 g k < 5
  refill : ∀ g k s, env.refill g k s d < d
  fair : ∀ g k j, j < d → ∃ s, s < env.fuel ∧ env.refill g k s d = j
  predict : ∀ X y, X.length = y.length → (env.predict X y).length = y.length

/-- `m` is `c` if this has at least `minF` features, and else `c` with features added up to `minF`. -/
def Filled (minF : Nat) (c m : List Bool) : Prop :=
  m.length = c.length ∧ (∀ i : Nat, c[i]? = some true → m[i]? = some true) ∧ (minF ≤ c.count true → m = c) ∧
    (c.count true < minF → m.count true = minF)

/-- Each feature is taken from one of two parents. -/
def CrossedMask (a b c : List Bool) : Prop := c.length = a.length ∧ ∀ i : Nat, c[i]? = a[i]? ∨ c[i]? = b[i]?

/-- The score of a mask: the share of the rows whose label is predicted from the masked features. -/
def maskScore (predict : List Row → List Int → List Int) (X : List Row) (y : List Int) (m : List Bool) : ℚ :=
  ((List.zip y (predict (X.map (esRestrict m)) y)).countP (fun p => p.1 = p.2) : ℚ) / y.length

/-- The search: after `g` generations the population is `pop`, and `all` are the five first masks and those evaluated, in this order. -/
inductive EsHistory (predict : List Row → List Int → List Int) (minF d : Nat) (X : List Row) (y : List Int) :
    Nat → List (ℚ × List Bool) → List (ℚ × List Bool) → Prop
  | start {f : Nat} {m : List Bool} : f < d → m.length = d → (∀ i : Nat, m[i]? = some true ↔ i = f) →
      EsHistory predict minF d X y 0 (List.replicate 5 (0, m)) (List.replicate 5 (0, m))
  | next {g : Nat} {pop all new L : List (ℚ × List Bool)} : EsHistory predict minF d X y g pop all → new.length = 5 →
      (∀ e ∈ new, e.1 = maskScore predict X y e.2 ∧ ∃ c, Filled minF c e.2 ∧
        ((∃ p ∈ pop, ∃ q ∈ pop, CrossedMask p.2 q.2 c) ∨ c.length = d)) →
      L.Perm (pop ++ new) → L.Pairwise (fun a b => b.1 ≤ a.1) → EsHistory predict minF d X y (g + 1) (L.take 5) (all ++ new)

/-- `e` is the first of the entries with the largest score. -/
def FirstBest (l : List (ℚ × List Bool)) (e : ℚ × List Bool) : Prop :=
  ∃ i : Nat, l[i]? = some e ∧ ∀ (j : Nat) (e' : ℚ × List Bool), l[j]? = some e' → e'.1 ≤ e.1 ∧ (j < i → e'.1 < e.1)

/-! ## Filling -/

theorem esFill_spec {minF : Nat} {draw : Nat → Nat} (fuel s : Nat) {c : List Bool} (hmin : minF ≤ c.length) (hd : ∀ s, draw s < c.length)
    (hf : ∀ j, j < c.length → c[j]? = some true ∨ ∃ s', s ≤ s' ∧ s' < s + fuel ∧ draw s' = j) :
    ∃ m, esFill minF draw fuel s c = .ok m ∧ Filled minF c m := by
  induction fuel generalizing s c with
  | zero =>
    have hall : c.count true = c.length := by
      rw [List.count_eq_length]
      intro b hb
      obtain ⟨j, hj⟩ := List.mem_iff_getElem?.1 hb
      rcases hf j (List.getElem?_eq_some_iff.1 hj).1 with h | ⟨s', h1, h2, _⟩
      · rw [hj] at h
        injection h with h
        exact h.symm
      · omega
    refine ⟨c, ?_, rfl, fun _ h => h, fun _ => rfl, fun h => ?_⟩
    · rw [esFill, if_neg (by omega)]
    · omega
  | succ fuel ih =>
    rw [esFill]
    by_cases hc : c.count true < minF
    · rw [if_pos hc]
      have hset : ∀ i : Nat, c[i]? = some true → (c.set (draw s) true)[i]? = some true := by
        intro i hi
        rw [List.getElem?_set]
        split
        · rw [if_pos (hd s)]
        · exact hi
      obtain ⟨m, h1, h2, h3, h4, h5⟩ := ih (s + 1) (c := c.set (draw s) true) (by rw [List.length_set]; exact hmin)
        (by intro s; rw [List.length_set]; exact hd s) (by
          intro j hj
          rw [List.length_set] at hj
          rcases hf j hj with h | ⟨s', e1, e2, e3⟩
          · exact Or.inl (hset j h)
          · by_cases he : s' = s
            · left
              rw [List.getElem?_set, if_pos (by rw [← he]; exact e3), if_pos (hd s)]
            · exact Or.inr ⟨s', by omega, by omega, e3⟩)
      refine ⟨m, h1, by rw [h2, List.length_set], fun i hi => h3 i (hset i hi), fun h => by omega, fun _ => ?_⟩
      have hcount : (c.set (draw s) true).count true ≤ c.count true + 1 := by
        rw [List.count_set (hd s)]
        simp
      rcases Nat.lt_or_ge ((c.set (draw s) true).count true) minF with h | h
      · exact h5 h
      · rw [h4 h]
        omega
    · rw [if_neg hc]
      exact ⟨c, rfl, rfl, fun _ h => h, fun _ => rfl, fun h => absurd h hc⟩

theorem filled_count {minF : Nat} {c m : List Bool} (h : Filled minF c m) : minF ≤ m.count true := by
  obtain ⟨_, _, h3, h4⟩ := h
  rcases Nat.lt_or_ge (c.count true) minF with h | h
  · rw [h4 h]
  · rw [h3 h]
    exact h

theorem score_eq {predict : List Row → List Int → List Int} {X : List Row} {y : List Int} {m : List Bool} :
    (((List.zipWith (fun p q => decide (p = q)) y (predict (X.map (esRestrict m)) y)).count true : ℚ) / y.length) = maskScore predict X y m := by
  unfold maskScore
  have h : ∀ l l' : List Int, (List.zipWith (fun p q => decide (p = q)) l l').count true = (List.zip l l').countP (fun p => p.1 = p.2) := by
    intro l
    induction l with
    | nil => intro l'; simp
    | cons x l ih =>
      intro l'
      cases l' with
      | nil => simp
      | cons z l' =>
        rw [List.zipWith_cons_cons, List.zip_cons_cons, List.count_cons, List.countP_cons, ih]
        simp
  rw [h]

theorem esRound_spec {env : EsEnv} {d : Nat} (henv : env.OK d) {minF : Nat} (hmin : minF ≤ d) {X : List Row} {y : List Int} (g : Nat)
    {pop : List (ℚ × List Bool)} (hp : pop.length = 5) (hpl : ∀ e ∈ pop, e.2.length = d) (k : Nat) :
    ∃ e, esRound env minF d X y g pop k = .ok e ∧ e.1 = maskScore env.predict X y e.2 ∧ ∃ c, Filled minF c e.2 ∧
        c.length = d ∧ ((∃ p ∈ pop, ∃ q ∈ pop, CrossedMask p.2 q.2 c) ∨ c.length = d) := by
  obtain ⟨a, ha⟩ : ∃ a, pop[env.i0 g k]? = some a := ⟨_, List.getElem?_eq_getElem (by rw [hp]; exact henv.i0 g k)⟩
  obtain ⟨b, hb⟩ : ∃ b, pop[env.i1 g k]? = some b := ⟨_, List.getElem?_eq_getElem (by rw [hp]; exact henv.i1 g k)⟩
  have hal := hpl a (List.mem_of_getElem? ha)
  have hbl := hpl b (List.mem_of_getElem? hb)
  have hfill : ∀ c : List Bool, c.length = d → ∃ m, esFill minF (fun s => env.refill g k s d) env.fuel 0 c = .ok m ∧ Filled minF c m := by
    intro c hc
    apply esFill_spec
    · omega
    · intro s
      rw [hc]
      exact henv.refill g k s
    · intro j hj
      obtain ⟨s, h1, h2⟩ := henv.fair g k j (by omega)
      exact Or.inr ⟨s, by omega, by omega, h2⟩
  unfold esRound
  rw [getRow_ok.2 ha, ok_bind]
  by_cases hx : env.cross g k = true
  · simp only [hx, if_true]
    rw [getRow_ok.2 hb, ok_bind]
    unfold esCrossover
    obtain ⟨m, h1, h2⟩ := hfill ((List.range a.2.length).map (fun i => if env.coin g k i then b.2.getD i false else a.2.getD i false)) (by simp [hal])
    rw [h1, ok_bind]
    refine ⟨_, rfl, score_eq, _, h2, by simp [hal], Or.inl ⟨a, List.mem_of_getElem? ha, b, List.mem_of_getElem? hb, by simp, ?_⟩⟩
    intro i
    rcases Nat.lt_or_ge i d with hi | hi
    · rw [List.getElem?_map, List.getElem?_range (by omega), Option.map_some]
      have e1 : a.2[i]? = some (a.2.getD i false) := by
        rw [List.getD_eq_getElem?_getD, List.getElem?_eq_getElem (by omega)]; rfl
      have e2 : b.2[i]? = some (b.2.getD i false) := by
        rw [List.getD_eq_getElem?_getD, List.getElem?_eq_getElem (by omega)]; rfl
      rw [e1, e2]
      split
      · exact Or.inr rfl
      · exact Or.inl rfl
    · left
      rw [List.getElem?_eq_none (by simp; omega), List.getElem?_eq_none (by omega)]
  · simp only [hx]
    unfold esMutate
    obtain ⟨m, h1, h2⟩ := hfill ((List.range a.2.length).map (fun i => if env.coin g k i then ! a.2.getD i false else a.2.getD i false)) (by simp [hal])
    simp only [Bool.false_eq_true, if_false]
    rw [h1, ok_bind]
    exact ⟨_, rfl, score_eq, _, h2, by simp [hal], Or.inr (by simp [hal])⟩

/-! ## The best mask -/

/-- The first of the best entries, by recursion. -/
def firstBestOf : List (ℚ × List Bool) → Option (ℚ × List Bool)
  | [] => none
  | a :: l => match firstBestOf l with
    | none => some a
    | some e => if e.1 ≤ a.1 then some a else some e

/-- The earlier entry unless the later one is better. -/
def betterOf : Option (ℚ × List Bool) → Option (ℚ × List Bool) → Option (ℚ × List Bool)
  | none, o => o
  | some a, none => some a
  | some a, some e => if e.1 ≤ a.1 then some a else some e

theorem firstBestOf_cons (a : ℚ × List Bool) (l : List (ℚ × List Bool)) : firstBestOf (a :: l) = betterOf (some a) (firstBestOf l) := by
  rw [firstBestOf]
  cases firstBestOf l <;> rfl

theorem betterOf_assoc (a b c : Option (ℚ × List Bool)) : betterOf (betterOf a b) c = betterOf a (betterOf b c) := by
  cases a with
  | none => rfl
  | some a =>
    cases b with
    | none => rfl
    | some b =>
      cases c with
      | none =>
        simp only [betterOf]
        by_cases h : b.1 ≤ a.1
        · simp only [if_pos h]
        · simp only [if_neg h]
      | some c =>
        simp only [betterOf]
        by_cases h1 : b.1 ≤ a.1
        · rw [if_pos h1]
          by_cases h2 : c.1 ≤ b.1
          · simp only [if_pos h2, if_pos h1, if_pos (le_trans h2 h1)]
          · simp only [if_neg h2]
        · rw [if_neg h1]
          by_cases h2 : c.1 ≤ b.1
          · simp only [if_pos h2, if_neg h1]
          · have h3 : ¬ c.1 ≤ a.1 := by
              intro h
              exact h1 (le_trans (not_le.1 h2).le h)
            simp only [if_neg h2, if_neg h3]

theorem firstBestOf_append (l l' : List (ℚ × List Bool)) : firstBestOf (l ++ l') = betterOf (firstBestOf l) (firstBestOf l') := by
  induction l with
  | nil => rfl
  | cons a l ih => rw [List.cons_append, firstBestOf_cons, ih, firstBestOf_cons, betterOf_assoc]

theorem head_sorted {l : List (ℚ × List Bool)} (h : l.Pairwise (fun a b => b.1 ≤ a.1)) : firstBestOf l = l.head? := by
  cases l with
  | nil => rfl
  | cons a l =>
    rw [firstBestOf_cons]
    have hle : ∀ l : List (ℚ × List Bool), (∀ e ∈ l, e.1 ≤ a.1) → betterOf (some a) (firstBestOf l) = some a := by
      intro l
      induction l with
      | nil => intro _; rfl
      | cons b l ih =>
        intro hb
        rw [firstBestOf_cons, ← betterOf_assoc]
        simp only [betterOf, if_pos (hb b List.mem_cons_self)]
        exact ih (fun e he => hb e (List.mem_cons_of_mem _ he))
    rw [hle l (fun e he => (List.pairwise_cons.1 h).1 e he)]
    rfl

theorem head_insertionSort (l : List (ℚ × List Bool)) : (l.insertionSort (fun a b => b.1 ≤ a.1)).head? = firstBestOf l := by
  induction l with
  | nil => rfl
  | cons a l ih =>
    rw [List.insertionSort_cons, firstBestOf_cons, ← ih]
    cases h : l.insertionSort (fun a b => b.1 ≤ a.1) with
    | nil => rfl
    | cons b l' =>
      rw [List.orderedInsert_cons]
      simp only [betterOf, List.head?_cons]
      split <;> rfl

theorem firstBestOf_spec {l : List (ℚ × List Bool)} {e : ℚ × List Bool} (h : firstBestOf l = some e) : FirstBest l e := by
  induction l generalizing e with
  | nil => simp [firstBestOf] at h
  | cons a l ih =>
    rw [firstBestOf] at h
    cases hl : firstBestOf l with
    | none =>
      have : l = [] := by
        cases l with
        | nil => rfl
        | cons b l =>
          rw [firstBestOf_cons] at hl
          cases hb : firstBestOf l <;> rw [hb] at hl <;> simp only [betterOf] at hl
          · simp at hl
          · split at hl <;> simp at hl
      subst this
      rw [hl] at h
      injection h with h
      subst h
      refine ⟨0, rfl, ?_⟩
      intro j e' hj
      cases j with
      | zero =>
        simp only [List.getElem?_cons_zero, Option.some.injEq] at hj
        subst hj
        exact ⟨le_refl _, by omega⟩
      | succ j => simp at hj
    | some b =>
      rw [hl] at h
      obtain ⟨i, h1, h2⟩ := ih hl
      simp only at h
      split at h
      · rename_i hba
        injection h with h
        subst h
        refine ⟨0, rfl, ?_⟩
        intro j e' hj
        cases j with
        | zero =>
          simp only [List.getElem?_cons_zero, Option.some.injEq] at hj
          subst hj
          exact ⟨le_refl _, by omega⟩
        | succ j =>
          rw [List.getElem?_cons_succ] at hj
          exact ⟨le_trans (h2 j e' hj).1 hba, by omega⟩
      · rename_i hba
        injection h with h
        subst h
        refine ⟨i + 1, h1, ?_⟩
        intro j e' hj
        cases j with
        | zero =>
          simp only [List.getElem?_cons_zero, Option.some.injEq] at hj
          subst hj
          exact ⟨(not_le.1 hba).le, fun _ => not_le.1 hba⟩
        | succ j =>
          rw [List.getElem?_cons_succ] at hj
          exact ⟨(h2 j e' hj).1, fun hlt => (h2 j e' hj).2 (by omega)⟩

/-! ## The search -/

theorem esGenerations_spec {env : EsEnv} {d : Nat} (henv : env.OK d) {minF : Nat} (hmin : minF ≤ d) {X : List Row} {y : List Int} (g : Nat) :
    ∃ pop all, (List.range g).foldlM (esGeneration env minF d X y) (List.replicate 5 (0, (List.replicate d false).set (env.start d) true)) = .ok pop ∧
      EsHistory env.predict minF d X y g pop all ∧ pop.length = 5 ∧ (∀ e ∈ pop, e.2.length = d) ∧ all.length = 5 + 5 * g ∧
      pop.head? = firstBestOf all := by
  induction g with
  | zero =>
    refine ⟨_, List.replicate 5 (0, (List.replicate d false).set (env.start d) true), rfl, ?_, by simp, ?_, by simp, ?_⟩
    · refine .start henv.start (by simp) ?_
      intro i
      rw [List.getElem?_set]
      split
      · rename_i h
        rw [if_pos (by rw [List.length_replicate]; exact henv.start)]
        simp [h]
      · rename_i h
        simp only [List.getElem?_replicate]
        constructor
        · intro h'
          split at h' <;> simp at h'
        · intro h'
          exact absurd h'.symm h
    · intro e he
      rw [List.eq_of_mem_replicate he]
      simp
    · rw [head_sorted]
      rw [List.pairwise_replicate]
      exact Or.inr (le_refl _)
  | succ g ih =>
    obtain ⟨pop, all, h1, h2, h3, h4, h5, h6⟩ := ih
    have hround := fun k => esRound_spec (X := X) (y := y) henv hmin g h3 h4 k
    obtain ⟨new, hnew⟩ := mapM_exists_ok (f := esRound env minF d X y g pop) (l := List.range 5)
      (fun k _ => let ⟨e, he, _⟩ := hround k; ⟨e, he⟩)
    have hnl : new.length = 5 := by rw [mapM_ok_length hnew, List.length_range]
    have hne : ∀ e ∈ new, e.1 = maskScore env.predict X y e.2 ∧ ∃ c, Filled minF c e.2 ∧
        c.length = d ∧ ((∃ p ∈ pop, ∃ q ∈ pop, CrossedMask p.2 q.2 c) ∨ c.length = d) := by
      intro e he
      obtain ⟨k, _, hk⟩ := mapM_ok_mem hnew he
      obtain ⟨e', e1, e2⟩ := hround k
      rw [hk] at e1
      injection e1 with e1
      rw [e1]
      exact e2
    have : Std.Total (fun a b : ℚ × List Bool => b.1 ≤ a.1) := ⟨fun a b => le_total _ _⟩
    have : IsTrans (ℚ × List Bool) (fun a b => b.1 ≤ a.1) := ⟨fun a b c h1 h2 => le_trans h2 h1⟩
    have hperm := List.perm_insertionSort (fun a b : ℚ × List Bool => b.1 ≤ a.1) (pop ++ new)
    have hsort := List.pairwise_insertionSort (fun a b : ℚ × List Bool => b.1 ≤ a.1) (pop ++ new)
    refine ⟨esSurvivors (pop ++ new), all ++ new, ?_, .next h2 hnl ?_ hperm hsort, ?_, ?_, ?_, ?_⟩
    · rw [List.range_succ, List.foldlM_append, h1, ok_bind]
      simp only [List.foldlM_cons, List.foldlM_nil]
      unfold esGeneration
      rw [hnew, ok_bind]
      rfl
    · intro e he
      obtain ⟨e1, c, e2, _, e3⟩ := hne e he
      exact ⟨e1, c, e2, e3⟩
    · unfold esSurvivors
      rw [List.length_take, hperm.length_eq, List.length_append, h3, hnl]
      rfl
    · intro e he
      have := hperm.mem_iff.1 (List.mem_of_mem_take he)
      rcases List.mem_append.1 this with h | h
      · exact h4 e h
      · obtain ⟨_, c, e2, e3, _⟩ := hne e h
        rw [e2.1, e3]
    · rw [List.length_append, h5, hnl]
      omega
    · unfold esSurvivors
      rw [List.head?_take, if_neg (by omega), head_insertionSort, firstBestOf_append, firstBestOf_append, ← h6]
      congr 1
      cases g with
      | zero =>
        cases h2 with
        | start _ _ _ =>
          rw [head_sorted]
          rw [List.pairwise_replicate]
          exact Or.inr (le_refl _)
      | succ g =>
        cases h2 with
        | next _ _ _ _ hs => exact head_sorted (hs.sublist (List.take_sublist _ _))

theorem esSearch_spec {env : EsEnv} {d : Nat} (henv : env.OK d) (minFeatures : Nat) (X : List Row) (y : List Int) :
    ∃ pop all score mask, esSearch env minFeatures d X y = .ok mask ∧ EsHistory env.predict (min minFeatures d) d X y 50 pop all ∧
      all.length = 255 ∧ FirstBest all (score, mask) ∧ mask.length = d := by
  obtain ⟨pop, all, h1, h2, h3, h4, h5, h6⟩ := esGenerations_spec (X := X) (y := y) henv (Nat.min_le_right minFeatures d) 50
  obtain ⟨e, he⟩ : ∃ e, pop[0]? = some e := ⟨_, List.getElem?_eq_getElem (by omega)⟩
  refine ⟨pop, all, e.1, e.2, ?_, h2, h5, ?_, h4 e (List.mem_of_getElem? he)⟩
  · unfold esSearch
    simp only
    rw [h1, ok_bind, getRow_ok.2 he, ok_bind]
    rfl
  · apply firstBestOf_spec
    rw [← h6, List.head?_eq_getElem?, he]

/-- Masks of the search that are not first masks have enough features; the first masks have score 0 and one feature. -/
theorem esHistory_features {predict : List Row → List Int → List Int} {minF d : Nat} {X : List Row} {y : List Int} {g : Nat}
    {pop all : List (ℚ × List Bool)} (h : EsHistory predict minF d X y g pop all) :
    ∀ (j : Nat) (e : ℚ × List Bool), all[j]? = some e → (j < 5 ∧ e.1 = 0 ∧ e.2.count true = 1) ∨ (5 ≤ j ∧ 0 ≤ e.1 ∧ minF ≤ e.2.count true) := by
  have hlen : ∀ {g : Nat} {pop all : List (ℚ × List Bool)}, EsHistory predict minF d X y g pop all → 5 ≤ all.length := by
    intro g pop all h
    induction h with
    | start _ _ _ => simp
    | next _ _ _ _ _ ih => rw [List.length_append]; omega
  induction h with
  | @start f m hf hl hm =>
    intro j e hj
    left
    have hj5 := (List.getElem?_eq_some_iff.1 hj).1
    rw [List.length_replicate] at hj5
    have := List.eq_of_mem_replicate (List.mem_of_getElem? hj)
    refine ⟨hj5, by rw [this], ?_⟩
    rw [this]
    simp only
    have he : m = (List.replicate d false).set f true := by
      apply List.ext_getElem?
      intro i
      rw [List.getElem?_set, List.length_replicate, List.getElem?_replicate]
      by_cases hif : f = i
      · rw [if_pos hif, if_pos hf]
        exact (hm i).2 hif.symm
      · rw [if_neg hif]
        split
        · rename_i hid
          rw [List.getElem?_eq_getElem (by omega)]
          have : m[i]? ≠ some true := fun h => hif ((hm i).1 h).symm
          rw [List.getElem?_eq_getElem (by omega)] at this
          cases hb : m[i] with
          | true => rw [hb] at this; exact absurd rfl this
          | false => rfl
        · rw [List.getElem?_eq_none (by omega)]
    rw [he, List.count_set (by rw [List.length_replicate]; exact hf)]
    simp [List.count_replicate]
  | @next g pop all new L h hn hnew _ _ ih =>
    intro j e hj
    rcases Nat.lt_or_ge j all.length with h1 | h1
    · rw [List.getElem?_append_left h1] at hj
      exact ih j e hj
    · rw [List.getElem?_append_right h1] at hj
      obtain ⟨e1, c, e2, _⟩ := hnew e (List.mem_of_getElem? hj)
      refine Or.inr ⟨by have := hlen h; omega, ?_, filled_count e2⟩
      rw [e1]
      unfold maskScore
      positivity

theorem esRestrict_length (m : List Bool) (r : Row) : (esRestrict m r).length = m.count true := by
  unfold esRestrict npWhere
  rw [List.length_map]
  have := countP_eq_range (fun b : Bool => b == true) m
  rw [List.count, this]
  congr 2
  funext i
  simp [List.getD_eq_getElem?_getD]

/-! ## The property -/

/-- **E_SMOTE.** The search evaluates 250 masks; the one kept as the attribute `mask` is the first with the largest share of rows predicted correctly.
It has at least `min_features` features (or all, if there are fewer) as soon as one mask predicts one row correctly. The result is that of
SMOTE for the data restricted to the features of the mask, and `preprocessing_transform` applied to the input gives its first rows. -/
theorem C99_esmote {env : EsEnv} {d : Nat} (henv : env.OK d) {minFeatures : Nat} {par : SmoteParams} {vol : List Row → ℚ} {dr : Draws}
    {knn : Nat → List Row → List (List Nat)} {X : List Row} {y : List Int} {a b : Int} {s : Stats}
    (hwf : WF d X y) (hk : KnnOK knn) (hdr : dr.OK) (hpos : ∀ i j, 0 < dr.simplexU i j) (hmin : IsMinority y a b) (h3 : 2 < y.count a)
    (hs : classLabelStatistics y = .ok s) (hd : 1 ≤ par.ss.nDim)
    (hmode : par.ss.simplexSampling = .random ∨ par.ss.simplexSampling = .deterministic ∨
      (par.ss.simplexSampling = .volume ∧ ∀ vs, 0 < vol vs))
    (hwi : par.ss.within = .random ∨ (par.ss.within = .deterministic ∧ par.ss.nDim ≤ 2)) (hg : par.ss.gaussian = .none)
    (hreq : requested par.proportion (y.count b) (y.count a) ≠ 0) (old : Option (List Bool)) :
    ∃ pop all score mask Xr X' y', EsHistory env.predict (min minFeatures d) d X y 50 pop all ∧ all.length = 255 ∧ FirstBest all (score, mask) ∧
      (∀ (j : Nat) (e : ℚ × List Bool), all[j]? = some e → 0 < e.1 → min minFeatures d ≤ mask.count true) ∧
      esMaskAfter env minFeatures par d old s X y = .ok (some mask) ∧ esTransform (some mask) X = some Xr ∧
      (∀ r ∈ Xr, r.length = mask.count true) ∧ mask.length = d ∧
      sample defaultChecks d (esAlg env minFeatures par vol dr knn d) X y = .ok (X', y') ∧
      SmoteStep (mask.count true) Xr y a (requested par.proportion (y.count b) (y.count a)) X' y' := by
  obtain ⟨s', hs', rfl, rfl⟩ := stats_of_isMinority hmin
  have : s' = s := by
    rw [hs'] at hs
    injection hs
  subst this
  obtain ⟨hm, hM, hab⟩ := stats_min_mem hs
  obtain ⟨pop, all, score, mask, h1, h2, h4, h5, h6⟩ := esSearch_spec henv minFeatures X y
  obtain ⟨Xr, hXr⟩ : ∃ Xr, Xr = X.map (esRestrict mask) := ⟨_, rfl⟩
  have hrl : ∀ r ∈ Xr, r.length = mask.count true := by
    intro r hr
    rw [hXr] at hr
    obtain ⟨r', _, rfl⟩ := List.mem_map.1 hr
    exact esRestrict_length mask r'
  have hwf' : WF (mask.count true) Xr y := ⟨by rw [hXr, List.length_map]; exact hwf.1, hrl⟩
  obtain ⟨⟨X', y'⟩, hsm⟩ := C01_smote_total (vol := vol) hwf' hk hdr hpos hmin hd hmode hwi
  refine ⟨pop, all, score, mask, Xr, X', y', h2, h4, h5, ?_, ?_, ?_, hrl, h6, ?_, smoteStep_of hwf' hk hdr hg hs h3 hsm⟩
  · intro j e hj he
    obtain ⟨i, hi, hbest⟩ := h5
    rcases esHistory_features h2 i _ hi with ⟨_, h0, _⟩ | ⟨_, _, h⟩
    · have := (hbest j e hj).1
      simp only at h0 this
      rw [h0] at this
      exact absurd he (not_lt.2 this)
    · exact h
  · unfold esMaskAfter
    rw [stats_count hs hm, stats_count hs hM, detN_eq_requested, ok_bind, if_neg hreq, h1, ok_bind]
    rfl
  · unfold esTransform
    rw [hXr]
    rfl
  · rw [sample_default hs, if_neg (by omega)]
    unfold esAlg
    rw [stats_count hs hm, stats_count hs hM, detN_eq_requested, ok_bind, if_neg hreq, h1, ok_bind, ← hXr, hsm]

/-- **The transform after a call without sampling.** If no row is requested, the data keep all their features, but the mask of an earlier call is
kept: `preprocessing_transform` still drops features. (Without an earlier call the mask is `None` and the transform gives no matrix.) -/
theorem C99_stale {env : EsEnv} {d minFeatures : Nat} {par : SmoteParams} {vol : List Row → ℚ} {dr : Draws}
    {knn : Nat → List Row → List (List Nat)} {X : List Row} {y : List Int} {a b : Int} {s : Stats} (hmin : IsMinority y a b)
    (h3 : 2 < y.count a) (hs : classLabelStatistics y = .ok s) (hreq : requested par.proportion (y.count b) (y.count a) = 0)
    (old : Option (List Bool)) :
    sample defaultChecks d (esAlg env minFeatures par vol dr knn d) X y = .ok (X, y) ∧ esMaskAfter env minFeatures par d old s X y = .ok old := by
  obtain ⟨s', hs', rfl, rfl⟩ := stats_of_isMinority hmin
  have : s' = s := by
    rw [hs'] at hs
    injection hs
  subst this
  obtain ⟨hm, hM, hab⟩ := stats_min_mem hs
  constructor
  · rw [sample_default hs, if_neg (by omega)]
    unfold esAlg
    rw [stats_count hs hm, stats_count hs hM, detN_eq_requested, ok_bind, if_pos hreq]
    rfl
  · unfold esMaskAfter
    rw [stats_count hs hm, stats_count hs hM, detN_eq_requested, ok_bind, if_pos hreq]
    rfl

/-! ## Examples -/

/-- Masks are mutated without a change; the classifier knows the labels. -/
def esEnv0 : EsEnv where
  start _ := 1
  cross _ _ := false
  i0 _ _ := 0
  i1 _ _ := 0
  coin _ _ _ := false
  refill _ _ s d := s % d
  fuel := 2
  predict _ y := y

theorem esEnv0_ok : esEnv0.OK 2 where
  start := by decide
  i0 _ _ := by show 0 < 5; omega
  i1 _ _ := by show 0 < 5; omega
  refill _ _ s := Nat.mod_lt _ (by omega)
  fair _ _ j hj := ⟨j, hj, Nat.mod_eq_of_lt hj⟩
  predict _ _ _ := rfl

/-- The hypotheses are met; with `min_features=1` the result has one column where the input has two. -/
example : esEnv0.OK 2 ∧ WF 2 exX exY ∧ IsMinority exY 1 0 ∧ 2 < exY.count 1 ∧ exPar.ss.gaussian = .none ∧
    requested exPar.proportion (exY.count 0) (exY.count 1) ≠ 0 ∧
    sample defaultChecks 2 (esAlg esEnv0 1 exPar (fun _ => 1) exDraws bruteKnn 2) exX exY =
      .ok ([[0], [0], [1], [5], [5], [6], [6], [7], [2 / 5], [2 / 5]], exY ++ [1, 1]) :=
  ⟨esEnv0_ok, ⟨by decide, by decide +kernel⟩, exY_min, by decide, rfl, by decide +kernel, by decide +kernel⟩

/-- A call without sampling after one with it. -/
example : sample defaultChecks 2 (esAlg esEnv0 1 ⟨0, 5, exPar.ss⟩ (fun _ => 1) exDraws bruteKnn 2) exX exY = .ok (exX, exY) ∧
    esTransform (some [false, true]) exX = some [[0], [0], [1], [5], [5], [6], [6], [7]] :=
  ⟨by decide +kernel, by decide +kernel⟩

end Verif

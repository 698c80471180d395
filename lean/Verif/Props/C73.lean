import Verif.Model.SlGraph
import Verif.Props.C31
import Verif.Props.C48
import Mathlib.Tactic.LinearCombination
import Mathlib.Tactic.FieldSimp
import Mathlib.Tactic.Positivity
import Mathlib.Algebra.BigOperators.Ring.List

/-! # C73: SL_graph_SMOTE -/

namespace Verif

/-! ## Specification -/

/-- The number of rows of class `a` among the rows listed, for every list. -/
def classCounts (y : List Int) (a : Int) (table : List (List Nat)) : List ℚ :=
  table.map (fun row => ((row.countP (fun i => decide (y[i]? = some a)) : Nat) : ℚ))

/-- The third central moment, times the number of values. Its sign is that of the skewness. -/
def thirdMoment (vs : List ℚ) : ℚ := (vs.map (fun v => (v - vs.sum / (vs.length : ℚ)) ^ 3)).sum

/-! ## Lemmas -/

theorem sum_affine (b c : ℚ) : ∀ vs : List ℚ, (vs.map (fun v => b + c * v)).sum = b * vs.length + c * vs.sum
  | [] => by simp
  | v :: vs => by
    rw [List.map_cons, List.sum_cons, sum_affine b c vs, List.sum_cons, List.length_cons]
    push_cast
    ring

theorem thirdMoment_affine (b c : ℚ) (vs : List ℚ) : thirdMoment (vs.map (fun v => b + c * v)) = c ^ 3 * thirdMoment vs := by
  unfold thirdMoment
  rw [sum_affine, List.length_map, List.map_map, ← List.sum_map_mul_left]
  congr 1
  apply List.map_congr_left
  intro v hv
  have h0 : (vs.length : ℚ) ≠ 0 := by
    have := List.length_pos_of_mem hv
    positivity
  dsimp only [Function.comp]
  have e : (b * (vs.length : ℚ) + c * vs.sum) / (vs.length : ℚ) = b + c * (vs.sum / (vs.length : ℚ)) := by
    field_simp
  rw [e]
  ring

theorem label_sum {y : List Int} {a b : Int} (hy : ∀ l ∈ y, l = a ∨ l = b) : ∀ {row : List Nat}, (∀ i ∈ row, i < y.length) →
    ∃ ls, row.mapM (getRow y) = .ok ls ∧
      ((ls.sum : Int) : ℚ) = (b : ℚ) * row.length + ((a : ℚ) - b) * ((row.countP (fun i => decide (y[i]? = some a)) : Nat) : ℚ)
  | [], _ => ⟨[], rfl, by simp⟩
  | i :: row, h => by
    obtain ⟨ls, h1, h2⟩ := label_sum hy (row := row) (fun i hi => h i (List.mem_cons_of_mem _ hi))
    have hi := h i List.mem_cons_self
    refine ⟨y[i] :: ls, ?_, ?_⟩
    · rw [List.mapM_cons, getRow_ok.2 (List.getElem?_eq_getElem hi), ok_bind, h1, ok_bind]
      rfl
    · rw [List.sum_cons, List.countP_cons, List.getElem?_eq_getElem hi, List.length_cons]
      push_cast
      rw [h2]
      by_cases hl : y[i] = a
      · rw [hl]
        simp
        ring
      · rcases hy _ (List.getElem_mem hi) with h' | h'
        · exact absurd h' hl
        · have hab : b ≠ a := by rw [← h']; exact hl
          rw [h']
          simp [hab]
          ring

theorem labelSums_eq {y : List Int} {a b : Int} {k : Nat} (hy : ∀ l ∈ y, l = a ∨ l = b) :
    ∀ {table : List (List Nat)}, TableOK table k y.length →
      labelSums y table = .ok ((classCounts y a table).map (fun v => (b : ℚ) * k + ((a : ℚ) - b) * v))
  | [], _ => rfl
  | row :: table, h => by
    have ih := labelSums_eq hy (table := table) (fun r hr => h r (List.mem_cons_of_mem _ hr))
    obtain ⟨h1, h2⟩ := h row List.mem_cons_self
    obtain ⟨ls, e1, e2⟩ := label_sum hy h2
    unfold labelSums at ih ⊢
    rw [List.mapM_cons, e1, ok_bind, ih]
    rw [h1] at e2
    simp only [pure_bind, e2]
    rfl

/-- **SL_graph_SMOTE** is Safe_Level_SMOTE or Borderline_SMOTE1. Which of the two is decided by the skewness of the numbers of minority
neighbours, but also by which of the two labels is larger. -/
theorem C73_choice {proportion : ℚ} {nNeighbors : Nat} {ss : SSParams} {vol : List Row → ℚ} {slDr : SlDraws} {dr : Draws} {d : Nat}
    {knn : Nat → List Row → List Row → List (List Nat)} {X : List Row} {y : List Int} {a b : Int}
    (hwf : WF d X y) (hk : KnnQueryOK knn) (hmin : IsMinority y a b) :
    sample defaultChecks d (slGraphAlg proportion nNeighbors ss vol slDr dr d knn) X y =
      if (b < a ∧ thirdMoment (classCounts y a (knn (min X.length nNeighbors) X (classRows X y a))) < 0) ∨
         (a < b ∧ 0 < thirdMoment (classCounts y a (knn (min X.length nNeighbors) X (classRows X y a)))) then
        sample defaultChecks d (safeLevelAlg proportion nNeighbors slDr (fun k X => knn k X X)) X y
      else
        sample defaultChecks d (borderline1Alg { proportion := proportion, nNeighbors := nNeighbors, kNeighbors := 5, ss := ss }
          vol dr d knn) X y := by
  have hy := hmin.2.2.1
  obtain ⟨s, hs, rfl, rfl⟩ := stats_of_isMinority hmin
  obtain ⟨hm, hM, hab⟩ := stats_min_mem hs
  obtain ⟨_, k2⟩ := hk (min X.length nNeighbors) X (classRows X y s.minLabel) (min_le_left _ _)
  rw [hwf.1] at k2
  rw [sample_default hs]
  by_cases h2 : y.count s.minLabel ≤ 2
  · rw [if_pos h2, sample_default hs, sample_default hs, if_pos h2, if_pos h2, ite_self]
  rw [if_neg h2]
  unfold slGraphAlg
  rw [stats_count hs hm, stats_count hs hM, detN_eq_requested, ok_bind]
  by_cases hn : requested proportion (y.count s.majLabel) (y.count s.minLabel) = 0
  · rw [if_pos hn, sample_default hs, sample_default hs, if_neg h2, if_neg h2]
    unfold safeLevelAlg borderline1Alg
    dsimp only
    rw [stats_count hs hm, stats_count hs hM, detN_eq_requested, ok_bind, if_pos hn, ok_bind, if_pos hn, ite_self]
  rw [if_neg hn]
  dsimp only
  rw [selectLabel_eq_classRows]
  set table := knn (min X.length nNeighbors) X (classRows X y s.minLabel)
  have e : labelSums y table = .ok ((classCounts y s.minLabel table).map
      (fun v => (s.majLabel : ℚ) * (min X.length nNeighbors : Nat) + ((s.minLabel : ℚ) - s.majLabel) * v)) := by
    have := hwf.1
    exact labelSums_eq hy (by rw [← this] at k2 ⊢; exact k2)
  rw [e, ok_bind]
  have e2 : skewSign ((classCounts y s.minLabel table).map
      (fun v => (s.majLabel : ℚ) * (min X.length nNeighbors : Nat) + ((s.minLabel : ℚ) - s.majLabel) * v)) =
      ((s.minLabel : ℚ) - s.majLabel) ^ 3 * thirdMoment (classCounts y s.minLabel table) := thirdMoment_affine _ _ _
  rw [e2]
  congr 1
  rw [eq_iff_iff]
  rcases lt_trichotomy s.minLabel s.majLabel with h | h | h
  · have h' : (s.minLabel : ℚ) - s.majLabel < 0 := by
      have : (s.minLabel : ℚ) < s.majLabel := by exact_mod_cast h
      linarith
    have h3 : ((s.minLabel : ℚ) - s.majLabel) ^ 3 < 0 := Odd.pow_neg (by decide) h'
    constructor
    · intro hh
      exact .inr ⟨h, by by_contra hc; have := mul_nonneg_of_nonpos_of_nonpos h3.le (not_lt.1 hc); linarith⟩
    · rintro (⟨h1, _⟩ | ⟨_, h1⟩)
      · omega
      · exact mul_neg_of_neg_of_pos h3 h1
  · exact absurd h hab
  · have h' : 0 < (s.minLabel : ℚ) - s.majLabel := by
      have : (s.majLabel : ℚ) < s.minLabel := by exact_mod_cast h
      linarith
    have h3 : 0 < ((s.minLabel : ℚ) - s.majLabel) ^ 3 := by positivity
    constructor
    · intro hh
      exact .inl ⟨h, by by_contra hc; have := mul_nonneg h3.le (not_lt.1 hc); linarith⟩
    · rintro (⟨_, h1⟩ | ⟨h1, _⟩)
      · exact mul_neg_of_pos_of_neg h3 h1
      · omega

/-! ## Examples -/

/-- The labels of `borY` exchanged. -/
def borY' : List Int := borY.map (fun l => 1 - l)

/-- **The two labels exchanged, other rows**: the same rows, classes and draws; the names of the classes decide between the two
oversamplers. -/
theorem C73_labels :
    sample defaultChecks 1 (slGraphAlg 1 6 exPar.ss (fun _ => 1) ⟨fun i => i, fun _ _ => 1 / 2⟩ exDraws 1 bruteQuery) borX borY =
      .ok (borX ++ [[8 / 3], [3]], borY ++ [1, 1]) ∧
    sample defaultChecks 1 (slGraphAlg 1 6 exPar.ss (fun _ => 1) ⟨fun i => i, fun _ _ => 1 / 2⟩ exDraws 1 bruteQuery) borX borY' =
      .ok (borX ++ [[27 / 5], [27 / 5]], borY' ++ [0, 0]) := by
  constructor <;> decide +kernel

/-- The hypotheses of `C73_choice`, for both namings; the numbers of minority neighbours are 3, 3, 3, 1. -/
example : WF 1 borX borY ∧ IsMinority borY 1 0 ∧ WF 1 borX borY' ∧ IsMinority borY' 0 1 ∧ KnnQueryOK bruteQuery ∧
    classCounts borY 1 (bruteQuery 6 borX (classRows borX borY 1)) = [3, 3, 3, 1] :=
  ⟨⟨by decide, by decide +kernel⟩, ⟨by decide, by decide, by decide, Or.inl (by decide)⟩, ⟨by decide, by decide +kernel⟩,
    ⟨by decide, by decide, by decide, Or.inl (by decide)⟩, bruteQuery_ok, by decide +kernel⟩

end Verif

import Verif.Lemmas.Smote
import Verif.Lemmas.SmoteExample

/-!
# C04 Too small or balanced datasets are returned unchanged
-/

namespace Verif

/-- A check rejects the data set: too few minority rows, or too few features. -/
def CheckRejects (nMin d : Nat) : Check → Prop
  | .minNMin b => (nMin : ℚ) ≤ b
  | .minNDim b => (d : ℚ) < b
  | .other => False

theorem checksFire_iff (nMin d : Nat) (cs : List Check) :
    checksFire nMin d cs = true ↔ ∃ c ∈ cs, CheckRejects nMin d c := by
  induction cs with
  | nil => simp [checksFire]
  | cons c cs ih =>
    cases c with
    | minNMin b => by_cases h : (nMin : ℚ) ≤ b <;> simp [checksFire, CheckRejects, h, ih]
    | minNDim b => by_cases h : (d : ℚ) < b <;> simp [checksFire, CheckRejects, h, ih]
    | other => simp [checksFire, CheckRejects, ih]

/-- Some configured check rejects the data: the input comes back, whatever the algorithm would do
(even if it would raise). -/
theorem C04_rejected_returns_input {checks : List Check} {d : Nat}
    {alg : Stats → List Row → List Int → Res (List Row × List Int)} {X : List Row} {y : List Int}
    {a b : Int} (hmin : IsMinority y a b) {c : Check} (hc : c ∈ checks)
    (hr : CheckRejects (y.count a) d c) : sample checks d alg X y = .ok (X, y) := by
  obtain ⟨s, hs, rfl, rfl⟩ := stats_of_isMinority hmin
  unfold sample
  rw [hs, ok_bind, stats_count hs (stats_min_mem hs).1,
    if_pos ((checksFire_iff _ _ _).2 ⟨c, hc, hr⟩)]
  rfl

/-- No configured check rejects the data: the algorithm's result (value or exception) is returned
as is, and it saw the minority and majority label. -/
theorem C04_accepted_runs_algorithm {checks : List Check} {d : Nat}
    {alg : Stats → List Row → List Int → Res (List Row × List Int)} {X : List Row} {y : List Int}
    {a b : Int} (hmin : IsMinority y a b) (hc : ∀ c ∈ checks, ¬ CheckRejects (y.count a) d c) :
    ∃ s : Stats, s.minLabel = a ∧ s.majLabel = b ∧ sample checks d alg X y = alg s X y := by
  obtain ⟨s, hs, rfl, rfl⟩ := stats_of_isMinority hmin
  refine ⟨s, rfl, rfl, ?_⟩
  unfold sample
  rw [hs, ok_bind, stats_count hs (stats_min_mem hs).1, if_neg]
  rw [checksFire_iff]
  rintro ⟨c, hc', hr⟩
  exact hc c hc' hr

/-- SMOTE with default checks: at most two minority rows, or nothing requested, gives the input. -/
theorem C04_smote_unchanged {par : SmoteParams} {vol : List Row → ℚ} {dr : Draws} {d : Nat}
    {knn : Nat → List Row → List (List Nat)} {X : List Row} {y : List Int} {a b : Int}
    (hmin : IsMinority y a b)
    (h : y.count a ≤ 2 ∨ ((y.count b : ℚ) - y.count a) * par.proportion < 1) :
    smoteSample par vol dr d knn X y = .ok (X, y) := by
  obtain ⟨s, hs, rfl, rfl⟩ := stats_of_isMinority hmin
  obtain ⟨hm, hM, _⟩ := stats_min_mem hs
  unfold smoteSample sample
  rw [hs, ok_bind, stats_count hs hm, checksFire_default]
  by_cases h2 : y.count s.minLabel ≤ 2
  · simp only [h2, decide_true, if_true]; rfl
  · simp only [h2, decide_false]
    rw [if_neg (by simp)]
    unfold smoteAlg
    rw [stats_count hs hm, stats_count hs hM, detN_eq_requested, ok_bind, if_pos]
    · rfl
    · have h := h.resolve_left h2
      unfold requested
      have : ⌊((y.count s.majLabel : ℚ) - y.count s.minLabel) * par.proportion⌋ < 1 :=
        Int.floor_lt.2 (by simpa using h)
      omega

/-- Non-vacuity: two minority rows only, and an algorithm that would raise. -/
example : IsMinority [1, 1, 0, 0, 0] 1 0 ∧ CheckRejects ([1, 1, 0, 0, 0].count (1 : Int)) 2 (.minNMin 2) ∧
    sample defaultChecks 2 (fun _ _ _ => .error .valueError) [[0,0],[1,1],[2,2],[3,3],[4,4]]
      [1, 1, 0, 0, 0] = .ok ([[0,0],[1,1],[2,2],[3,3],[4,4]], [1, 1, 0, 0, 0]) := by
  refine ⟨⟨by decide, by decide, by decide, Or.inl (by decide)⟩, by norm_num [CheckRejects], by decide +kernel⟩
example : IsMinority exY 1 0 ∧ (∀ c ∈ defaultChecks, ¬ CheckRejects (exY.count 1) 2 c) ∧
    sample defaultChecks 2 (fun _ _ _ => .error .valueError) exX exY = .error .valueError := by
  refine ⟨exY_min, ?_, by decide +kernel⟩
  intro c hc
  simp only [defaultChecks, List.mem_cons, List.not_mem_nil, or_false] at hc
  rcases hc with rfl | rfl
  · simp only [CheckRejects]; rw [show exY.count 1 = 3 by decide]; norm_num
  · simp [CheckRejects]
example : IsMinority exY 1 0 ∧
    ((exY.count 0 : ℚ) - exY.count 1) * ({exPar with proportion := 1/4} : SmoteParams).proportion < 1 := by
  refine ⟨exY_min, ?_⟩
  rw [show exY.count 0 = 5 by decide, show exY.count 1 = 3 by decide]
  norm_num

end Verif

import Verif.Model.PdfosCriterion
import Mathlib.Analysis.Complex.Exponential
import Mathlib.Analysis.Calculus.Deriv.MeanValue
import Mathlib.Analysis.SpecialFunctions.ExpDeriv
import Mathlib.Tactic.FieldSimp
import Mathlib.Tactic.Ring
import Mathlib.Tactic.Positivity
import Mathlib.Tactic.Linarith

/-!
# C146: the bandwidth of PDFOS
-/

namespace Verif

/-! ## Helpers -/

/-- `y * (3 + exp y)² / (1 + exp y)²` grows: the square of the part of the criterion which is not obviously monotone. -/
theorem pdfG_strictMono : StrictMonoOn (fun y : ℝ => y * ((3 + Real.exp y) / (1 + Real.exp y)) ^ 2) (Set.Ici 0) := by
  apply strictMonoOn_of_deriv_pos (convex_Ici 0)
  · apply Continuous.continuousOn
    have : ∀ y : ℝ, 1 + Real.exp y ≠ 0 := fun y => by positivity
    fun_prop (disch := assumption)
  · intro y hy
    rw [interior_Ici] at hy
    have hy : 0 < y := hy
    have hE := Real.exp_pos y
    have h1 : 1 + Real.exp y ≠ 0 := by positivity
    have hd : HasDerivAt (fun y : ℝ => y * ((3 + Real.exp y) / (1 + Real.exp y)) ^ 2)
        (1 * ((3 + Real.exp y) / (1 + Real.exp y)) ^ 2 + y * ((2 : ℕ) * ((3 + Real.exp y) / (1 + Real.exp y)) ^ (2 - 1) *
          ((Real.exp y * (1 + Real.exp y) - (3 + Real.exp y) * Real.exp y) / (1 + Real.exp y) ^ 2))) y :=
      (hasDerivAt_id y).mul ((((Real.hasDerivAt_exp y).const_add 3).div ((Real.hasDerivAt_exp y).const_add 1) h1).pow 2)
    rw [hd.deriv]
    have hq : 1 + y + y ^ 2 / 2 ≤ Real.exp y := Real.quadratic_le_exp_of_nonneg hy.le
    have key : 0 < (3 + Real.exp y) * (1 + Real.exp y) - 4 * y * Real.exp y := by
      nlinarith [mul_le_mul_of_nonneg_left hq hE.le, mul_nonneg hE.le (sq_nonneg (y - 3))]
    have : 1 * ((3 + Real.exp y) / (1 + Real.exp y)) ^ 2 + y * ((2 : ℕ) * ((3 + Real.exp y) / (1 + Real.exp y)) ^ (2 - 1) *
          ((Real.exp y * (1 + Real.exp y) - (3 + Real.exp y) * Real.exp y) / (1 + Real.exp y) ^ 2)) =
        (3 + Real.exp y) / (1 + Real.exp y) ^ 3 * ((3 + Real.exp y) * (1 + Real.exp y) - 4 * y * Real.exp y) := by
      rw [show (2 - 1 : ℕ) = 1 from rfl, pow_one]
      push_cast
      field_simp
      ring
    rw [this]
    positivity

theorem expit_neg (z : ℝ) : expit (-z) = 1 / (1 + Real.exp z) := by rw [expit, neg_neg]

/-- The growing part, with the bandwidth: `(1 / 4 + expit(-y) / 2) / sigma` falls strictly. -/
theorem pdfPart {q s t : ℝ} (hq : 0 ≤ q) (hs : 0 < s) (hst : s < t) :
    (1 / 4 + expit (-(1 / (4 * t ^ 2)) * q) / 2) / t < (1 / 4 + expit (-(1 / (4 * s ^ 2)) * q) / 2) / s := by
  have ht : 0 < t := hs.trans hst
  rcases hq.eq_or_lt with rfl | hq
  · simp only [mul_zero]
    have : 0 < 1 / 4 + expit 0 / 2 := by unfold expit; positivity
    exact div_lt_div_of_pos_left this hs hst
  have hpos : ∀ z : ℝ, 0 < 1 / 4 + expit z / 2 := fun z => by unfold expit; positivity
  have hy : q / (4 * t ^ 2) < q / (4 * s ^ 2) := div_lt_div_of_pos_left hq (by positivity) (by nlinarith)
  have hg := pdfG_strictMono (Set.mem_Ici.2 (by positivity)) (Set.mem_Ici.2 (by positivity)) hy
  simp only at hg
  have conv : ∀ r : ℝ, 0 < r → ((1 / 4 + expit (-(1 / (4 * r ^ 2)) * q) / 2) / r) ^ 2 =
      1 / (4 * q) * (q / (4 * r ^ 2) * ((3 + Real.exp (q / (4 * r ^ 2))) / (1 + Real.exp (q / (4 * r ^ 2)))) ^ 2) := by
    intro r hr
    rw [show -(1 / (4 * r ^ 2)) * q = -(q / (4 * r ^ 2)) by ring, expit_neg]
    have : 1 + Real.exp (q / (4 * r ^ 2)) ≠ 0 := by positivity
    generalize Real.exp (q / (4 * r ^ 2)) = E at this ⊢
    field_simp
    ring
  have h2 : ((1 / 4 + expit (-(1 / (4 * t ^ 2)) * q) / 2) / t) ^ 2 < ((1 / 4 + expit (-(1 / (4 * s ^ 2)) * q) / 2) / s) ^ 2 := by
    rw [conv t ht, conv s hs]
    exact mul_lt_mul_of_pos_left hg (by positivity)
  exact lt_of_pow_lt_pow_left₀ 2 (div_pos (hpos _) hs).le h2

theorem expit_half {z : ℝ} (h : 0 ≤ z) : expit (-z) ≤ 1 / 2 := by
  rw [expit_neg]
  apply one_div_le_one_div_of_le two_pos
  linarith [Real.one_le_exp h]

/-! ## The property -/

/-- **C146.** For two rows the criterion of PDFOS falls as the bandwidth grows, whatever the rows are: the largest bandwidth is always the best one. -/
theorem C146_two {m : Nat} (hm : 1 ≤ m) {q s t : ℝ} (hq : 0 ≤ q) (hs : 0 < s) (hst : s < t) :
    pdfM m [[0, q], [q, 0]] t < pdfM m [[0, q], [q, 0]] s := by
  have ht : 0 < t := hs.trans hst
  have hc : 0 < √(2 * Real.pi) ^ m := by have := Real.pi_pos; positivity
  have h2 : 0 < √2 ^ m := by positivity
  have form : ∀ r : ℝ, 0 < r → pdfM m [[0, q], [q, 0]] r = (√(2 * Real.pi) ^ m)⁻¹ * ((r ^ m)⁻¹ * (1 / 2 - expit (-(1 / (2 * r ^ 2)) * q)) +
      (√2 ^ m)⁻¹ * ((r ^ (m - 1))⁻¹ * ((1 / 4 + expit (-(1 / (4 * r ^ 2)) * q) / 2) / r))) := by
    intro r hr
    have h0 : expit 0 = 1 / 2 := by unfold expit; norm_num
    obtain ⟨k, rfl⟩ : ∃ k, m = k + 1 := ⟨m - 1, by omega⟩
    unfold pdfM pdfEq8 pdfEq5
    simp only [List.map_cons, List.map_nil, List.sum_cons, List.sum_nil, List.length_cons, List.length_nil, mul_zero, h0, Nat.add_sub_cancel]
    generalize expit (-(1 / (2 * r ^ 2)) * q) = e2
    generalize expit (-(1 / (4 * r ^ 2)) * q) = e4
    rw [mul_pow]
    generalize √(2 * Real.pi) ^ (k + 1) = c at hc ⊢
    generalize √2 ^ (k + 1) = d at h2 ⊢
    rw [pow_succ]
    field_simp
    push_cast
    ring
  rw [form t ht, form s hs]
  refine mul_lt_mul_of_pos_left ?_ (by positivity)
  have hle : ∀ k : Nat, (t ^ k)⁻¹ ≤ (s ^ k)⁻¹ := fun k => inv_anti₀ (by positivity) (pow_le_pow_left₀ hs.le hst.le k)
  have hy : q / (2 * t ^ 2) ≤ q / (2 * s ^ 2) := div_le_div_of_nonneg_left hq (by positivity) (by nlinarith)
  have a1 : (t ^ m)⁻¹ * (1 / 2 - expit (-(1 / (2 * t ^ 2)) * q)) ≤ (s ^ m)⁻¹ * (1 / 2 - expit (-(1 / (2 * s ^ 2)) * q)) := by
    rw [show -(1 / (2 * t ^ 2)) * q = -(q / (2 * t ^ 2)) by ring, show -(1 / (2 * s ^ 2)) * q = -(q / (2 * s ^ 2)) by ring]
    have e : expit (-(q / (2 * s ^ 2))) ≤ expit (-(q / (2 * t ^ 2))) := by
      rw [expit_neg, expit_neg]
      exact one_div_le_one_div_of_le (by positivity) (by linarith [Real.exp_le_exp.2 hy])
    have e' : expit (-(q / (2 * t ^ 2))) ≤ 1 / 2 := expit_half (by positivity)
    exact mul_le_mul (hle m) (by linarith) (by linarith) (by positivity)
  have a2 : (t ^ (m - 1))⁻¹ * ((1 / 4 + expit (-(1 / (4 * t ^ 2)) * q) / 2) / t) < (s ^ (m - 1))⁻¹ * ((1 / 4 + expit (-(1 / (4 * s ^ 2)) * q) / 2) / s) := by
    refine mul_lt_mul' (hle _) (pdfPart hq hs hst) ?_ (by positivity)
    unfold expit
    positivity
  have := mul_lt_mul_of_pos_left a2 (inv_pos.2 h2)
  linarith

theorem pdfBest_last {err : ℝ → ℝ} (h : ∀ s t, 0 < s → s < t → err t < err s) : ∀ (l : List ℝ) (s : ℝ), 0 < s → (s :: l).Pairwise (· < ·) →
    (pdfBest err l (s, some (err s))).1 = (s :: l).getLast (by simp)
  | [], _, _, _ => rfl
  | t :: l, s, hs, hp => by
    have hst : s < t := (List.pairwise_cons.1 hp).1 t (by simp)
    rw [pdfBest, if_pos (by simpa using h s t hs hst), pdfBest_last h l t (hs.trans hst) (List.pairwise_cons.1 hp).2]
    exact (List.getLast_cons (List.cons_ne_nil t l)).symm

/-- So the search returns the last of the bandwidths it tries, in ascending order. -/
theorem C146_largest {m : Nat} (hm : 1 ≤ m) {q : ℝ} (hq : 0 ≤ q) {grid : List ℝ} (hne : grid ≠ []) (hpos : ∀ s ∈ grid, 0 < s) (hasc : grid.Pairwise (· < ·)) :
    (pdfBest (pdfM m [[0, q], [q, 0]]) grid (0, none)).1 = grid.getLast hne := by
  cases grid with
  | nil => exact absurd rfl hne
  | cons s l =>
    rw [pdfBest, if_pos (by simp)]
    exact pdfBest_last (fun _ _ hs hst => C146_two hm hq hs hst) l s (hpos s (by simp)) hasc

/-- Non-vacuity: two rows with the quadratic form four in three columns, three bandwidths. -/
example : 1 ≤ 3 ∧ (0 : ℝ) ≤ 4 ∧ [(1 : ℝ), 2, 4] ≠ [] ∧ (∀ s ∈ [(1 : ℝ), 2, 4], 0 < s) ∧ [(1 : ℝ), 2, 4].Pairwise (· < ·) := by
  refine ⟨by norm_num, by norm_num, by simp, by norm_num, by norm_num⟩

end Verif

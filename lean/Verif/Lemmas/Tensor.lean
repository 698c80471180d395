import Verif.Model.Tensor
import Verif.Spec.Tensor
import Mathlib.Data.Matrix.Diagonal
import Mathlib.LinearAlgebra.Matrix.SemiringInverse
import Mathlib.Algebra.Order.BigOperators.Ring.Finset
import Mathlib.Algebra.BigOperators.Field
import Mathlib.Tactic.Ring
import Mathlib.Tactic.FieldSimp
import Mathlib.Tactic.Linarith
import Mathlib.Tactic.Positivity

/-! # Lemmas about metric tensors -/

namespace Verif

open Matrix

variable {K : Type} {d : Nat}

theorem sqTensorDist_eq [Field K] (T : Matrix (Fin d) (Fin d) K) (x y : Fin d → K) :
    sqTensorDist T x y = (x - y) ⬝ᵥ (T *ᵥ (x - y)) := by
  unfold sqTensorDist dotProduct mulVec dotProduct
  refine Finset.sum_congr rfl fun i _ => ?_
  rw [Finset.mul_sum]
  refine Finset.sum_congr rfl fun j _ => ?_
  simp only [Pi.sub_apply]; ring

theorem fromSpectrum_apply [Field K] (v : Fin d → K) (W : Matrix (Fin d) (Fin d) K) (i j : Fin d) :
    fromSpectrum v W i j = ∑ k, W i k * v k * W j k := by
  unfold fromSpectrum
  rw [mul_apply]
  refine Finset.sum_congr rfl fun k _ => ?_
  rw [mul_diagonal, transpose_apply]

theorem fromSpectrum_symm [Field K] (v : Fin d → K) (W : Matrix (Fin d) (Fin d) K) (i j : Fin d) :
    fromSpectrum v W i j = fromSpectrum v W j i := by
  rw [fromSpectrum_apply, fromSpectrum_apply]
  exact Finset.sum_congr rfl fun k _ => by ring

theorem fromSpectrum_quad [Field K] (v : Fin d → K) (W : Matrix (Fin d) (Fin d) K) (u : Fin d → K) :
    u ⬝ᵥ (fromSpectrum v W *ᵥ u) = ∑ k, v k * (W.transpose *ᵥ u) k ^ 2 := by
  unfold fromSpectrum
  rw [← mulVec_mulVec, ← mulVec_mulVec, dotProduct_mulVec, ← mulVec_transpose]
  unfold dotProduct
  refine Finset.sum_congr rfl fun k _ => ?_
  rw [mulVec_diagonal]; ring

theorem dot_orthogonal [Field K] {W : Matrix (Fin d) (Fin d) K} (h : W * W.transpose = 1) (u : Fin d → K) :
    ∑ k, (W.transpose *ᵥ u) k ^ 2 = u ⬝ᵥ u := by
  have : (W.transpose *ᵥ u) ⬝ᵥ (W.transpose *ᵥ u) = u ⬝ᵥ u := by
    rw [dotProduct_mulVec, ← mulVec_transpose, transpose_transpose, mulVec_mulVec, h, one_mulVec]
  rw [← this]
  unfold dotProduct
  exact Finset.sum_congr rfl fun k _ => by ring

theorem fromSpectrum_lower [Field K] [LinearOrder K] [IsStrictOrderedRing K] {W : Matrix (Fin d) (Fin d) K} (h : W * W.transpose = 1)
    {v : Fin d → K} {eps : K} (hv : ∀ k, eps ≤ v k) (u : Fin d → K) : eps * (u ⬝ᵥ u) ≤ u ⬝ᵥ (fromSpectrum v W *ᵥ u) := by
  rw [fromSpectrum_quad, ← dot_orthogonal h, Finset.mul_sum]
  exact Finset.sum_le_sum fun k _ => mul_le_mul_of_nonneg_right (hv k) (sq_nonneg _)

theorem dot_self_pos [Field K] [LinearOrder K] [IsStrictOrderedRing K] {u : Fin d → K} (hu : u ≠ 0) : 0 < u ⬝ᵥ u := by
  obtain ⟨i, hi⟩ : ∃ i, u i ≠ 0 := by
    by_contra hc; push Not at hc; exact hu (funext hc)
  unfold dotProduct
  refine Finset.sum_pos' (fun k _ => mul_self_nonneg _) ⟨i, Finset.mem_univ i, ?_⟩
  exact mul_self_pos.2 hi

theorem isMetric_of_lower [Field K] [LinearOrder K] [IsStrictOrderedRing K] {T : Matrix (Fin d) (Fin d) K} (hs : ∀ i j, T i j = T j i)
    {eps : K} (he : 0 < eps) (h : ∀ u : Fin d → K, eps * (u ⬝ᵥ u) ≤ u ⬝ᵥ (T *ᵥ u)) : IsMetric T := by
  refine ⟨hs, fun x y hxy => ?_⟩
  rw [sqTensorDist_eq]
  exact lt_of_lt_of_le (mul_pos he (dot_self_pos (sub_ne_zero.2 hxy))) (h _)

theorem fixPd_lower [Field K] [LinearOrder K] [IsStrictOrderedRing K] {eigh : Eigh K d} (he : EighOK eigh) (eps : K)
    (M : Matrix (Fin d) (Fin d) K) (u : Fin d → K) : eps * (u ⬝ᵥ u) ≤ u ⬝ᵥ (fixPd eigh eps M *ᵥ u) := by
  refine fromSpectrum_lower (he M).1 (fun k => ?_) u
  split
  · exact le_refl _
  · exact le_of_lt (not_le.1 ‹_›)

theorem fixPd_symm [Field K] [LinearOrder K] (eigh : Eigh K d) (eps : K) (M : Matrix (Fin d) (Fin d) K) (i j : Fin d) :
    fixPd eigh eps M i j = fixPd eigh eps M j i := fromSpectrum_symm _ _ i j

theorem fixPd_metric [Field K] [LinearOrder K] [IsStrictOrderedRing K] {eigh : Eigh K d} (he : EighOK eigh) {eps : K} (hp : 0 < eps)
    (M : Matrix (Fin d) (Fin d) K) : IsMetric (fixPd eigh eps M) :=
  isMetric_of_lower (fixPd_symm eigh eps M) hp (fixPd_lower he eps M)

/-- The eigenvectors are unit vectors, and the quadratic form of a symmetric matrix takes its eigenvalues there. -/
theorem eigh_value [Field K] {eigh : Eigh K d} (he : EighOK eigh) {M : Matrix (Fin d) (Fin d) K} (hs : ∀ i j, M i j = M j i) (k : Fin d) :
    ((eigh M).2.transpose k) ⬝ᵥ ((eigh M).2.transpose k) = 1 ∧
    ((eigh M).2.transpose k) ⬝ᵥ (M *ᵥ ((eigh M).2.transpose k)) = (eigh M).1 k := by
  obtain ⟨ho, hm⟩ := he M
  have hM : M = fromSpectrum (eigh M).1 (eigh M).2 := by
    ext i j
    rw [fromSpectrum_apply]
    exact hm hs i j
  have ho' : (eigh M).2.transpose * (eigh M).2 = 1 := mul_eq_one_comm.1 ho
  have hcol : (eigh M).2.transpose *ᵥ ((eigh M).2.transpose k) = Pi.single k 1 := by
    ext i
    have := congrFun (congrFun ho' i) k
    rw [mul_apply] at this
    rw [show ((eigh M).2.transpose *ᵥ ((eigh M).2.transpose k)) i = ∑ j, (eigh M).2.transpose i j * (eigh M).2 j k from rfl, this,
      one_apply]
    simp [Pi.single_apply]
  constructor
  · rw [← dot_orthogonal ho, hcol]
    simp [Pi.single_apply]
  · conv_lhs => rw [show (M *ᵥ ((eigh M).2.transpose k)) = (fromSpectrum (eigh M).1 (eigh M).2 *ᵥ ((eigh M).2.transpose k)) from by rw [← hM]]
    rw [fromSpectrum_quad, hcol]
    simp [Pi.single_apply]

theorem fixPd_right_inverse [Field K] [LinearOrder K] [IsStrictOrderedRing K] {eigh : Eigh K d} (he : EighOK eigh) {eps : K} (hp : 0 < eps)
    (M : Matrix (Fin d) (Fin d) K) : ∃ B, fixPd eigh eps M * B = 1 := by
  have ho := (he M).1
  have ho' : (eigh M).2.transpose * (eigh M).2 = 1 := mul_eq_one_comm.1 ho
  unfold fixPd fromSpectrum
  dsimp only
  set v : Fin d → K := fun k => if (eigh M).1 k ≤ eps then eps else (eigh M).1 k with hv
  have hpos : ∀ k, v k ≠ 0 := by
    intro k
    rw [hv]; dsimp only
    split
    · exact ne_of_gt hp
    · exact ne_of_gt (lt_trans hp (not_le.1 ‹_›))
  refine ⟨(eigh M).2 * diagonal (fun k => (v k)⁻¹) * (eigh M).2.transpose, ?_⟩
  have hd : diagonal v * diagonal (fun k => (v k)⁻¹) = (1 : Matrix (Fin d) (Fin d) K) := by
    rw [diagonal_mul_diagonal, ← diagonal_one]
    congr 1
    funext k
    exact mul_inv_cancel₀ (hpos k)
  calc (eigh M).2 * diagonal v * (eigh M).2.transpose * ((eigh M).2 * diagonal (fun k => (v k)⁻¹) * (eigh M).2.transpose)
      = (eigh M).2 * diagonal v * ((eigh M).2.transpose * (eigh M).2) * diagonal (fun k => (v k)⁻¹) * (eigh M).2.transpose := by
        simp only [Matrix.mul_assoc]
    _ = (eigh M).2 * (diagonal v * diagonal (fun k => (v k)⁻¹)) * (eigh M).2.transpose := by
        rw [ho', Matrix.mul_one, Matrix.mul_assoc (eigh M).2]
    _ = 1 := by rw [hd, Matrix.mul_one, ho]

theorem inverse_metric [Field K] [LinearOrder K] [IsStrictOrderedRing K] {A B : Matrix (Fin d) (Fin d) K} (hA : IsMetric A) (h : A * B = 1) :
    IsMetric B := by
  have h' : B * A = 1 := mul_eq_one_comm.1 h
  have hAt : A.transpose = A := by ext i j; exact (hA.1 i j).symm
  have hBt : B.transpose = B := by
    have h1 : B.transpose * A = 1 := by
      have := congrArg transpose h
      rwa [transpose_mul, hAt, transpose_one] at this
    calc B.transpose = B.transpose * (A * B) := by rw [h, Matrix.mul_one]
      _ = B := by rw [← Matrix.mul_assoc, h1, Matrix.one_mul]
  refine ⟨fun i j => congrFun (congrFun hBt j) i, fun x y hxy => ?_⟩
  rw [sqTensorDist_eq]
  have hu : B *ᵥ (x - y) ≠ 0 := by
    intro h0
    have : A *ᵥ (B *ᵥ (x - y)) = x - y := by rw [mulVec_mulVec, h, one_mulVec]
    rw [h0, mulVec_zero] at this
    exact hxy (sub_eq_zero.1 this.symm)
  have hp := hA.2 (B *ᵥ (x - y)) 0 hu
  rw [sqTensorDist_eq, sub_zero, mulVec_mulVec, h, one_mulVec] at hp
  rwa [dotProduct_comm] at hp

theorem one_metric [Field K] [LinearOrder K] [IsStrictOrderedRing K] : IsMetric (1 : Matrix (Fin d) (Fin d) K) := by
  refine isMetric_of_lower (fun i j => ?_) one_pos (fun u => ?_)
  · rw [one_apply, one_apply]; simp [eq_comm]
  · rw [one_mulVec, one_mul]

theorem symmetrised_apply [Field K] [CharZero K] (c : Fin d → Fin d → K) (i j : Fin d) :
    symmetrised c i j = if i ≤ j then c i j else c j i := by
  unfold symmetrised
  simp only [of_apply, Matrix.add_apply, transpose_apply]
  rcases lt_trichotomy i j with h | h | h
  · rw [if_neg (ne_of_lt h), if_pos (le_of_lt h), if_neg (not_le.2 h), if_pos (le_of_lt h), add_zero]
  · subst h
    rw [if_pos rfl, if_pos (le_refl _), if_pos (le_refl _)]
    ring
  · rw [if_neg (ne_of_gt h), if_neg (not_le.2 h), if_pos (le_of_lt h), if_neg (not_le.2 h), zero_add]

theorem symmetrised_of_symm [Field K] [CharZero K] {S : Matrix (Fin d) (Fin d) K} (hs : ∀ i j, S i j = S j i) : symmetrised (fun i j => S i j) = S := by
  ext i j
  rw [symmetrised_apply]
  split
  · rfl
  · exact hs j i

/-- The linear model on the products of the components is the quadratic form of the symmetrised coefficients. -/
theorem predictPair_eq [Field K] [CharZero K] (c : Fin d → Fin d → K) (v : Fin d → K) :
    predictPair c v = ∑ i, ∑ j, v i * symmetrised c i j * v j := by
  have key : ∀ i j : Fin d, v i * symmetrised c i j * v j =
      (if i ≤ j then c i j * (v i * v j) else 0) + (if j < i then c j i * (v j * v i) else 0) := by
    intro i j
    rw [symmetrised_apply]
    by_cases h : i ≤ j
    · rw [if_pos h, if_pos h, if_neg (not_lt.2 h)]; ring
    · rw [if_neg h, if_neg h, if_pos (not_le.1 h)]; ring
  simp only [key, Finset.sum_add_distrib]
  rw [Finset.sum_comm (f := fun i j => if j < i then c j i * (v j * v i) else 0), ← Finset.sum_add_distrib]
  unfold predictPair
  refine Finset.sum_congr rfl fun i _ => ?_
  rw [← Finset.sum_add_distrib]
  refine Finset.sum_congr rfl fun j _ => ?_
  unfold pairFeatures
  rcases lt_trichotomy i j with h | h | h
  · rw [if_pos (le_of_lt h), if_pos (le_of_lt h), if_pos h, if_pos h]; ring
  · subst h
    simp
  · rw [if_neg (not_le.2 h), if_neg (not_le.2 h), if_neg (not_lt.2 (le_of_lt h))]; ring

end Verif

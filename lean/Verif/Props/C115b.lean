import Verif.Props.C115

/-!
# C115, continued: which tensor a method gives

The tensor of the method `"rf"` on the pairs of its regression, the reversed spectrum, the mean of two tensors, the trainers behind the
names, and the columns which are kept.
-/

namespace Verif

open Matrix

variable {K : Type} {d : Nat} [Field K] [LinearOrder K] [IsStrictOrderedRing K]

/-- The repair makes no squared distance smaller. -/
theorem C115_fix_pd_grows {eigh : Eigh K d} (he : EighOK eigh) {eps : K} {M : Matrix (Fin d) (Fin d) K} (hs : ∀ i j, M i j = M j i)
    (x y : Fin d → K) : sqTensorDist M x y ≤ sqTensorDist (fixPd eigh eps M) x y := by
  have hM : M = fromSpectrum (eigh M).1 (eigh M).2 := by
    ext i j
    rw [fromSpectrum_apply]
    exact (he M).2 hs i j
  rw [sqTensorDist_eq, sqTensorDist_eq]
  conv_lhs => rw [hM]
  unfold fixPd
  rw [fromSpectrum_quad, fromSpectrum_quad]
  refine Finset.sum_le_sum fun k _ => mul_le_mul_of_nonneg_right ?_ (sq_nonneg _)
  split
  · assumption
  · exact le_refl _

/-- If the dissimilarities are the distances of some symmetric tensor, the constructed tensor gives every pair of the regression at least
its dissimilarity. -/
theorem C115_construct {eigh : Eigh K d} (he : EighOK eigh) {regress : List ((Fin d → K) × K) → Fin d → Fin d → K}
    (hr : LeastSquares predictPair regress) {perm : Nat → List Nat} {X : List (Fin d → K)} {dissim : Nat → Nat → K}
    {S : Matrix (Fin d) (Fin d) K} (hs : ∀ i j, S i j = S j i)
    (hS : ∀ i j, dissim i j ^ 2 = sqTensorDist S (X.getD i 0) (X.getD j 0)) :
    ∀ p ∈ regressionPairs perm X.length d,
      dissim p.1 p.2 ^ 2 ≤ sqTensorDist (constructTensor eigh perm regress X dissim) (X.getD p.1 0) (X.getD p.2 0) := by
  intro p hp
  rw [← C115_regression_exact (perm := perm) hr hs hS p hp]
  exact C115_fix_pd_grows he (fun i j => (C115_regression_model _ 0 0).2 i j) _ _

/-- It is exact on them, if the tensor of the regression is above the bound of the repair. -/
theorem C115_construct_exact {eigh : Eigh K d} (he : EighOK eigh) {regress : List ((Fin d → K) × K) → Fin d → Fin d → K}
    (hr : LeastSquares predictPair regress) {perm : Nat → List Nat} {X : List (Fin d → K)} {dissim : Nat → Nat → K}
    {S : Matrix (Fin d) (Fin d) K} (hs : ∀ i j, S i j = S j i)
    (hS : ∀ i j, dissim i j ^ 2 = sqTensorDist S (X.getD i 0) (X.getD j 0))
    (hb : ∀ c : Fin d → Fin d → K, (∀ p ∈ regressionPairs perm X.length d,
        predictPair c (fun k => X.getD p.1 0 k - X.getD p.2 0 k) = dissim p.1 p.2 ^ 2) →
      ∀ x y, x ≠ y → 1 / 10000 * (∑ i, (x i - y i) ^ 2) < sqTensorDist (symmetrised c) x y) :
    ∀ p ∈ regressionPairs perm X.length d,
      sqTensorDist (constructTensor eigh perm regress X dissim) (X.getD p.1 0) (X.getD p.2 0) = dissim p.1 p.2 ^ 2 := by
  have hex := C115_regression_exact (perm := perm) hr hs hS
  intro p hp
  rw [← hex p hp]
  unfold constructTensor createTensor
  rw [C115_fix_pd_keeps he (fun i j => (C115_regression_model _ 0 0).2 i j)]
  refine hb _ fun p hp => ?_
  rw [(C115_regression_model _ _ _).1]
  exact hex p hp

omit [IsStrictOrderedRing K] in
/-- With distinct eigenvalues in increasing order, the `k`-th eigenvector of the matrix is an eigenvector of the reversed one, for the
`k`-th eigenvalue from the end. -/
theorem C115_reverse_matrix {eigh : Eigh K d} (he : EighOK eigh) {argsort : List K → List Nat} (ha : ArgsortSorts argsort)
    {M : Matrix (Fin d) (Fin d) K} (hl : ∀ i j : Fin d, i < j → (eigh M).1 i < (eigh M).1 j) :
    ∃ R, reverseMatrix eigh argsort M = .ok R ∧ (∀ i j, R i j = R j i) ∧
      ∀ k i, ∑ j, R i j * (eigh M).2 j k = (eigh M).1 k.rev * (eigh M).2 i k := by
  have hp : (List.ofFn (eigh M).1).Pairwise (· < ·) := by
    rw [List.pairwise_iff_getElem]
    intro i j hi hj hij
    rw [List.getElem_ofFn, List.getElem_ofFn]
    exact hl _ _ hij
  have hv : ∀ k : Fin d, ((List.ofFn (eigh M).1).reverse).getD k 0 = (eigh M).1 k.rev := by
    intro k
    have hk : (k : Nat) < ((List.ofFn (eigh M).1).reverse).length := by simp
    rw [List.getD_eq_getElem?_getD, List.getElem?_eq_getElem hk, Option.getD_some, List.getElem_reverse, List.getElem_ofFn]
    refine congrArg (eigh M).1 (Fin.ext ?_)
    simp only [List.length_ofFn, Fin.val_rev]
    omega
  refine ⟨_, ?_, fromSpectrum_symm (fun k => (eigh M).1 k.rev) (eigh M).2, ?_⟩
  · unfold reverseMatrix
    dsimp only
    rw [C115_reverse ha hp]
    simp only [ok_bind, hv]
    rfl
  · intro k i
    have ho : (eigh M).2.transpose * (eigh M).2 = 1 := mul_eq_one_comm.1 (he M).1
    have h1 : ∑ j, fromSpectrum (fun k => (eigh M).1 k.rev) (eigh M).2 i j * (eigh M).2 j k =
        (fromSpectrum (fun k => (eigh M).1 k.rev) (eigh M).2 * (eigh M).2) i k := rfl
    rw [h1]
    unfold fromSpectrum
    rw [Matrix.mul_assoc, ho, Matrix.mul_one, mul_diagonal]
    ring

/-- The tensor of `"gmean"` is the mean of the two matrices, if that is symmetric and above the bound of the repair. -/
theorem C115_mean {eigh : Eigh K d} (he : EighOK eigh) {A B : Matrix (Fin d) (Fin d) K} (hA : ∀ i j, A i j = A j i)
    (hB : ∀ i j, B i j = B j i)
    (hb : ∀ x y, x ≠ y → 1 / 10000 * (∑ i, (x i - y i) ^ 2) < (sqTensorDist A x y + sqTensorDist B x y) / 2) (x y : Fin d → K) :
    sqTensorDist (psdMean eigh A B) x y = (sqTensorDist A x y + sqTensorDist B x y) / 2 := by
  have hm : ∀ x y, sqTensorDist (of (fun i j => (A i j + B i j) / 2)) x y = (sqTensorDist A x y + sqTensorDist B x y) / 2 := by
    intro x y
    unfold sqTensorDist
    rw [← Finset.sum_add_distrib, Finset.sum_div]
    refine Finset.sum_congr rfl fun i _ => ?_
    rw [← Finset.sum_add_distrib, Finset.sum_div]
    refine Finset.sum_congr rfl fun j _ => ?_
    rw [of_apply]
    ring
  unfold psdMean
  rw [C115_fix_pd_keeps he]
  · exact hm x y
  · intro i j
    rw [of_apply, of_apply, hA i j, hB i j]
  · intro x y hxy
    rw [hm]
    exact hb x y hxy

omit [IsStrictOrderedRing K] in
/-- Every trainer is reached under its own name, with the rows that `uniq` keeps and their labels; all other names of trainers mean
NCA. -/
theorem C115_trainers {L : Learners K d} {X Xm : List (Fin d → K)} {y ym : List Int} (hX : takeRows X (L.uniq X) = .ok Xm)
    (hy : takeRows y (L.uniq X) = .ok ym) :
    learnTensor L (some "ITML") X y = (L.itml Xm ym).map some ∧ learnTensor L (some "LSML") X y = (L.lsml Xm ym).map some ∧
    learnTensor L (some "NCA") X y = (L.nca Xm ym).map some := by
  refine ⟨?_, ?_, ?_⟩ <;>
  · unfold learnTensor
    rw [hX, hy]
    simp only [ok_bind, trainMetric]
    rfl

omit [IsStrictOrderedRing K] in
/-- The covariance needs two columns and two rows. -/
theorem C115_cov_needs (L : Learners K d) {X : List (Fin d → K)} {y : List Int} {r : Option (Matrix (Fin d) (Fin d) K)} :
    (learnTensor L (some "cov") X y = .ok r → d ≠ 1 ∧ 2 ≤ X.length) ∧
    (learnTensor L (some "cov_min") X y = .ok r → d ≠ 1 ∧ 2 ≤ (selectLabel X y 1).length) := by
  have key : ∀ {rows : List (Fin d → K)} {T}, covTensor L rows = .ok T → d ≠ 1 ∧ 2 ≤ rows.length := by
    intro rows T h
    unfold covTensor at h
    split at h
    · cases h
    · split at h
      · cases h
      · exact ⟨by assumption, by omega⟩
  constructor <;>
  · intro h
    unfold learnTensor at h
    obtain ⟨_, _, h⟩ := bind_ok.1 h
    obtain ⟨_, _, h⟩ := bind_ok.1 h
    obtain ⟨t, ht, _⟩ := bind_ok.1 h
    exact key ht

omit [LinearOrder K] [IsStrictOrderedRing K] [Field K] in
/-- The transformed row has the entries of the kept columns, in their order. -/
theorem C115_kept_columns (mask : List Bool) (r : Row) (hm : mask.length = r.length) :
    dropColumns mask r = ((List.range r.length).filter (fun i => mask.getD i false)).map (fun i => r.getD i 0) := by
  unfold dropColumns
  induction r generalizing mask with
  | nil => rfl
  | cons x r ih =>
    cases mask with
    | nil => simp at hm
    | cons b mask =>
      have ih' := ih mask (by simpa using hm)
      unfold maskRows at ih' ⊢
      rw [List.zip_cons_cons, List.filterMap_cons, List.length_cons, List.range_succ_eq_map, List.filter_cons, List.filter_map]
      have hf : ((fun i => (b :: mask).getD i false) ∘ Nat.succ) = fun i => mask.getD i false := rfl
      cases b
      · simp only [Bool.false_eq_true, if_false, List.getD_cons_zero, ih', hf, List.map_map]
        rfl
      · simp only [if_true, List.getD_cons_zero, ih', hf, List.map_map, List.map_cons]
        rfl

/-- The hypotheses of `C115_reverse_matrix` can be met. -/
example : ∃ (eigh : Eigh ℝ 2) (M : Matrix (Fin 2) (Fin 2) ℝ), EighOK eigh ∧ ∀ i j : Fin 2, i < j → (eigh M).1 i < (eigh M).1 j := by
  classical
  obtain ⟨e, he⟩ := eigh_exists 2
  refine ⟨Function.update e (diagonal ![1, 2]) (![1, 2], 1), diagonal ![1, 2], ?_, ?_⟩
  · intro M
    by_cases hM : M = diagonal ![1, 2]
    · subst hM
      rw [Function.update_self]
      refine ⟨by simp, fun _ i j => ?_⟩
      fin_cases i <;> fin_cases j <;> simp [Matrix.one_apply]
    · rw [Function.update_of_ne hM]
      exact he M
  · rw [Function.update_self]
    intro i j hij
    fin_cases i <;> fin_cases j <;> simp_all

/-- Those of `C115_mean` as well. -/
example (x y : Fin 2 → ℚ) (h : x ≠ y) :
    1 / 10000 * (∑ i, (x i - y i) ^ 2) < (sqTensorDist (1 : Matrix (Fin 2) (Fin 2) ℚ) x y + sqTensorDist 1 x y) / 2 := by
  have hp : 0 < ∑ i, (x i - y i) ^ 2 := by
    refine lt_of_le_of_ne (Finset.sum_nonneg fun i _ => sq_nonneg _) fun h0 => h (funext fun i => ?_)
    have := (Finset.sum_eq_zero_iff_of_nonneg (fun i _ => sq_nonneg (x i - y i))).1 h0.symm i (Finset.mem_univ i)
    exact sub_eq_zero.1 (pow_eq_zero_iff two_ne_zero |>.1 this)
  have hs : sqTensorDist (1 : Matrix (Fin 2) (Fin 2) ℚ) x y = ∑ i, (x i - y i) ^ 2 := by
    simp only [sqTensorDist, Fin.sum_univ_two]
    simp
    ring
  rw [hs]
  linarith

/-- Those of `C115_construct`: the distances on a line are distances of a tensor. -/
example (X : List (Fin 1 → ℚ)) (i j : Nat) : ((X.getD i 0 0 - X.getD j 0 0) : ℚ) ^ 2 = sqTensorDist 1 (X.getD i 0) (X.getD j 0) := by
  simp only [sqTensorDist, Fin.sum_univ_one]
  simp
  ring

/-- Columns kept. -/
example : dropColumns [true, false, true] [1, 2, 3] = [1, 3] := by decide +kernel

end Verif

import Mathlib.Data.Matrix.Mul
import Mathlib.Algebra.Order.Field.Basic

/-!
# Specification of metric tensors
-/

namespace Verif

open Matrix

variable {K : Type} {d : Nat}

/-- The squared distance of two rows under a tensor, as a double sum. -/
def sqTensorDist [Field K] (T : Matrix (Fin d) (Fin d) K) (x y : Fin d → K) : K :=
  ∑ i, ∑ j, (x i - y i) * T i j * (x j - y j)

/-- A tensor which separates rows: symmetric, and different rows have a positive squared distance. -/
def IsMetric [Field K] [LinearOrder K] (T : Matrix (Fin d) (Fin d) K) : Prop :=
  (∀ i j, T i j = T j i) ∧ ∀ x y, x ≠ y → 0 < sqTensorDist T x y

/-- Contract of `np.linalg.eigh`: the columns of the second part are orthonormal, and a symmetric matrix is put together again from its
eigenvalues and eigenvectors. -/
def EighOK [Field K] (eigh : Matrix (Fin d) (Fin d) K → (Fin d → K) × Matrix (Fin d) (Fin d) K) : Prop :=
  ∀ M, (eigh M).2 * (eigh M).2.transpose = 1 ∧
    ((∀ i j, M i j = M j i) → ∀ i j, M i j = ∑ k, (eigh M).2 i k * (eigh M).1 k * (eigh M).2 j k)

/-- Contract of `np.linalg.inv`: the inverse of every matrix that has one. -/
def InvOK [Field K] (inv : Matrix (Fin d) (Fin d) K → Matrix (Fin d) (Fin d) K) : Prop :=
  ∀ A B, A * B = 1 → A * inv A = 1

/-- Contract of `LinearRegression(fit_intercept=False)` on the features of the pairs: no coefficients have a smaller sum of squared
errors. `predict` is the linear model. -/
def LeastSquares {F C : Type} [Field K] [LinearOrder K] (predict : C → F → K) (regress : List (F × K) → C) : Prop :=
  ∀ (data : List (F × K)) (c : C), (data.map (fun p => (predict (regress data) p.1 - p.2) ^ 2)).sum ≤ (data.map (fun p => (predict c p.1 - p.2) ^ 2)).sum

end Verif

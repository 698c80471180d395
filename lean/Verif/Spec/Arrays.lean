import Verif.Py
import Mathlib.Data.List.Forall2
import Mathlib.Data.List.GetD
import Mathlib.Algebra.BigOperators.Group.Finset.Basic

/-! # What the array helpers are for -/

namespace Verif

/-- Row `r` of `R` lists the items of row `r` of `A` at the positions in row `r` of `I`. -/
def PicksRowByRow {α : Type} (A : List (List α)) (I : List (List Int)) (R : List (List α)) : Prop :=
  R.length = I.length ∧ ∀ (r : Nat) (a : List α) (is : List Int), A[r]? = some a → I[r]? = some is →
    ∃ out, R[r]? = some out ∧ List.Forall₂ (fun i x => 0 ≤ i ∧ a[i.toNat]? = some x) is out

/-- All ways to take one item of each list, the last list varying fastest. -/
def lexProduct {α : Type} : List (List α) → List (List α)
  | [] => [[]]
  | a :: as => a.flatMap (fun x => (lexProduct as).map (fun t => x :: t))

/-- The sample covariance of two variables. -/
def sampleCov (a b : Row) : ℚ :=
  (∑ t ∈ Finset.range a.length, (a.getD t 0 - a.sum / a.length) * (b.getD t 0 - b.sum / b.length)) / ((a.length : ℚ) - 1)

end Verif

import Verif.Spec.Rounding
import Verif.Spec.Interp

/-!
# Rounding of Safe_Level_SMOTE
-/

namespace Verif

/-- The first number of the machine above one is at least `1 + 2 * ε`. -/
def GapAboveOne (fl : ℚ → ℚ) (ε : ℚ) : Prop := ∀ x, 1 < fl x → 1 + 2 * ε ≤ fl x

/-- `x` is between `p` and `q` in each coordinate, up to `δ c`. -/
def NearlyBetween (d : Nat) (δ : Nat → ℚ) (p q x : Row) : Prop :=
  x.length = d ∧ ∀ c, c < d → min (p.getD c 0) (q.getD c 0) - δ c ≤ x.getD c 0 ∧ x.getD c 0 ≤ max (p.getD c 0) (q.getD c 0) + δ c

/-- The error of the factor of Safe_Level_SMOTE, about `4 * ε`. -/
def safeGapError (ε : ℚ) : ℚ := 4 * ε + 5 * ε ^ 2 + 2 * ε ^ 3

end Verif

import Verif.Spec.Rounding
import Verif.Spec.Sampling

/-!
# Data which is scaled and scaled back
-/

namespace Verif

/-- The error of a number `x` which is standardised with the mean `m` and transformed back. -/
def stdError (ε x m : ℚ) : ℚ := (1 + ε) * (((1 + ε) ^ 3 - 1) * |x - m|) + ε * |x|

/-- The error of a number `x` which is scaled to the unit interval and transformed back; `o` is the offset of the column in the units of the data. -/
def minError (ε x o : ℚ) : ℚ := (1 + ε) * ((1 + ε) * (ε * ((2 + ε) * |x| + |o|)) + ε * |x|) + ε * |x|

/-- The rows agree up to an error which depends on the column and the entry. -/
def NearRow (d : Nat) (err : Nat → ℚ → ℚ) (r' r : Row) : Prop := r'.length = d ∧ ∀ c, c < d → |r'.getD c 0 - r.getD c 0| ≤ err c (r.getD c 0)

/-- The rows of the list without a mark. -/
def unmarked {α : Type} (l : List α) (marks : List Bool) : List α := ((l.zip marks).filter (fun p => !p.2)).map Prod.fst

/-- The marks of the rows with fewer than `limit` rows labelled `a` among their listed neighbours (the first entry of the list is the row itself). -/
def fewNeighbours (y : List Int) (a : Int) (limit : ℚ) (table : List (List Nat)) : List Bool :=
  table.map (fun row => decide ((((row.drop 1).countP (fun j => decide (y[j]? = some a)) : Nat) : ℚ) < limit))

end Verif

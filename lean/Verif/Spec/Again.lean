import Verif.Spec.Neighbors
import Verif.Py

/-!
# Specification: applying a filter again and again
-/

namespace Verif

/-- The filter applied `n` times. -/
def cleanTimes (f : List Row → List Int → Res (List Row × List Int)) : Nat → List Row → List Int → Res (List Row × List Int)
  | 0, X, y => .ok (X, y)
  | n + 1, X, y => do
    let r ← f X y
    cleanTimes f n r.1 r.2

/-- The labelled rows of `(X', y')` are some of those of `(X, y)`, in their order. -/
def OnlyRemoves (X : List Row) (y : List Int) (X' : List Row) (y' : List Int) : Prop :=
  X'.length = y'.length ∧ (X'.zip y').Sublist (X.zip y)

/-- At most one class is left. -/
def OneLabel (y : List Int) : Prop := ∃ l, ∀ v ∈ y, v = l

end Verif

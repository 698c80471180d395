import Verif.Spec.Sampling

/-!
# Specification: balanced data

`sample` leaves data with two classes of equal size as they are.
-/

namespace Verif

/-- Two classes, of the same size. -/
def Balanced (y : List Int) : Prop :=
  ∃ a b, a ≠ b ∧ a ∈ y ∧ b ∈ y ∧ (∀ l ∈ y, l = a ∨ l = b) ∧ y.count a = y.count b

/-- Balanced data come back unchanged. -/
def KeepsBalanced (f : List Row → List Int → Res (List Row × List Int)) : Prop :=
  ∀ X y, X.length = y.length → Balanced y → f X y = .ok (X, y)

/-- Doing it twice is the same as doing it once, for data with two classes. `f` is the first call and `g` the second one: they may draw
different numbers. -/
def Idempotent (d : Nat) (f g : List Row → List Int → Res (List Row × List Int)) : Prop :=
  ∀ X y a b X' y', WF d X y → IsMinority y a b → f X y = .ok (X', y') → g X' y' = .ok (X', y')

end Verif

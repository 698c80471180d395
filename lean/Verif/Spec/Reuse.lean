import Verif.Model.Reuse

/-!
# Using an oversampler again
-/

namespace Verif

/-- `m` is the least of `start` and the numbers with the property `S`. -/
def LeastOf (start : Nat) (S : Nat → Prop) (m : Nat) : Prop := m ≤ start ∧ (∀ n, S n → m ≤ n) ∧ (m = start ∨ S m)

/-- After the calls `hist` of an object with the fields `f`, the call `c` gives what the first call of an object with the fields `g` gives. -/
def LikeFresh {P : Type} (checks : List Check) (hist : List (SampleCall P)) (c : SampleCall P) (f g : P) : Prop :=
  (sampleOn checks c (afterCalls checks hist { fields := f })).1 = (sampleOn checks c { fields := g }).1

end Verif

import Verif.Spec.Sampling

/-!
# Specification: samplers which do not look at the majority rows

Independent of the models.
-/

namespace Verif

/-- The rows which a sampler appends. -/
def newRows (X : List Row) (r : Res (List Row × List Int)) : Res (List Row) := (fun p => p.1.drop X.length) <$> r

/-- Two data sets with the same minority rows in the same order and as many majority rows, whatever these are and wherever they stand, get the
same new rows, or the same exception. -/
def IgnoresMajority (sampler : List Row → List Int → Res (List Row × List Int)) : Prop :=
  ∀ (X X' : List Row) (y y' : List Int) (a b : Int), X.length = y.length → X'.length = y'.length → IsMinority y a b → IsMinority y' a b →
    classRows X y a = classRows X' y' a → y.count b = y'.count b → newRows X (sampler X y) = newRows X' (sampler X' y')

end Verif

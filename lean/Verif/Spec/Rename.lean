import Verif.Spec.Sampling
import Mathlib.Order.Monotone.Basic

/-!
# Specification: the names of the classes
-/

namespace Verif

/-- The answer with its labels renamed; an exception stays the same exception. -/
def renameLabels (f : Int → Int) (r : Res (List Row × List Int)) : Res (List Row × List Int) :=
  (fun p => (p.1, p.2.map f)) <$> r

/-- Renaming the two classes of the data, such that the minority class stays the minority class, renames the classes of the answer and changes
nothing else. -/
def NamesDontMatter (sampler : List Row → List Int → Res (List Row × List Int)) : Prop :=
  ∀ f : Int → Int, Function.Injective f → ∀ (X : List Row) (y : List Int) (a b : Int), IsMinority y a b →
    IsMinority (y.map f) (f a) (f b) → sampler X (y.map f) = renameLabels f (sampler X y)

/-- The same for names which keep the order of the labels, whatever the labels are. -/
def OnlyOrderMatters (sampler : List Row → List Int → Res (List Row × List Int)) : Prop :=
  ∀ f : Int → Int, StrictMono f → ∀ (X : List Row) (y : List Int), sampler X (y.map f) = renameLabels f (sampler X y)

end Verif

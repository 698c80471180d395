import Verif.Spec.Sampling
import Verif.Spec.Geometry

/-! # Specification vocabulary: linear relations among the features (independent of the model) -/

namespace Verif

/-- The `d` features of the row fulfil the linear equation `Σ m_k · x_k = c`. -/
def Fulfils (d : Nat) (m : Nat → ℚ) (c : ℚ) (x : Row) : Prop := ((List.range d).map (fun k => m k * x.getD k 0)).sum = c

/-- Every linear equation which all rows of class `a` fulfil is also fulfilled by all rows of that class in the result. -/
def KeepsRelations (d : Nat) (a : Int) (X : List Row) (y : List Int) (X' : List Row) (y' : List Int) : Prop :=
  ∀ m c, (∀ r ∈ classRows X y a, Fulfils d m c r) → ∀ r ∈ classRows X' y' a, Fulfils d m c r

/-- The `d` features of the row fulfil the linear condition `Σ m_k · x_k ≤ c`. An equation is a pair of such conditions. -/
def Meets (d : Nat) (m : Nat → ℚ) (c : ℚ) (x : Row) : Prop := ((List.range d).map (fun k => m k * x.getD k 0)).sum ≤ c

/-- Every linear condition which all rows of class `a` fulfil (a feature is not negative, one feature is not larger than another, parts do
not exceed a total) is also fulfilled by all rows of that class in the result. -/
def KeepsConditions (d : Nat) (a : Int) (X : List Row) (y : List Int) (X' : List Row) (y' : List Int) : Prop :=
  ∀ m c, (∀ r ∈ classRows X y a, Meets d m c r) → ∀ r ∈ classRows X' y' a, Meets d m c r

/-- Every feature stays between its smallest and its largest value in class `a`. -/
def KeepsRanges (d : Nat) (a : Int) (X : List Row) (y : List Int) (X' : List Row) (y' : List Int) : Prop :=
  ∀ k lo hi, k < d → (∀ r ∈ classRows X y a, lo ≤ r.getD k 0 ∧ r.getD k 0 ≤ hi) → ∀ r ∈ classRows X' y' a, lo ≤ r.getD k 0 ∧ r.getD k 0 ≤ hi

/-- A feature with the same value in all rows of class `a` has this value in all rows of that class in the result. -/
def KeepsConstants (d : Nat) (a : Int) (X : List Row) (y : List Int) (X' : List Row) (y' : List Int) : Prop :=
  ∀ k c, k < d → (∀ r ∈ classRows X y a, r.getD k 0 = c) → ∀ r ∈ classRows X' y' a, r.getD k 0 = c

end Verif

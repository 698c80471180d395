import Verif.Spec.Sampling

/-! # Specification: points between two points, coordinate by coordinate -/

namespace Verif

/-- Every coordinate of `x` is between the coordinates of `p` and `q`. -/
def Between (d : Nat) (p q x : Row) : Prop :=
  x.length = d ∧ ∀ k, k < d →
    min (p.getD k 0) (q.getD k 0) ≤ x.getD k 0 ∧ x.getD k 0 ≤ max (p.getD k 0) (q.getD k 0)

/-- Contract of a neighbour query of `k` rows of `X` for every row of `Q`. -/
def KnnQueryOK (knn : Nat → List Row → List Row → List (List Nat)) : Prop :=
  ∀ k X Q, k ≤ X.length → (knn k X Q).length = Q.length ∧ TableOK (knn k X Q) k X.length

/-- The two possible results of an oversampler: the input, or the input followed by exactly `n` rows labelled `l`, each with
the property `P`. -/
def Oversampled (X : List Row) (y : List Int) (l : Int) (n : Nat) (P : Row → Prop) (X' : List Row) (y' : List Int) : Prop :=
  (X' = X ∧ y' = y) ∨
  ∃ new : List Row, X' = X ++ new ∧ y' = y ++ List.replicate n l ∧ new.length = n ∧ ∀ x ∈ new, P x

end Verif

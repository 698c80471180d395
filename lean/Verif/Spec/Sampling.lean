import Verif.Spec.Geometry

/-! # Specification vocabulary for sample generation (independent of the model) -/

namespace Verif

/-- `x` is a convex combination of a base row `X[b]` and of rows of `V` that the neighbour table lists
for `b`. -/
def GeneratedFrom (d : Nat) (X V : List Row) (indices : List (List Nat)) (x : Row) : Prop :=
  ∃ (b : Nat) (base : Row) (row nbIdx : List Nat) (nbrs : List Row) (w : List ℚ),
    X[b]? = some base ∧ indices[b]? = some row ∧ (∀ i ∈ nbIdx, i ∈ row) ∧
    List.Forall₂ (fun i r => V[i]? = some r) nbIdx nbrs ∧ IsConvexComb d w (base :: nbrs) x

/-- The result `(X', y')` extends the data set `(X, y)` by exactly `n` rows, all labelled `l`. -/
def Extends (X : List Row) (y : List Int) (l : Int) (n : Nat) (X' : List Row) (y' : List Int) : Prop :=
  ∃ new : List Row, X' = X ++ new ∧ y' = y ++ List.replicate n l ∧ new.length = n

/-- A rectangular neighbour table: `k` entries per row, each an index below `m`. -/
def TableOK (indices : List (List Nat)) (k m : Nat) : Prop :=
  ∀ row ∈ indices, row.length = k ∧ ∀ i ∈ row, i < m

instance (indices : List (List Nat)) (k m : Nat) : Decidable (TableOK indices k m) := by
  unfold TableOK; infer_instance

/-- Contract of a nearest-neighbour query of `k` neighbours for every row of the fitted data: one list
of `k` valid row numbers per row. -/
def KnnOK (knn : Nat → List Row → List (List Nat)) : Prop :=
  ∀ k rows, k ≤ rows.length → (knn k rows).length = rows.length ∧ TableOK (knn k rows) k rows.length

/-- The two classes of `y` are `a` and `b`, and `a` is the rarer one (the larger label on ties). -/
def IsMinority (y : List Int) (a b : Int) : Prop :=
  a ∈ y ∧ b ∈ y ∧ (∀ l ∈ y, l = a ∨ l = b) ∧
  (y.count a < y.count b ∨ (y.count a = y.count b ∧ b < a))

/-- The rows labelled `l`, in order. -/
def classRows {α : Type} (X : List α) (y : List Int) (l : Int) : List α :=
  ((X.zip y).filter (fun p => decide (p.2 = l))).map Prod.fst

/-- Number of samples asked for: the share `p` of the class gap, truncated, never negative. -/
def requested (p : ℚ) (nMaj nMin : Nat) : Nat := ⌊((nMaj : ℚ) - (nMin : ℚ)) * p⌋.toNat

end Verif


import Verif.Spec.Interp

/-! # Specification: sampling within clusters -/

namespace Verif

/-- `x` is a convex combination of a row of `X`, at an eligible position, and of exactly `nDim - 1` further rows of `V`, which the
neighbour table lists for that row behind the first entry (the row itself). -/
def SimplexOf (d nDim : Nat) (X V : List Row) (table : List (List Nat)) (ok : Nat → Prop) (x : Row) : Prop :=
  ∃ (b : Nat) (base : Row) (row nbIdx : List Nat) (nbrs : List Row) (w : List ℚ),
    X[b]? = some base ∧ ok b ∧ table[b]? = some row ∧ nbIdx.Sublist (row.drop 1) ∧ nbIdx.length + 1 = nDim ∧
    List.Forall₂ (fun i r => V[i]? = some r) nbIdx nbrs ∧ IsConvexComb d w (base :: nbrs) x

/-- The rows of cluster `c` which belong to the class `a`, in order. -/
def clusterRows (X : List Row) (y labels : List Int) (a : Int) (c : Int) : List Row :=
  classRows (classRows X labels c) (classRows y labels c) a

/-- Contract of the clustering: one label for every row. -/
def KmeansOK (kmeans : Nat → List Row → List Int) : Prop := ∀ n rows, (kmeans n rows).length = rows.length

/-- Contract of `choice(m, n)`: `n` numbers below `m`. -/
def PickOK (pick : Nat → Nat → List Nat) : Prop :=
  ∀ m n, 0 < m → (pick m n).length = n ∧ ∀ i ∈ pick m n, i < m

/-- The mean distance of two different rows of the list. -/
def meanPairDist (pdist : Row → Row → ℚ) (rows : List Row) : ℚ :=
  ((List.range rows.length).map (fun i => (((List.range rows.length).filter (fun j => decide (j ≠ i))).map
    (fun j => pdist (rows.getD i []) (rows.getD j []))).sum)).sum / ((rows.length : ℚ) * ((rows.length : ℚ) - 1))

/-- Shares in proportion to non-negative numbers; equal shares if all of them are zero. -/
def shares (l : List ℚ) : List ℚ :=
  if l.sum = 0 then List.replicate l.length (1 / (l.length : ℚ)) else l.map (fun q => q / l.sum)

/-- The `i`-th draw selects the entry whose share of the unit interval contains the number `u i`. -/
def DrawnByShares (w : List ℚ) (u : Nat → ℚ) (n : Nat) (selected : List Nat) : Prop :=
  selected.length = n ∧ ∀ (i : Nat) (c : Nat), selected[i]? = some c →
    c < w.length ∧ (w.take c).sum ≤ u i ∧ u i < (w.take (c + 1)).sum

end Verif

import Verif.Spec.Interp
import Mathlib.Data.List.Sort

/-!
# Contracts of exact neighbour searches

`dist` is the distance the searches use (a metric tensor may be part of it).
-/

namespace Verif

/-- The answers to a query for the `k` nearest fitted rows: different positions in increasing order of the distance, and no row
left out is closer. -/
def NearestRows (dist : Row → Row → ℚ) (F : List Row) (q : Row) (row : List Nat) : Prop :=
  row.Nodup ∧ row.Pairwise (fun i j => dist q (F.getD i []) ≤ dist q (F.getD j [])) ∧
  ∀ i j, i < F.length → i ∉ row → j ∈ row → dist q (F.getD j []) ≤ dist q (F.getD i [])

/-- `kneighbors` without distances is exact. -/
def NearestOK (dist : Row → Row → ℚ) (knn : Nat → List Row → List Row → List (List Nat)) : Prop :=
  KnnQueryOK knn ∧ ∀ k F Q, k ≤ F.length → List.Forall₂ (NearestRows dist F) Q (knn k F Q)

/-- `kneighbors` returns the `k` smallest distances in increasing order. -/
def NearestDistOK (dist : Row → Row → ℚ) (knnDist : Nat → List Row → List Row → List (List ℚ)) : Prop :=
  ∀ k F Q, k ≤ F.length → knnDist k F Q = Q.map (fun q => ((F.map (dist q)).insertionSort (· ≤ ·)).take k)

/-- `radius_neighbors` returns, for every query, the positions of the fitted rows within the radius, in some order. -/
def RadiusExact (dist : Row → Row → ℚ) (radius : List Row → List Row → ℚ → List (List Nat)) : Prop :=
  ∀ F Q r, List.Forall₂ (fun q row => row.Perm ((List.range F.length).filter (fun i => decide (dist q (F.getD i []) ≤ r)))) Q
    (radius F Q r)

end Verif

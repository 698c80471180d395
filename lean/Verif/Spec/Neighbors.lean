import Verif.Spec.Sampling
import Mathlib.Data.List.Sort

/-!
# Specification vocabulary for neighbours and sub-datasets

Independent of the models: squared distances, a brute force neighbour search that satisfies the
contract `KnnOK` (used for non-vacuity and for concrete counterexamples), modes, and sub-datasets.
-/

namespace Verif

/-- Squared Euclidean distance. -/
def sqDist (a b : Row) : ℚ := ((List.zipWith (· - ·) a b).map (fun t => t * t)).sum

/-- Squared distance between rows `i` and `j` of `X`. -/
def rowDist (X : List Row) (i j : Nat) : ℚ := sqDist (X.getD i []) (X.getD j [])

/-- Brute force search: the `k` row numbers closest to row `i`, nearest first. -/
def nearestTo (X : List Row) (k : Nat) (x : Row) : List Nat :=
  ((List.range X.length).insertionSort (fun a b => sqDist x (X.getD a []) ≤ sqDist x (X.getD b []))).take k

/-- Brute force neighbour table of all rows. -/
def bruteKnn (k : Nat) (X : List Row) : List (List Nat) := X.map (nearestTo X k)

theorem bruteKnn_ok : KnnOK bruteKnn := by
  intro k X hk
  refine ⟨by simp [bruteKnn], ?_⟩
  intro row hrow
  simp only [bruteKnn, List.mem_map] at hrow
  obtain ⟨x, _, rfl⟩ := hrow
  unfold nearestTo
  have hp := List.perm_insertionSort
    (fun a b => sqDist x (X.getD a []) ≤ sqDist x (X.getD b [])) (List.range X.length)
  constructor
  · rw [List.length_take, hp.length_eq, List.length_range]; omega
  · intro i hi
    exact List.mem_range.1 (hp.mem_iff.1 (List.mem_of_mem_take hi))

/-- `v` is the mode of `l`: it occurs, nothing occurs more often, and among the equally frequent values
it is the smallest. -/
def IsMode (v : Int) (l : List Int) : Prop :=
  v ∈ l ∧ ∀ w ∈ l, l.count w ≤ l.count v ∧ (l.count w = l.count v → v ≤ w)

/-- `(X', y')` is the data set `(X, y)` restricted to the positions `K`, in the original order. -/
def SubData {α : Type} (X : List α) (y : List Int) (X' : List α) (y' : List Int) (K : List Nat) : Prop :=
  K.Sublist (List.range X.length) ∧
  List.Forall₂ (fun i r => X[i]? = some r) K X' ∧ List.Forall₂ (fun i l => y[i]? = some l) K y'

/-- Position `i` exists and is not among the kept positions. -/
def Removed {α : Type} (X : List α) (K : List Nat) (i : Nat) : Prop := i < X.length ∧ i ∉ K

end Verif

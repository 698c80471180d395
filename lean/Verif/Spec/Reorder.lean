import Verif.Spec.Neighbors

/-!
# Specification: the order of the rows

The same data in another order. `σ` lists the old positions in the new order.
-/

namespace Verif

/-- `xs'` holds the items of `xs` in the order `σ`: the item at position `p` of `xs'` is the one at position `σ[p]` of `xs`. -/
structure Reordered {α : Type} (σ : List Nat) (xs xs' : List α) : Prop where
  perm : σ.Perm (List.range xs.length)
  get : List.Forall₂ (fun i x => xs[i]? = some x) σ xs'

/-- Two lists of positions name the same items, `r'` in the reordered data and `r` in the original ones. -/
def SamePositions (σ r r' : List Nat) : Prop := List.Forall₂ (fun q j => σ[q]? = some j) r' r

/-- Two neighbour tables give each item the same neighbours: `T` for the original data, `T'` for the reordered ones. -/
def SameNeighbors (σ : List Nat) (T T' : List (List Nat)) : Prop :=
  ∀ p i : Nat, σ[p]? = some i → ∃ r r', T[i]? = some r ∧ T'[p]? = some r' ∧ SamePositions σ r r'

/-- The distances from `x` to the rows are different from one another. -/
def NoTies (X : List Row) (x : Row) : Prop :=
  ∀ i < X.length, ∀ j < X.length, sqDist x (X.getD i []) = sqDist x (X.getD j []) → i = j

instance (X : List Row) (x : Row) : Decidable (NoTies X x) := by unfold NoTies; infer_instance

/-- The same exception, or the same labelled rows in some order. -/
def SameRows (r r' : Res (List Row × List Int)) : Prop :=
  (∃ e, r = .error e ∧ r' = .error e) ∨ ∃ X y X' y', r = .ok (X, y) ∧ r' = .ok (X', y') ∧ (X'.zip y').Perm (X.zip y)

/-- A procedure using a neighbour search does not depend on the order of the rows: reordered two-class data, for which the search finds the
same neighbours (for the numbers of neighbours in `ks`), give the same labelled rows. -/
def IgnoresOrder (ks : List Nat) (f : (Nat → List Row → List (List Nat)) → List Row → List Int → Res (List Row × List Int)) : Prop :=
  ∀ knn σ X y X' y' a b, KnnOK knn → X.length = y.length → IsMinority y a b → Reordered σ X X' → Reordered σ y y' →
    (∀ k ∈ ks, k ≤ X.length → SameNeighbors σ (knn k X) (knn k X')) → SameRows (f knn X y) (f knn X' y')

end Verif

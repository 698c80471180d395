import Verif.Py

/-!
# Specification: a change of coordinates of the feature space

Independent of the models.
-/

namespace Verif

/-- The affine map `r ↦ M r + c` of rows with `d` features. -/
def affineRow (d : Nat) (M : Nat → Nat → ℚ) (c : Nat → ℚ) (r : Row) : Row :=
  (List.range d).map (fun i => ((List.range d).map (fun j => M i j * r.getD j 0)).sum + c i)

/-- A result with other coordinates. -/
def changeRows (g : Row → Row) (r : Res (List Row × List Int)) : Res (List Row × List Int) :=
  (fun p => (p.1.map g, p.2)) <$> r

/-- Changing the coordinates before sampling or afterwards is the same. -/
def CommutesWith (d : Nat) (g : Row → Row) (sampler : List Row → List Int → Res (List Row × List Int)) : Prop :=
  ∀ (X : List Row) (y : List Int), (∀ r ∈ X, r.length = d) → sampler (X.map g) y = changeRows g (sampler X y)

/-- The search lists the same neighbours in the new coordinates: the `k` rows of a table next to each of its rows. -/
def SameTable (d : Nat) (g : Row → Row) (knn : Nat → List Row → List (List Nat)) : Prop :=
  ∀ (k : Nat) (Z : List Row), (∀ r ∈ Z, r.length = d) → knn k (Z.map g) = knn k Z

/-- The same for the `k` rows of a table next to each of some other rows. -/
def SameQuery (d : Nat) (g : Row → Row) (knn : Nat → List Row → List Row → List (List Nat)) : Prop :=
  ∀ (k : Nat) (Z Q : List Row), (∀ r ∈ Z, r.length = d) → (∀ r ∈ Q, r.length = d) → knn k (Z.map g) (Q.map g) = knn k Z Q

/-- All distances are multiplied by the same positive number. -/
def ScaledDist (d : Nat) (g : Row → Row) (dist : Nat → List Row → List Row → List (List ℚ)) : Prop :=
  ∃ c : ℚ, 0 < c ∧ ∀ (k : Nat) (Z Q : List Row), (∀ r ∈ Z, r.length = d) → (∀ r ∈ Q, r.length = d) →
    dist k (Z.map g) (Q.map g) = (dist k Z Q).map (List.map (c * ·))

/-- The volume of a simplex is multiplied by a number which depends on its dimension only. -/
def VolScaled (d : Nat) (g : Row → Row) (vol : List Row → ℚ) : Prop :=
  ∀ m : Nat, ∃ c : ℚ, c ≠ 0 ∧ ∀ vs : List Row, vs.length = m → (∀ r ∈ vs, r.length = d) → vol (vs.map g) = c * vol vs

end Verif

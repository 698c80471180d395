import Verif.Py

/-! # Specification vocabulary: convex combinations and boxes (independent of the model) -/

namespace Verif

/-- `x` is the point `Σ w_i · S_i` of dimension `d`, with non-negative weights summing to one. -/
def IsConvexComb (d : Nat) (w : List ℚ) (S : List Row) (x : Row) : Prop :=
  w.length = S.length ∧ (∀ c ∈ w, 0 ≤ c) ∧ w.sum = 1 ∧ x.length = d ∧
  ∀ k, k < d → x.getD k 0 = (List.zipWith (fun c r => c * r.getD k 0) w S).sum

/-- `x` lies in the convex hull of the points `S`. -/
def InHull (d : Nat) (S : List Row) (x : Row) : Prop :=
  ∃ (V : List Row) (w : List ℚ), (∀ v ∈ V, v ∈ S) ∧ IsConvexComb d w V x

/-- Every coordinate of `x` is between the smallest and the largest value of that coordinate in `S`. -/
def InBox (d : Nat) (S : List Row) (x : Row) : Prop :=
  x.length = d ∧ ∀ k, k < d →
    (∃ r ∈ S, r.getD k 0 ≤ x.getD k 0) ∧ (∃ r ∈ S, x.getD k 0 ≤ r.getD k 0)

end Verif

import Verif.Py
import Mathlib.Analysis.Real.Sqrt

/-!
# Specification of distances

The squared length of a difference vector under a tensor, as a double sum over coordinates, and what a correct answer of
a neighbour search is.
-/

namespace Verif

/-- `Σ_k Σ_l v_k T_kl v_l`. -/
def tensorNorm (d : Nat) (T : Nat → Nat → ℚ) (v : Nat → ℚ) : ℚ :=
  ((List.range d).map (fun k => ((List.range d).map (fun l => v k * T k l * v l)).sum)).sum

/-- Entry of a matrix given by rows. -/
def entryOf (T : List Row) (k l : Nat) : ℚ := (T.getD k []).getD l 0

/-- Coordinate of a difference. -/
def diffOf (x y : Row) (k : Nat) : ℚ := x.getD k 0 - y.getD k 0

/-- `sel` are `k` nearest among `n` candidates (all of them when `n < k`): distinct, in order of increasing distance, and
nothing left out is closer than anything taken. -/
def IsNearest (n k : Nat) (dist : Nat → ℝ) (sel : List Nat) : Prop :=
  sel.length = min k n ∧ sel.Nodup ∧ (∀ i ∈ sel, i < n) ∧ sel.Pairwise (fun a b => dist a ≤ dist b) ∧
  ∀ i ∈ sel, ∀ j, j < n → j ∉ sel → dist i ≤ dist j

/-- Contract of `np.argsort`: a permutation of the positions that sorts the values. -/
def ArgsortSorts {β : Type} [LE β] (argsort : List β → List Nat) : Prop :=
  ∀ l, (argsort l).Perm (List.range l.length) ∧
    (argsort l).Pairwise (fun a b => ∀ x y, l[a]? = some x → l[b]? = some y → x ≤ y)

end Verif

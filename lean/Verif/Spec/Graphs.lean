import Verif.Py

/-! # Specification: walks in a weighted graph -/

namespace Verif

/-- `Walk edges s v q k`: there is a walk from `s` to `v` of total weight `q` with `k` edges. -/
inductive Walk (edges : List (Nat × Nat × ℚ)) (s : Nat) : Nat → ℚ → Nat → Prop
  | nil : Walk edges s s 0 0
  | snoc {u v : Nat} {q w : ℚ} {k : Nat} : Walk edges s u q k → (u, v, w) ∈ edges → Walk edges s v (q + w) (k + 1)

/-- `d` is the smallest weight of a walk from `s` to `v`; `none` if there is no walk. -/
def IsShortest (edges : List (Nat × Nat × ℚ)) (s v : Nat) : Option ℚ → Prop
  | none => ¬ ∃ q k, Walk edges s v q k
  | some d => (∃ k, Walk edges s v d k) ∧ ∀ q k, Walk edges s v q k → d ≤ q

end Verif

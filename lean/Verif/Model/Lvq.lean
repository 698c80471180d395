import Verif.Model.Regions
import Verif.Model.Distances

/-!
# LVQ_SMOTE

`kmeans n rows` are the centres, `norm` is `np.linalg.norm`. The draws for sample `t`: `codes t m` two numbers below `m`, `coin t i j`
the choice between `i` and `j` (true for `j`), `pos t k` a number below `k`.
-/

namespace Verif

/-- The body of the two loops, oversampling/_lvq_smote.py:134-141. -/
def lvqStep (norm : Row → ℚ) (cb : List Row) (c0 c1 : Nat) (coin : Nat → Nat → Bool) (best : Option (ℚ × Nat)) (p : Nat × Nat) :
    Option (ℚ × Nat) :=
  if (c0 ≠ p.1 ∧ c0 ≠ p.2) ∧ (c1 ≠ p.1 ∧ c1 ≠ p.2) then
    let ddiff := norm (Row.sub (Row.sub (cb.getD c0 []) (cb.getD c1 [])) (Row.sub (cb.getD p.1 []) (cb.getD p.2 [])))
    match best with
    | none => some (ddiff, if coin p.1 p.2 then p.2 else p.1)
    | some b => if ddiff < b.1 then some (ddiff, if coin p.1 p.2 then p.2 else p.1) else best
  else best

/-- The two loops, oversampling/_lvq_smote.py:132-141. -/
def lvqOptimum (norm : Row → ℚ) (cb : List Row) (c0 c1 : Nat) (coin : Nat → Nat → Bool) : Option (ℚ × Nat) :=
  ((List.range cb.length).product (List.range cb.length)).foldl (lvqStep norm cb c0 c1 coin) none

/-- One turn of the loop of `generate_samples`, oversampling/_lvq_smote.py:128-147. Without an optimum the code would index with `None`;
that this does not happen is a theorem. -/
def lvqRow (norm : Row → ℚ) (codes : Nat → Nat → Nat × Nat) (coin : Nat → Nat → Nat → Bool) (pos : Nat → Nat → Nat) (cb A : List Row)
    (indices : List (List Nat)) (t : Nat) : Res Row := do
  let c := codes t cb.length
  match lvqOptimum norm cb c.1 c.2 (coin t) with
  | none => .error .typeError
  | some b => do
    let row ← getRow indices b.2
    let q ← getRow row (pos t row.length)
    let x ← getRow A q
    let base ← getRow cb c.1
    let o ← getRow cb b.2
    return List.zipWith (· + ·) base (Row.sub x o)

/-- `LVQ_SMOTE.sampling_algorithm`, oversampling/_lvq_smote.py:151-196. Every turn of the loop appends one row, so there are `n` turns.
`choice` of two codes from fewer than two raises. -/
def lvqAlg (proportion : ℚ) (nNeighbors nClusters : Nat) (kmeans : Nat → List Row → List Row) (norm : Row → ℚ)
    (codes : Nat → Nat → Nat × Nat) (coin : Nat → Nat → Nat → Bool) (pos : Nat → Nat → Nat)
    (knn : Nat → List Row → List Row → List (List Nat)) (s : Stats) (X : List Row) (y : List Int) : Res (List Row × List Int) := do
  let n ← detNToSample (.num proportion) (s.count s.majLabel) (s.count s.minLabel)
  if n = 0 then return (X, y)
  let A := selectLabel X y s.minLabel
  let cb := kmeans (min A.length nClusters) A
  let k := min A.length nNeighbors
  let indices := knn k A cb
  if cb.length < 2 then throw .valueError
  let samples ← (List.range n).mapM (lvqRow norm codes coin pos cb A indices)
  return withSamples X y s.minLabel samples

end Verif

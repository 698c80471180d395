import Verif.Model.Regions
import Verif.Model.Distances

/-!
# ADOMS

`pca rows` is the first principal direction of the rows, `norm` is `np.linalg.norm`; `index t m` and `nbIx t m` are numbers below `m`,
`rand t` a number in [0, 1).
-/

namespace Verif

/-- `generate_sample_in_neighborhood`, oversampling/_adoms.py:112-138. -/
def adomsSample (pca : List Row → Row) (norm : Row → ℚ) (nbIx : Nat) (rand : ℚ) (sample : Row) (neighbors : List Row) : Res Row := do
  let dir := pca neighbors
  let nb ← getRow neighbors nbIx
  let diff := norm (Row.sub nb sample)
  let sign : ℚ := if 0 < dotRow (Row.sub nb sample) dir then 1 else -1
  return List.zipWith (fun x v => x + sign * rand * diff * v) sample dir

/-- `ADOMS.sampling_algorithm`, oversampling/_adoms.py:140-181. -/
def adomsAlg (proportion : ℚ) (nNeighbors : Nat) (pca : List Row → Row) (norm : Row → ℚ) (index nbIx : Nat → Nat → Nat) (rand : Nat → ℚ)
    (knn : Nat → List Row → List (List Nat)) (s : Stats) (X : List Row) (y : List Int) : Res (List Row × List Int) := do
  let n ← detNToSample (.num proportion) (s.count s.majLabel) (s.count s.minLabel)
  if n = 0 then return (X, y)
  let A := selectLabel X y s.minLabel
  let k := min A.length (nNeighbors + 1)
  let indices := knn k A
  let samples ← (List.range n).mapM (fun t => do
    let row ← getRow indices (index t A.length)
    let neighbors ← takeRows A row
    let x ← getRow A (index t A.length)
    if neighbors.length ≤ 1 then throw .valueError
    adomsSample pca norm (1 + nbIx t (neighbors.length - 1)) (rand t) x neighbors)
  return withSamples X y s.minLabel samples

end Verif

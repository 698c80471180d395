import Verif.Model.Regions
import Mathlib.Data.List.Sort

/-!
# MCT and Edge_Det_SMOTE

Oversamplers which draw the base rows with probabilities of their own. `dist` stands for the euclidean distance of two rows,
`sqrt` for the square root, `knn k X Q` for the answer of the neighbour search.
-/

namespace Verif

/-- `np.median` of a list of numbers. Used for oversampling/_mct.py:136. -/
def medianOf (l : List ℚ) : ℚ :=
  let s := l.insertionSort (· ≤ ·)
  (s.getD ((s.length - 1) / 2) 0 + s.getD (s.length / 2) 0) / 2

/-- `np.median(X_min, axis=0)`, oversampling/_mct.py:136. -/
def medianRow (d : Nat) (rows : List Row) : Row :=
  (List.range d).map (fun t => medianOf (rows.map (fun r => r.getD t 0)))

/-- The probabilities of the rows, oversampling/_mct.py:136-138. -/
def mctWeights (dist : Row → Row → ℚ) (d : Nat) (rows : List Row) : List ℚ :=
  let distances := rows.map (dist (medianRow d rows))
  fixDensity (distances.map (fun q => XF.fin (distances.sum - q)))

/-- `MCT.sampling_algorithm`, oversampling/_mct.py:107-152. -/
def mctAlg (par : NbParams) (dist : Row → Row → ℚ) (vol : List Row → ℚ) (dr : Draws) (d : Nat)
    (knn : Nat → List Row → List Row → List (List Nat)) (s : Stats) (X : List Row) (y : List Int) :
    Res (List Row × List Int) := do
  let n ← detNToSample (.num par.proportion) (s.count s.majLabel) (s.count s.minLabel)
  if n = 0 then return (X, y)
  let Xmin := selectLabel X y s.minLabel
  let k := min Xmin.length (par.nNeighbors + 1)
  let samples ← sampleSimplex par.ss vol dr d Xmin (knn k Xmin Xmin) k n { baseWeights := some (mctWeights dist d Xmin) }
  return withSamples X y s.minLabel samples

/-- The positions sorted by value, oversampling/_edge_det_smote.py:136-137. The sort is stable: equal values stay in the order of
their positions. -/
def sortPositions (col : List ℚ) : List Nat :=
  (List.range col.length).insertionSort
    (fun i j => col.getD i 0 < col.getD j 0 ∨ (col.getD i 0 = col.getD j 0 ∧ i ≤ j))

/-- The inner loop for one attribute, oversampling/_edge_det_smote.py:139-142. -/
def edgeColumn (col : List ℚ) (y : List Int) (mag : List ℚ) : List ℚ :=
  let ind := sortPositions col
  (List.range' 1 (ind.length - 2)).foldl (fun m j => m.modify (ind.getD j 0)
    (fun q => q + (((y.getD (ind.getD (j - 1) 0) 0 - y.getD (ind.getD (j + 1) 0) 0) ^ 2 : Int) : ℚ))) mag

/-- The loop over the attributes, oversampling/_edge_det_smote.py:134-142. -/
def edgeMagnitudes (d : Nat) (X : List Row) (y : List Int) : List ℚ :=
  (List.range d).foldl (fun m t => edgeColumn (X.map (fun r => r.getD t 0)) y m) (List.replicate X.length 0)

/-- `Edge_Det_SMOTE.determine_magnitudes`, oversampling/_edge_det_smote.py:122-151. The division by a zero sum gives NaN, which
`choice` rejects with `ValueError`. -/
def edgeWeights (sqrt : ℚ → ℚ) (d : Nat) (X : List Row) (y : List Int) (minL : Int) : Res (List ℚ) :=
  let m := (selectLabel (edgeMagnitudes d X y) y minL).map (fun q => if q < 0 then 0 else q)
  normalize ((fixDensity (m.map XF.fin)).map sqrt)

/-- `Edge_Det_SMOTE.sampling_algorithm`, oversampling/_edge_det_smote.py:153-201. -/
def edgeDetAlg (par : NbParams) (sqrt : ℚ → ℚ) (vol : List Row → ℚ) (dr : Draws) (d : Nat)
    (knn : Nat → List Row → List Row → List (List Nat)) (s : Stats) (X : List Row) (y : List Int) :
    Res (List Row × List Int) := do
  let n ← detNToSample (.num par.proportion) (s.count s.majLabel) (s.count s.minLabel)
  if n = 0 then return (X, y)
  let Xmin := selectLabel X y s.minLabel
  let w ← edgeWeights sqrt d X y s.minLabel
  let k := min Xmin.length (par.nNeighbors + 1)
  let samples ← sampleSimplex par.ss vol dr d Xmin (knn k Xmin Xmin) k n { baseWeights := some w }
  return withSamples X y s.minLabel samples

end Verif

import Verif.Model.Clusters
import Verif.Model.Distances
import Verif.Model.Polynom

/-!
# G_SMOTE

`eig M` is the answer of `np.linalg.eig(M)`: the eigenvalues, and the matrix (by rows) whose columns are the eigenvectors. `norm` is
`np.linalg.norm`, `arccos` is `np.arccos`, `argsort` the answer of `argsort` for one row of angles.
-/

namespace Verif

/-- The checks of `G_SMOTE`, oversampling/_g_smote.py:114-116. -/
def gChecks : List Check := [.minNMin 2, .other, .minNDim 2]

/-- `np.cov(X_min, rowvar=False)`, oversampling/_g_smote.py:170. -/
def gCov (d : Nat) (rows : List Row) : List Row :=
  let m := meanRow d rows
  (List.range d).map (fun i => (List.range d).map (fun j =>
    (rows.map (fun r => (r.getD i 0 - m.getD i 0) * (r.getD j 0 - m.getD j 0))).sum / ((rows.length : ℚ) - 1)))

/-- `np.argmax`: the first position of the largest entry; `ValueError` for no entries. Used for oversampling/_g_smote.py:168-172. -/
def firstMax (l : List ℚ) : Res Nat :=
  match l with
  | [] => .error .valueError
  | x :: xs => .ok ((x :: xs).idxOf (xs.foldl max x))

/-- `determine_H` for the linear method, oversampling/_g_smote.py:168-172: the *row* of the matrix of eigenvectors at the position of
the largest eigenvalue. -/
def gDirection (eig : List Row → List ℚ × List Row) (d : Nat) (rows : List Row) : Res Row := do
  let e := eig (gCov d rows)
  let i ← firstMax e.1
  getRow e.2 i

/-- One row of `angles`, oversampling/_g_smote.py:227-234. -/
def gAngleRow (norm : Row → ℚ) (arccos : ℚ → ℚ) (H : Row) (X : List Row) (row : List Nat) : Res (List ℚ) := do
  let b ← getRow row 0
  let base ← getRow X b
  (row.drop 1).mapM (fun j => do
    let r ← getRow X j
    let P := List.zipWith (· - ·) r base
    let nm := norm P * norm H
    return arccos (|dotRow P H| / (if nm = 0 then 1 / 100000 else nm)))

/-- `angles` with `determine_H`, for the linear method. Used for oversampling/_g_smote.py:158-172 and oversampling/_g_smote.py:214-234. -/
def gLinear (norm : Row → ℚ) (arccos : ℚ → ℚ) (eig : List Row → List ℚ × List Row) (d : Nat) (X : List Row)
    (ind : List (List Nat)) : Res (List (List ℚ)) := do
  let H ← gDirection eig d X
  ind.mapM (gAngleRow norm arccos H X)

/-- `update_indices_by_angles`, oversampling/_g_smote.py:209-212, and the columns kept, 295-297. -/
def gIndices (argsort : List ℚ → List Nat) (nDim : Nat) (ind : List (List Nat)) (thetas : List (List ℚ)) : Res (List (List Nat)) := do
  let ordered ← (ind.zip thetas).mapM (fun p => takeRows (p.1.drop 1) (argsort p.2))
  return ordered.zipIdx.map (fun p => p.2 :: p.1.take (nDim - 1))

/-- `G_SMOTE.sampling_algorithm`, oversampling/_g_smote.py:260-344. `angles X ind` are the angles of the neighbours, for either method.
The weights computed at 299-301 are not used. -/
def gsmoteAlg (par : NbParams) (angles : List Row → List (List Nat) → Res (List (List ℚ))) (argsort : List ℚ → List Nat)
    (vol : List Row → ℚ) (dr : Draws) (d : Nat) (knn : Nat → List Row → List Row → List (List Nat)) (s : Stats)
    (X : List Row) (y : List Int) : Res (List Row × List Int) := do
  let n ← detNToSample (.num par.proportion) (s.count s.majLabel) (s.count s.minLabel)
  if n = 0 then return (X, y)
  let Xmin := selectLabel X y s.minLabel
  let k := min Xmin.length (par.nNeighbors + 1)
  let ind := knn k Xmin Xmin
  let thetas ← angles Xmin ind
  let indices ← gIndices argsort par.ss.nDim ind thetas
  let samples ← sampleSimplex par.ss vol dr d Xmin indices (min (par.ss.nDim - 1) (k - 1) + 1) n {}
  return withSamples X y s.minLabel samples

end Verif

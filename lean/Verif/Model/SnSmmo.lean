import Verif.Model.Clusters

/-!
# SN_SMOTE and SMMO

`dist` stands for `distances_mahalanobis` of two rows, `knn k X Q` for the answer of the neighbour search, `pick m n` for
`choice(m, n)`, `predict X y` for the predictions of the fitted classifiers of the ensemble, one list per classifier.
-/

namespace Verif

/-! ## SN_SMOTE -/

/-- The arrays of `generate_centroid_neighborhood`, oversampling/_sn_smote.py:124-133. -/
structure NcnState where
  ncn : List (List Nat)
  cents : List Nat
  centroids : List Row
  dists : List ℚ

/-- `row[c] = v` on an array of fixed length. Used for oversampling/_sn_smote.py:124-133 and oversampling/_sn_smote.py:138-151. -/
def setEntry (row : List Nat) (c v : Nat) : Res (List Nat) :=
  if c < row.length then .ok (row.set c v) else .error .indexError

/-- The start, oversampling/_sn_smote.py:124-133. -/
def ncnStart (dist : Row → Row → ℚ) (nN : Nat) (Xmin : List Row) (ind : List (List Nat)) : Res NcnState := do
  let first ← ind.mapM (fun row => getRow row 1)
  let ncn ← first.mapM (fun j => setEntry (List.replicate nN 0) 0 j)
  let centroids ← takeRows Xmin first
  return { ncn := ncn, cents := List.replicate Xmin.length 1, centroids := centroids,
           dists := List.zipWith dist Xmin centroids }

/-- The part of a round which belongs to row `i`, oversampling/_sn_smote.py:138-151. `ncn[mask]` and the like are copies, so the
assignments of lines 146-151 write into arrays which are dropped; what remains of them is the check of the bounds. -/
def ncnRow (dist : Row → Row → ℚ) (Xmin : List Row) (ind : List (List Nat)) (jdx : Nat) (st : NcnState) (i : Nat) :
    Res Unit := do
  let row ← getRow ind i
  let j ← getRow row jdx
  let x ← getRow Xmin j
  let base ← getRow Xmin i
  let c ← getRow st.centroids i
  let m ← getRow st.cents i
  let tmp := (List.zipWith (· + ·) c x).map (fun q => q / ((m : ℚ) + 1))
  let q ← getRow st.dists i
  if dist base tmp < q then
    let old ← getRow st.ncn i
    let _copy ← setEntry old m j
    return ()
  else return ()

/-- One round, oversampling/_sn_smote.py:138-151: the state stays as it is. -/
def ncnRound (dist : Row → Row → ℚ) (Xmin : List Row) (ind : List (List Nat)) (jdx : Nat) (mask : List Bool) (st : NcnState) :
    Res NcnState := do
  let _ ← ((List.range Xmin.length).filter (fun i => mask.getD i false)).mapM (ncnRow dist Xmin ind jdx st)
  return st

/-- The loop, oversampling/_sn_smote.py:137-157. `f` bounds the number of rounds (that the bound in use is enough is a theorem). -/
def ncnLoop (dist : Row → Row → ℚ) (nN : Nat) (Xmin : List Row) (ind : List (List Nat)) (width : Nat) :
    Nat → Nat → List Bool → NcnState → Res NcnState
  | 0, _, _, _ => .error .recursionError
  | f + 1, jdx, mask, st =>
    if mask.any (fun b => b) then do
      let st' ← ncnRound dist Xmin ind jdx mask st
      let mask' := st'.cents.map (fun c => decide (c < nN))
      if jdx + 1 = width then return st'
      ncnLoop dist nN Xmin ind width f (jdx + 1) mask' st'
    else .ok st

/-- `SN_SMOTE.generate_centroid_neighborhood`, oversampling/_sn_smote.py:111-159. -/
def centroidNeighborhood (dist : Row → Row → ℚ) (nN : Nat) (Xmin : List Row) (ind : List (List Nat)) (width : Nat) :
    Res (List (List Nat) × List Nat) := do
  let st ← ncnStart dist nN Xmin ind
  let st' ← ncnLoop dist nN Xmin ind width (width + 1) 2 (List.replicate Xmin.length true) st
  return (st'.ncn, st'.cents)

/-- The call of `sample_simplex` for one base row, oversampling/_sn_smote.py:179-193. -/
def snTask (Xmin : List Row) (ncn : List (List Nat)) (cents : List Nat) (b : Nat) : Res ClusterTask := do
  let row ← getRow ncn b
  let m ← getRow cents b
  let vertices ← takeRows Xmin (row.take m)
  let base ← getRow Xmin b
  return { rows := [base], indices := [0 :: List.range m], k := m + 1, args := { Xv := some vertices } }

/-- `SN_SMOTE.sampling_algorithm`, oversampling/_sn_smote.py:200-280, with `generate_samples` (161-198). -/
def snSmoteAlg (par : NbParams) (dist : Row → Row → ℚ) (vol : List Row → ℚ) (pick : Nat → Nat → List Nat) (drs : Nat → Draws)
    (d : Nat) (knn : Nat → List Row → List Row → List (List Nat)) (s : Stats) (X : List Row) (y : List Int) :
    Res (List Row × List Int) := do
  let n ← detNToSample (.num par.proportion) (s.count s.majLabel) (s.count s.minLabel)
  if n = 0 then return (X, y)
  let Xmin := selectLabel X y s.minLabel
  let k := min (par.nNeighbors * 10) Xmin.length
  let nb ← centroidNeighborhood dist par.nNeighbors Xmin (knn k Xmin Xmin) k
  let samples ← sampleInClusters par.ss vol drs d (snTask Xmin nb.1 nb.2) (pick Xmin.length n)
  return withSamples X y s.minLabel samples

/-! ## SMMO -/

/-- `pred` for row `i`, oversampling/_smmo.py:193. -/
def smmoPred (preds : List (List Int)) (i : Nat) : Int :=
  if (1 / 2 : ℚ) < ((preds.map (fun p => ((p.getD i 0 : Int) : ℚ))).sum / (preds.length : ℚ)) then 1 else 0

/-- `mask_to_sample`, oversampling/_smmo.py:196. -/
def smmoMask (preds : List (List Int)) (y : List Int) (minL : Int) : List Nat :=
  (List.range y.length).filter (fun i => decide (smmoPred preds i ≠ y.getD i 0) && decide (y.getD i 0 = minL))

/-- The call of `sample_simplex` for one base row, oversampling/_smmo.py:145-162: the mean of the neighbours and, since the index
table is `[[0, 0]]`, the first entry of the row of the neighbour table. -/
def smmoTask (d : Nat) (Xmin : List Row) (ind : List (List Nat)) (b : Nat) : Res ClusterTask := do
  let row ← getRow ind b
  let m ← neighborMean d Xmin row
  let j ← getRow row 0
  let v ← getRow Xmin j
  return { rows := [m], indices := [[0, 0]], k := 2, args := { Xv := some [v] } }

/-- `SMMO.sampling_algorithm`, oversampling/_smmo.py:167-222, with `generate_samples` (133-165). The means of all rows are computed
first; for the tables of the neighbour search they raise nothing, so computing them for the rows in use comes to the same. -/
def smmoAlg (par : NbParams) (predict : List Row → List Int → List (List Int)) (vol : List Row → ℚ) (pick : Nat → Nat → List Nat)
    (drs : Nat → Draws) (d : Nat) (knn : Nat → List Row → List Row → List (List Nat)) (s : Stats) (X : List Row) (y : List Int) :
    Res (List Row × List Int) := do
  let n ← detNToSample (.num par.proportion) (s.count s.majLabel) (s.count s.minLabel)
  if n = 0 then return (X, y)
  let mask := smmoMask (predict X y) y s.minLabel
  if mask.length < 2 then return (X, y)
  let Xmin := selectLabel X y s.minLabel
  let Q ← takeRows X mask
  let k := min Xmin.length (par.nNeighbors + 1)
  let ind := knn k Xmin Q
  let samples ← sampleInClusters par.ss vol drs d (smmoTask d Xmin ind) (pick ind.length n)
  return withSamples X y s.minLabel samples

end Verif

import Verif.Model.Mwmote

/-!
# Supervised_SMOTE and NRSBoundary_SMOTE

Oversamplers which generate candidates in batches and keep the acceptable ones. `prob X y x` is the probability of the minority class
which the classifier fitted on `X`, `y` gives to the row `x`, `dist` the distance of two rows, `radius X x r` the answer of
`radius_neighbors` for one row, `drs t` are the draws of the `t`-th batch.
-/

namespace Verif

/-! ## Supervised_SMOTE -/

/-- The parameters of `Supervised_SMOTE.__init__`, oversampling/_supervised_smote.py:49-100. -/
structure SupParams where
  proportion : ℚ
  thLower : ℚ
  thUpper : ℚ
  ss : SSParams

/-- The loop, oversampling/_supervised_smote.py:157-182. `gen t q` generates the `q` candidates of batch `t`; `f` bounds the number of
batches (that the bound in use is enough is a theorem). -/
def supLoop (gen : Nat → Nat → Res (List Row)) (prob : Row → ℚ) (n : Nat) :
    Nat → Nat → ℚ → ℚ → Nat → Nat → List Row → Res (List Row)
  | 0, _, _, _, _, _, _ => .error .recursionError
  | f + 1, t, lo, up, trials, success, samples =>
    if samples.length < n then do
      let q := max ((n - samples.length) * 4) 100
      let batch ← gen t q
      let good := batch.filter (fun x => decide (lo ≤ prob x) && decide (prob x ≤ up))
      if ((success + good.length : Nat) : ℚ) / ((trials + q : Nat) : ℚ) < 1 / 10 then
        supLoop gen prob n f (t + 1) (lo - 1 / 10) (up + 1 / 10) 1 1 (samples ++ good)
      else supLoop gen prob n f (t + 1) lo up (trials + q) (success + good.length) (samples ++ good)
    else .ok samples

/-- `Supervised_SMOTE.sampling_algorithm`, oversampling/_supervised_smote.py:125-189. -/
def supervisedAlg (par : SupParams) (prob : List Row → List Int → Row → ℚ) (vol : List Row → ℚ) (drs : Nat → Draws) (d : Nat)
    (s : Stats) (X : List Row) (y : List Int) : Res (List Row × List Int) := do
  let n ← detNToSample (.num par.proportion) (s.count s.majLabel) (s.count s.minLabel)
  if n = 0 then return (X, y)
  let Xmin := selectLabel X y s.minLabel
  let samples ← supLoop (fun t q => sampleSimplex par.ss vol (drs t) d Xmin (circulant Xmin.length) Xmin.length q {}) (prob X y) n
    (11 * (10 * n + 1) + 1) 0 par.thLower par.thUpper 1 1 []
  return withSamples X y s.minLabel (samples.take (min samples.length n))

/-! ## NRSBoundary_SMOTE -/

/-- The parameters of `NRSBoundary_SMOTE.__init__`, oversampling/_nrsboundary_smote.py:41-92. -/
structure NrsParams where
  proportion : ℚ
  nNeighbors : Nat
  w : ℚ
  ss : SSParams

/-- `np.max` of a non-empty list. Used for oversampling/_nrsboundary_smote.py:109-127. -/
def maxL (l : List ℚ) : ℚ := l.foldl max (l.headD 0)

/-- `np.min` of a non-empty list. Used for oversampling/_nrsboundary_smote.py:109-127. -/
def minL (l : List ℚ) : ℚ := l.foldl min (l.headD 0)

/-- `NRSBoundary_SMOTE.determine_delta`, oversampling/_nrsboundary_smote.py:109-127. -/
def nrsDelta (w : ℚ) (dist : Row → Row → ℚ) (X : List Row) : List ℚ :=
  let distm := X.map (fun x => X.map (dist x))
  let top := maxL (distm.map maxL)
  (List.range X.length).map (fun i =>
    let row := distm.getD i []
    let dMax := maxL row
    let dMin := minL (row.set i top)
    dMin + w * (dMax - dMin))

/-- `NRSBoundary_SMOTE.determine_bound_pos_set_delta`, oversampling/_nrsboundary_smote.py:129-170, without the `delta`. -/
def nrsSets (radius : List Row → Row → ℚ → List Nat) (delta : List ℚ) (X : List Row) (y : List Int) (minLab majLab : Int) :
    Res (List Nat × List Nat) := do
  let near ← (List.range X.length).mapM (fun i => takeRows y (radius X (X.getD i []) (delta.getD i 0)))
  let isBound := fun i => decide (y.getD i 0 = minLab) && !decide ((near.getD i []).count minLab = (near.getD i []).length)
  let isPos := fun i => decide (y.getD i 0 = majLab) && decide ((near.getD i []).count majLab = (near.getD i []).length)
  return ((List.range X.length).filter isBound, (List.range X.length).filter (fun i => !isBound i && isPos i))

/-- `NRSBoundary_SMOTE.determine_no_conflict_flag` for one row, oversampling/_nrsboundary_smote.py:172-189. -/
def noConflict (dist : Row → Row → ℚ) (Xpos : List Row) (deltas : List ℚ) (x : Row) : Bool :=
  (Xpos.zip deltas).all (fun p => decide (p.2 < dist x p.1))

/-- The loop, oversampling/_nrsboundary_smote.py:216-235; the first argument is `n_to_sample - trials`. -/
def nrsLoop (gen : Nat → Nat → Res (List Row)) (dist : Row → Row → ℚ) (Xpos : List Row) (diff : List ℚ) (n : Nat) :
    Nat → Nat → List ℚ → List Row → Res (List Row)
  | 0, _, _, samples => .ok samples
  | left + 1, t, deltas, samples =>
    if samples.length < n ∧ deltas.all (fun q => decide (0 < q)) = true then do
      let sub ← gen t ((n - samples.length) * 10)
      nrsLoop gen dist Xpos diff n left (t + 1) (List.zipWith (fun a b => a - b) deltas diff)
        (samples ++ sub.filter (noConflict dist Xpos deltas))
    else .ok samples

/-- `NRSBoundary_SMOTE.sampling_algorithm`, oversampling/_nrsboundary_smote.py:239-314, with `generate_samples` (191-237).
`np.vstack` of an array without rows raises `ValueError`. -/
def nrsAlg (par : NrsParams) (dist : Row → Row → ℚ) (radius : List Row → Row → ℚ → List Nat) (vol : List Row → ℚ)
    (drs : Nat → Draws) (d : Nat) (knn : Nat → List Row → List Row → List (List Nat)) (s : Stats) (X : List Row) (y : List Int) :
    Res (List Row × List Int) := do
  let n ← detNToSample (.num par.proportion) (s.count s.majLabel) (s.count s.minLabel)
  if n = 0 then return (X, y)
  let Xmin := selectLabel X y s.minLabel
  let delta := nrsDelta par.w dist X
  let sets ← nrsSets radius delta X y s.minLabel s.majLabel
  if sets.2.length = 0 ∨ sets.1.length = 0 then return (X, y)
  let Xbound ← takeRows X sets.1
  let Xpos ← takeRows X sets.2
  let deltas ← takeRows delta sets.2
  let k := min Xmin.length (par.nNeighbors + 1)
  let samples ← nrsLoop (fun t q => sampleSimplex par.ss vol (drs t) d Xbound (knn k Xmin Xbound) k q { Xv := some Xmin })
    dist Xpos (deltas.map (fun q => q * (1 / 10))) n n 0 deltas []
  if samples.length = 0 then throw .valueError
  return withSamples X y s.minLabel (samples.take (min samples.length n))

end Verif

import Verif.Model.Interp

/-!
# `SMOTE_D`

The number of samples between a row and each of its neighbours is computed from the distances; only the rounding is random.
`np.std` is a parameter (it may be NaN on an empty list), as are the distances and neighbours.
-/

namespace Verif

/-- The inner `while` of `SMOTE_D.generate_samples`, oversampling/_smote_d.py:115-120, for the count `c`: `u k` is the k-th
draw. `none` when the loop has not ended after `fuel` tests of its condition. -/
def pairSamples (base nb : Row) (u : Nat → ℚ) : Nat → Nat → ℚ → Option (List Row)
  | 0, _, _ => none
  | f + 1, k, c =>
    if 0 < c then
      (pairSamples base nb u f (k + 1) (c - 1)).map (fun rest =>
        if u k < c then mixRow base nb (fun _ => 1 / (c + 1)) :: rest else rest)
    else some []

/-- A loop that does not end in time is marked as an error. Used for oversampling/_smote_d.py:99-122. -/
def rowsOrHang : Option (List Row) → Res (List Row)
  | none => .error .recursionError
  | some r => .ok r

/-- One pair of rows; as many tests of the loop condition as the rounded count plus one. Used for oversampling/_smote_d.py:99-122. -/
def smoteDPair (Xmin : List Row) (base : Row) (nbs : List Nat) (cs : List ℚ) (u : Nat → Nat → ℚ) (j : Nat) :
    Res (List Row) := do
  let c ← getRow cs j
  let i ← getRow nbs (j + 1)
  let nb ← getRow Xmin i
  rowsOrHang (pairSamples base nb (u j) (⌈c⌉.toNat + 1) 0 c)

/-- One row with all its neighbours; `k` is `ind.shape[1]`. Used for oversampling/_smote_d.py:99-122. -/
def smoteDBase (Xmin : List Row) (ind : List (List Nat)) (k : Nat) (counts : List (List ℚ)) (u : Nat → Nat → Nat → ℚ)
    (i : Nat) : Res (List Row) := do
  let base ← getRow Xmin i
  let nbs ← getRow ind i
  let cs ← getRow counts i
  let parts ← (List.range (k - 1)).mapM (smoteDPair Xmin base nbs cs (u i))
  return parts.flatten

/-- `SMOTE_D.generate_samples`, oversampling/_smote_d.py:99-122. The reads of the neighbours are done ahead of the loop. -/
def smoteDSamples (Xmin : List Row) (ind : List (List Nat)) (k : Nat) (counts : List (List ℚ)) (u : Nat → Nat → Nat → ℚ) :
    Res (List Row) := do
  let parts ← (List.range Xmin.length).mapM (smoteDBase Xmin ind k counts u)
  return parts.flatten

/-- oversampling/_smote_d.py:155-165: the expected number of samples for each pair. -/
def smoteDCounts (std : List ℚ → XF) (n : Nat) (dist : List (List ℚ)) : List (List ℚ) :=
  List.zipWith (fun p row => row.map (fun q => (n : ℚ) * p * q))
    (fixDensity (dist.map (fun r => std (r.drop 1))))
    (dist.map (fun r => fixDensity ((r.drop 1).map XF.fin)))

/-- `SMOTE_D.sampling_algorithm`, oversampling/_smote_d.py:124-172. -/
def smoteDAlg (proportion : ℚ) (k : Nat) (std : List ℚ → XF) (u : Nat → Nat → Nat → ℚ)
    (knn : Nat → List Row → List (List Nat)) (knnDist : Nat → List Row → List (List ℚ)) (s : Stats) (X : List Row)
    (y : List Int) : Res (List Row × List Int) := do
  let n ← detNToSample (.num proportion) (s.count s.majLabel) (s.count s.minLabel)
  if n = 0 then return (X, y)
  let Xmin := selectLabel X y s.minLabel
  let nNeighbors := min Xmin.length (k + 1)
  let counts := smoteDCounts std n (knnDist nNeighbors Xmin)
  let samples ← smoteDSamples Xmin (knn nNeighbors Xmin) nNeighbors counts u
  return withSamples X y s.minLabel samples

end Verif

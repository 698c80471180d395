import Verif.Model.Base

/-!
# Oversamplers interpolating coordinate by coordinate

`Random_SMOTE`, `MSMOTE`, `Safe_Level_SMOTE`. Draws are parameters: `random_state.choice` of an index and
`random_sample` values. `indices` is the answer of the neighbour search.
-/

namespace Verif

/-- `a + (b - a) * u` with one number `u j` per coordinate. Used for base/_oversampling.py:53-62 and base/_oversampling.py:78-80. -/
def mixRow (a b : Row) (u : Nat → ℚ) : Row :=
  (List.zip a b).zipIdx.map (fun p => p.1.1 + (p.1.2 - p.1.1) * u p.2)

/-- `base/_oversampling.py:53-62` and, without a mask, `64-76`: one number for all coordinates. -/
def sampleBetweenPoints (a b : Row) (u : ℚ) : Row := mixRow a b (fun _ => u)

/-- base/_oversampling.py:78-80: the mask says which coordinates move. -/
def sampleBetweenMasked (a b mask : Row) (u : ℚ) : Row := mixRow a b (fun j => u * mask.getD j 0)

/-- `random_state.choice(n, size)`: an empty range raises `ValueError` when something is drawn.
Used for oversampling/_random_smote.py:98-152 and oversampling/_msmote.py:153-203. -/
def choiceFrom (n size : Nat) (draw : Nat → Nat) : Res (List Nat) :=
  if n = 0 ∧ size ≠ 0 then .error .valueError else .ok ((List.range size).map draw)

/-- The end of most sampling algorithms: the new rows below the data, labelled minority.
Used for oversampling/_random_smote.py:98-152 and oversampling/_msmote.py:153-203. -/
def withSamples (X : List Row) (y : List Int) (label : Int) (samples : List Row) : List Row × List Int :=
  (X ++ samples, y ++ List.replicate samples.length label)

/-- Draws of `Random_SMOTE`: base, the two neighbour positions, the two arrays of numbers.
Used for oversampling/_random_smote.py:138-147 and oversampling/_random_smote.py:98-152. -/
structure RsDraws where
  base : Nat → Nat
  nb1 : Nat → Nat
  nb2 : Nat → Nat
  u1 : Nat → Nat → ℚ
  u2 : Nat → Nat → ℚ

/-- One row of oversampling/_random_smote.py:138-147. -/
def randomSmoteRow (dr : RsDraws) (Xmin : List Row) (indices : List (List Nat)) (i : Nat) : Res Row := do
  let base ← getRow Xmin (dr.base i)
  let nbs ← getRow indices (dr.base i)
  let j1 ← getRow nbs (dr.nb1 i)
  let j2 ← getRow nbs (dr.nb2 i)
  let y1 ← getRow Xmin j1
  let y2 ← getRow Xmin j2
  return mixRow base (mixRow y1 y2 (dr.u1 i)) (dr.u2 i)

/-- `Random_SMOTE.sampling_algorithm`, oversampling/_random_smote.py:98-152. `knn k` is the answer of the search for `k`
neighbours of the minority rows among themselves. -/
def randomSmoteAlg (proportion : ℚ) (nNeighbors : Nat) (dr : RsDraws) (knn : Nat → List Row → List (List Nat))
    (s : Stats) (X : List Row) (y : List Int) : Res (List Row × List Int) := do
  let n ← detNToSample (.num proportion) (s.count s.majLabel) (s.count s.minLabel)
  if n = 0 then return (X, y)
  let Xmin := selectLabel X y s.minLabel
  let k := min Xmin.length (nNeighbors + 1)
  let indices := knn k Xmin
  let _ ← choiceFrom Xmin.length n dr.base
  let _ ← choiceFrom (k - 1) n dr.nb1
  let samples ← (List.range n).mapM (randomSmoteRow dr Xmin indices)
  return withSamples X y s.minLabel samples

/-- The types of minority rows in `MSMOTE`. Used for oversampling/_msmote.py:184-187 and oversampling/_msmote.py:135-140. -/
inductive MsType
  | sec | bor | noi
deriving DecidableEq

/-- oversampling/_msmote.py:184-187: the type by the number of minority neighbours, `k` neighbours including the row. The
assignment of `"NOI"` comes last, so it wins when there are no neighbours. -/
def msType (minLabel : Int) (k : Nat) (labels : List Int) : MsType :=
  if labels.count minLabel = 0 then .noi
  else if labels.count minLabel = k - 1 then .sec
  else .bor

/-- The type of one row of the neighbour table. Used for oversampling/_msmote.py:153-203. -/
def msTypeOf (minLabel : Int) (k : Nat) (y : List Int) (nbs : List Nat) : Res MsType := do
  let labels ← takeRows y (nbs.drop 1)
  return msType minLabel k labels

/-- A minority row with its neighbours and its type. Used for oversampling/_msmote.py:133-149. -/
structure MsItem where
  row : Row
  nbs : List Nat
  type : MsType

/-- Draws of `MSMOTE`: base among the rows that are not noise, neighbour position for secure rows, numbers.
Used for oversampling/_msmote.py:133-149 and oversampling/_msmote.py:153-203. -/
structure MsDraws where
  base : Nat → Nat
  nb : Nat → Nat
  u : Nat → Nat → ℚ

/-- oversampling/_msmote.py:135-140: secure rows use a random neighbour, the others the first one. -/
def msPosition (t : MsType) (drawn : Nat) : Nat := if t = .sec then drawn else 1

/-- One row of oversampling/_msmote.py:133-149. -/
def msmoteRow (dr : MsDraws) (items : List MsItem) (X : List Row) (i : Nat) : Res Row := do
  let it ← getRow items (dr.base i)
  let j ← getRow it.nbs (msPosition it.type (dr.nb i))
  let nb ← getRow X j
  return mixRow it.row nb (dr.u i)

/-- `MSMOTE.sampling_algorithm`, oversampling/_msmote.py:153-203 with `generate_samples`, 114-151. `knn k Q` is the answer of
the search for `k` neighbours of the rows `Q` among all rows. Simplification: the secure rows' neighbour draws are indexed
by sample. -/
def msmoteAlg (proportion : ℚ) (nNeighbors : Nat) (dr : MsDraws) (knn : Nat → List Row → List Row → List (List Nat))
    (s : Stats) (X : List Row) (y : List Int) : Res (List Row × List Int) := do
  let n ← detNToSample (.num proportion) (s.count s.majLabel) (s.count s.minLabel)
  if n = 0 then return (X, y)
  let Xmin := selectLabel X y s.minLabel
  let k := min X.length (nNeighbors + 1)
  let indices := knn k X Xmin
  let types ← indices.mapM (msTypeOf s.minLabel k y)
  if types.all (fun t => decide (t = .noi)) then return (X, y)
  let items := (List.zip Xmin (List.zip indices types)).map (fun p => MsItem.mk p.1 p.2.1 p.2.2)
  let good := items.filter (fun it => decide (it.type ≠ .noi))
  let _ ← choiceFrom good.length n dr.base
  let samples ← (List.range n).mapM (msmoteRow dr good X)
  return withSamples X y s.minLabel samples

/-- oversampling/_safe_level_smote.py:129: number of minority rows among the neighbours. -/
def safeLevel (minLabel : Int) (y : List Int) (nbs : List Nat) : Res Nat := do
  let labels ← takeRows y (nbs.drop 1)
  return labels.count minLabel

/-- Base, neighbour and their safe levels: a row of the array made by `slp_sln`.
Used for oversampling/_safe_level_smote.py:134-144 and oversampling/_safe_level_smote.py:113-144. -/
structure SafePair where
  p : Nat
  q : Nat
  slp : Nat
  sln : Nat

/-- The pairs of one base row, oversampling/_safe_level_smote.py:134-144. -/
def safePairsOf (levels : List Nat) (p : Nat) (nbs : List Nat) : Res (List SafePair) := do
  let slp ← getRow levels p
  let all ← (nbs.drop 1).mapM (fun q => do
    let sln ← getRow levels q
    return SafePair.mk p q slp sln)
  return if slp > 0 then all else all.filter (fun t => decide (t.sln > 0))

/-- `slp_sln`, oversampling/_safe_level_smote.py:113-144: first the pairs of bases with positive level, then those of level
zero with a neighbour of positive level. -/
def slpSln (minLabel : Int) (y : List Int) (indices : List (List Nat)) : Res (List SafePair) := do
  let levels ← indices.mapM (safeLevel minLabel y)
  let mins := (List.range y.length).filter (fun i => decide (y[i]? = some minLabel))
  let parts ← (mins.filter (fun i => decide (levels.getD i 0 > 0)) ++
      mins.filter (fun i => decide (levels.getD i 0 = 0))).mapM (fun p => do
    let nbs ← getRow indices p
    safePairsOf levels p nbs)
  return parts.flatten

/-- oversampling/_safe_level_smote.py:166-178: the factor of one coordinate. -/
def safeGap (slp sln : Nat) (u : ℚ) : ℚ :=
  let g := u * (if sln = 0 ∧ slp > 0 then 0 else 1)
  let g := if slp > sln then g * (sln : ℚ) / (slp : ℚ) else g
  if slp < sln then g * (slp : ℚ) / (sln : ℚ) + (1 - (slp : ℚ) / (sln : ℚ)) else g

/-- Draws of `Safe_Level_SMOTE`. Used for oversampling/_safe_level_smote.py:180-182 and oversampling/_safe_level_smote.py:189-219. -/
structure SlDraws where
  pair : Nat → Nat
  u : Nat → Nat → ℚ

/-- One row of oversampling/_safe_level_smote.py:180-182. -/
def safeLevelRow (dr : SlDraws) (pairs : List SafePair) (X : List Row) (i : Nat) : Res Row := do
  let t ← getRow pairs (dr.pair i)
  let base ← getRow X t.p
  let nb ← getRow X t.q
  return mixRow base nb (fun j => safeGap t.slp t.sln (dr.u i j))

/-- `Safe_Level_SMOTE.sampling_algorithm`, oversampling/_safe_level_smote.py:189-219 with `generate_samples`, 146-187. -/
def safeLevelAlg (proportion : ℚ) (nNeighbors : Nat) (dr : SlDraws) (knn : Nat → List Row → List (List Nat))
    (s : Stats) (X : List Row) (y : List Int) : Res (List Row × List Int) := do
  let n ← detNToSample (.num proportion) (s.count s.majLabel) (s.count s.minLabel)
  if n = 0 then return (X, y)
  let k := min (nNeighbors + 1) X.length
  let pairs ← slpSln s.minLabel y (knn k X)
  if pairs.length = 0 then return (X, y)
  let samples ← (List.range n).mapM (safeLevelRow dr pairs X)
  return withSamples X y s.minLabel samples

end Verif

import Mathlib.Data.Finset.Card
import Verif.Model.Borderline
import Verif.Model.Polynom
import Verif.Model.Dbsmote
import Verif.Model.ProWSyn

/-!
# Further oversamplers built on `sample_simplex`

`SDSMOTE`, `AND_SMOTE`, `ANS`, `ISMOTE`, `distance_SMOTE`, `Gaussian_SMOTE`, `NT_SMOTE`, `RWO_sampling`. `knn k X Q` is the answer
of the search for `k` neighbours in `X` of every row of `Q`, `knnDist k X Q` the distances of that answer, `radius X Q r` the
answer of `radius_neighbors` of the rows `Q` among `X`: one list of positions for every row of `Q`.
-/

namespace Verif

/-- Parameters common to several classes: `proportion`, `n_neighbors` and the parameters of the simplex sampling. For
`NT_SMOTE` and `RWO_sampling`, which have no `n_neighbors`, that field is not used.
Used for oversampling/_sdsmote.py:168-219 and oversampling/_and_smote.py:212-280. -/
abbrev NbParams := SmoteParams

/-! ## SDSMOTE -/

/-- `SDSMOTE.calculate_density`, oversampling/_sdsmote.py:126-166. `S_ave` is the mean distance of minority and majority rows;
`k` is the length of the answer of `radius_neighbors` for each minority row. `np.sum(k)` is zero only without rows; the
division then gives no entry. -/
def sdDensity (knnDist : Nat → List Row → List Row → List (List ℚ)) (radius : List Row → List Row → ℚ → List (List Nat))
    (Xmin Xmaj : List Row) : List ℚ :=
  let si := (knnDist Xmaj.length Xmaj Xmin).map List.sum
  let sAve := si.sum / ((Xmin.length : ℚ) * (Xmaj.length : ℚ))
  let k := Xmin.map (fun x => ((radius Xmaj [x] sAve).length : ℚ))
  fixDensity (k.map (fun c => if k.sum = 0 then XF.nan else XF.fin (c / k.sum)))

/-- `SDSMOTE.sampling_algorithm`, oversampling/_sdsmote.py:168-219. -/
def sdsmoteAlg (par : NbParams) (vol : List Row → ℚ) (dr : Draws) (d : Nat)
    (knn : Nat → List Row → List Row → List (List Nat)) (knnDist : Nat → List Row → List Row → List (List ℚ))
    (radius : List Row → List Row → ℚ → List (List Nat)) (s : Stats) (X : List Row) (y : List Int) :
    Res (List Row × List Int) := do
  let n ← detNToSample (.num par.proportion) (s.count s.majLabel) (s.count s.minLabel)
  if n = 0 then return (X, y)
  let Xmin := selectLabel X y s.minLabel
  let Xmaj := selectLabel X y s.majLabel
  let density := sdDensity knnDist radius Xmin Xmaj
  let k := min Xmin.length (par.nNeighbors + 1)
  let samples ← sampleSimplex par.ss vol dr d Xmin (knn k Xmin Xmin) k n { baseWeights := some density }
  return withSamples X y s.minLabel samples

/-! ## AND_SMOTE -/

/-- `np.all(np.min(X[reg], axis=0) <= x) and np.all(x <= np.max(X[reg], axis=0))`, oversampling/_and_smote.py:142-145, for the
two rows `p`, `q` of the region. -/
def inBox (p q x : Row) : Bool :=
  (List.zip (List.zip p q) x).all (fun t => decide (min t.1.1 t.1.2 ≤ t.2) && decide (t.2 ≤ max t.1.1 t.1.2))

/-- `AND_SMOTE.calculate_r_min_maj`, oversampling/_and_smote.py:117-153: the neighbours up to position `j` inside the box
spanned by the row and its `j`-th neighbour, by label. -/
def rMinMaj (X : List Row) (y : List Int) (minL majL : Int) (i : Nat) (nbs : List Nat) (j : Nat) :
    Res (Finset Nat × Finset Nat) := do
  let p ← getRow X i
  let q ← getRow nbs j >>= getRow X
  let reg := nbs.take (j + 1)
  let rows ← takeRows X reg
  let ls ← takeRows y reg
  let inside := (List.zip reg (List.zip rows ls)).filter (fun t => inBox p q t.2.1)
  return (((inside.filter (fun t => decide (t.2.2 = minL))).map Prod.fst).toFinset,
    ((inside.filter (fun t => decide (t.2.2 = majL))).map Prod.fst).toFinset)

/-- The accumulated regions, oversampling/_and_smote.py:168-191: majority neighbours are skipped, every further region is
united with the previous ones. `acc` is the last accumulated pair. -/
def andRegions (X : List Row) (y : List Int) (minL majL : Int) (i : Nat) (nbs : List Nat) :
    List Nat → Option (Finset Nat × Finset Nat) → Res (List (Finset Nat × Finset Nat))
  | [], _ => .ok []
  | j :: js, acc => do
    let v ← getRow nbs j
    let l ← getRow y v
    if l = majL then andRegions X y minL majL i nbs js acc
    else
      let r ← rMinMaj X y minL majL i nbs j
      let r' := match acc with
        | none => r
        | some a => (a.1 ∪ r.1, a.2 ∪ r.2)
      let rest ← andRegions X y minL majL i nbs js (some r')
      return r' :: rest

/-- `np.argmin`: the first position of a smallest entry; 0 for the empty list, where the code does not call it.
Used for oversampling/_and_smote.py:155-210. -/
def argminIdx (l : List ℚ) : Nat := l.findIdx (fun x => l.all (fun z => decide (x ≤ z)))

/-- `np.diff(prec, 1)`. Used for oversampling/_and_smote.py:155-210. -/
def diffs (l : List ℚ) : List ℚ := List.zipWith (fun a b => b - a) l l.tail

/-- `AND_SMOTE.calculate_kappa`, oversampling/_and_smote.py:155-210. The region of a minority neighbour contains this neighbour,
so that the divisor is positive for two-class data. -/
def andKappa (X : List Row) (y : List Int) (minL majL : Int) (i : Nat) (nbs : List Nat) : Res Nat := do
  let regs ← andRegions X y minL majL i nbs (List.range' 1 (nbs.length - 1)) none
  let prec := regs.map (fun r => (r.1.card : ℚ) / ((r.1.card : ℚ) + (r.2.card : ℚ)))
  let dd := diffs prec
  return (if dd.length = 0 then 0 else argminIdx dd + 2)

/-- The simplex weights, oversampling/_and_smote.py:265-271: row `i` admits the positions up to `kappa[i]`. -/
def andWeights (kappa : List Nat) (k : Nat) : List (List ℚ) :=
  kappa.map (fun c => (List.range k).map (fun p => if c = 0 then 0 else if c + 1 ≤ p then 0 else 1))

/-- The loop over the minority rows, oversampling/_and_smote.py:248-250: row `i` of the neighbour table of all rows. -/
def andKappas (X : List Row) (y : List Int) (minL majL : Int) (ind : List (List Nat)) : Res (List Nat) :=
  (labelPositions y minL).mapM (fun i => do
    let nbs ← getRow ind i
    andKappa X y minL majL i nbs)

/-- `AND_SMOTE.sampling_algorithm`, oversampling/_and_smote.py:212-280. -/
def andSmoteAlg (par : NbParams) (vol : List Row → ℚ) (dr : Draws) (d : Nat)
    (knn : Nat → List Row → List Row → List (List Nat)) (s : Stats) (X : List Row) (y : List Int) :
    Res (List Row × List Int) := do
  let n ← detNToSample (.num par.proportion) (s.count s.majLabel) (s.count s.minLabel)
  if n = 0 then return (X, y)
  let Xmin := selectLabel X y s.minLabel
  let bigK := min Xmin.length par.nNeighbors
  let kappa ← andKappas X y s.minLabel s.majLabel (knn bigK X X)
  let k := kappa.foldr max 0 + 1
  if kappa.sum = 0 then return (X, y)
  let samples ← sampleSimplex par.ss vol dr d Xmin (knn k Xmin Xmin) k n { simplexWeights := some (andWeights kappa k) }
  return withSamples X y s.minLabel samples

/-! ## ANS -/

/-- `ANS.determine_C`, oversampling/_ans.py:101-123, over the candidates `c` still to come. `best = none` is `np.inf`. -/
def ansLoop (outBorder : List Nat) : List Nat → Int → Option Int → Nat → Nat
  | [], _, _, C => C
  | c :: cs, prev, best, C =>
    let n := outBorder.countP (fun b => decide (c ≤ b))
    let df := |(n : Int) - prev|
    if best = none ∨ (∃ b ∈ best, df < b) then ansLoop outBorder cs n (some df) n
    else ansLoop outBorder cs n best C

/-- `ANS.determine_C`: `range(1, int(0.25 * len(X)))`. Used for oversampling/_ans.py:255-320. -/
def ansC (outBorder : List Nat) (nRows : Nat) : Nat :=
  ansLoop outBorder (List.range' 1 (nRows / 4 - 1)) (-1) none 0

/-- `ANS.determine_outer_border`, oversampling/_ans.py:149-186: majority rows within the distance of the nearest minority
neighbour, for every minority row. -/
def ansOuterBorder (radius : List Row → List Row → ℚ → List (List Nat)) (X : List Row) (y : List Int) (maj : Int)
    (Xmin : List Row) (first : List ℚ) : Res (List Nat) :=
  (List.zip Xmin first).mapM (fun p => do
    let ind ← getRow (radius X [p.1] p.2) 0
    let ls ← takeRows y ind
    return ls.count maj)

/-- `np.where(out_border < C)[0]`, oversampling/_ans.py:217. -/
def ansPused (outBorder : List Nat) (C : Nat) : List Nat :=
  (List.range outBorder.length).filter (fun i => decide (outBorder.getD i 0 < C))

/-- The simplex weights of `determine_simplex_weights`, oversampling/_ans.py:247-251. -/
def ansWeights (ind : List (List Nat)) (k : Nat) : List (List ℚ) :=
  ind.map (fun row => (List.range k).map (fun p => if row.length ≤ p then 0 else 1))

/-- `ANS.sampling_algorithm`, oversampling/_ans.py:255-320 (the parameter `n_neighbors` does not exist in this class). -/
def ansAlg (par : NbParams) (vol : List Row → ℚ) (dr : Draws) (d : Nat)
    (knn : Nat → List Row → List Row → List (List Nat)) (knnDist : Nat → List Row → List Row → List (List ℚ))
    (radius : List Row → List Row → ℚ → List (List Nat)) (s : Stats) (X : List Row) (y : List Int) :
    Res (List Row × List Int) := do
  let n ← detNToSample (.num par.proportion) (s.count s.majLabel) (s.count s.minLabel)
  if n = 0 then return (X, y)
  let Xmin := selectLabel X y s.minLabel
  let first ← (knnDist 2 Xmin Xmin).mapM (fun row => getRow row 1)
  let outBorder ← ansOuterBorder radius X y s.majLabel Xmin first
  let used := ansPused outBorder (ansC outBorder X.length)
  if used.length = 0 then return (X, y)
  let dists ← takeRows first used
  let eps := dists.foldr max (dists.headD 0)
  let Xu ← takeRows Xmin used
  let ind := radius Xu Xu eps
  if ind.all (fun row => decide (row.length = 1)) then return (X, y)
  let np := ind.map (fun row => (row.length : ℚ))
  let k := (ind.map List.length).foldr max 0
  let samples ← sampleSimplex par.ss vol dr d Xu (knn k Xu Xu) k n
    { baseWeights := some (np.map (· / np.sum)), simplexWeights := some (ansWeights ind k) }
  return withSamples X y s.minLabel samples

/-! ## ISMOTE -/

/-- `np.mean(dist, axis=1)` of one row. Used for oversampling/_ismote.py:106-194. -/
def meanQ (l : List ℚ) : ℚ := l.sum / (l.length : ℚ)

/-- `sorted(..., key=lambda x: -x[1])`, oversampling/_ismote.py:137-138: the positions by decreasing mean distance, stable. -/
def ismoteOrder (means : List ℚ) : List Nat :=
  (List.range means.length).insertionSort (fun i j => means.getD j 0 ≤ means.getD i 0)

/-- Parameters of `ISMOTE`, oversampling/_ismote.py:46-90. -/
structure IsmoteParams where
  nNeighbors : Nat
  minorityWeight : ℚ
  ss : SSParams

/-- `ISMOTE.sampling_algorithm`, oversampling/_ismote.py:106-194. `int((len(X_maj) - len(X_min)) / 2 + 0.5)` is
`(|maj| - |min| + 1) / 2` rounded down. -/
def ismoteAlg (par : IsmoteParams) (vol : List Row → ℚ) (dr : Draws) (d : Nat)
    (knn : Nat → List Row → List Row → List (List Nat)) (knnDist : Nat → List Row → List Row → List (List ℚ))
    (s : Stats) (X : List Row) (y : List Int) : Res (List Row × List Int) := do
  let Xmin := selectLabel X y s.minLabel
  let Xmaj := selectLabel X y s.majLabel
  let n := (Xmaj.length - Xmin.length + 1) / 2
  if n = 0 then return (X, y)
  let means := (knnDist Xmin.length Xmin Xmaj).map meanQ
  let kept ← takeRows Xmaj ((ismoteOrder means).drop n)
  let X' := kept ++ Xmin
  let y' := List.replicate kept.length s.majLabel ++ List.replicate Xmin.length s.minLabel
  let k := min X'.length (par.nNeighbors + 1)
  let vw := y'.map (fun l => if l = s.minLabel then par.minorityWeight else 1 - par.minorityWeight)
  let indices := (knn k X' Xmin).map (fun row => row.drop 1)
  let samples ← sampleSimplex par.ss vol dr d Xmin indices (k - 1) n { Xv := some X', vertexWeights := some vw }
  return withSamples X' y' s.minLabel samples

/-! ## distance_SMOTE, Gaussian_SMOTE, NT_SMOTE, RWO_sampling -/

/-- `np.mean(X_min[ind[:, 1:]], axis=1)` for one row, oversampling/_distance_smote.py:140; without a neighbour NaN. -/
def neighborMean (d : Nat) (Xmin : List Row) (row : List Nat) : Res Row := do
  let rows ← takeRows Xmin (row.drop 1)
  if rows.length = 0 then throw .nan
  return meanRow d rows

/-- The index table of oversampling/_distance_smote.py:144-150: row `i` twice, then the neighbours at the positions `1`, ...,
`n_dim - 2`. -/
def distanceTable (nDim : Nat) (ind : List (List Nat)) : List (List Nat) :=
  ind.zipIdx.map (fun p => p.2 :: p.2 :: (p.1.take (nDim - 1)).drop 1)

/-- `distance_SMOTE.sampling_algorithm`, oversampling/_distance_smote.py:109-158. -/
def distanceSmoteAlg (par : NbParams) (vol : List Row → ℚ) (dr : Draws) (d : Nat)
    (knn : Nat → List Row → List Row → List (List Nat)) (s : Stats) (X : List Row) (y : List Int) :
    Res (List Row × List Int) := do
  let n ← detNToSample (.num par.proportion) (s.count s.majLabel) (s.count s.minLabel)
  if n = 0 then return (X, y)
  let Xmin := selectLabel X y s.minLabel
  let k := min Xmin.length (par.nNeighbors + 1)
  let ind := knn k Xmin Xmin
  let means ← ind.mapM (neighborMean d Xmin)
  let samples ← sampleSimplex par.ss vol dr d means (distanceTable par.ss.nDim ind) (2 + (min k (par.ss.nDim - 1) - 1)) n
    { Xv := some Xmin }
  return withSamples X y s.minLabel samples

/-- `Gaussian_SMOTE.sampling_algorithm`, oversampling/_gaussian_smote.py:109-148. `fitScaler` gives the means and scales of the
`StandardScaler`; the gaussian component is part of `par.ss`. -/
def gaussianSmoteAlg (par : NbParams) (fitScaler : List Row → Row × Row) (vol : List Row → ℚ) (dr : Draws) (d : Nat)
    (knn : Nat → List Row → List Row → List (List Nat)) (s : Stats) (X : List Row) (y : List Int) :
    Res (List Row × List Int) := do
  let n ← detNToSample (.num par.proportion) (s.count s.majLabel) (s.count s.minLabel)
  if n = 0 then return (X, y)
  let sc := fitScaler X
  let Xmin := selectLabel (X.map (scaleRow sc.1 sc.2)) y s.minLabel
  let k := min Xmin.length (par.nNeighbors + 1)
  let samples ← sampleSimplex par.ss vol dr d Xmin (knn k Xmin Xmin) k n {}
  return withSamples X y s.minLabel (samples.map (unscaleRow sc.1 sc.2))

/-- `NT_SMOTE.sampling_algorithm`, oversampling/_nt_smote.py:120-166: `n_dim` neighbours are asked for; more than there are
minority rows make the search raise `ValueError`. -/
def ntSmoteAlg (par : NbParams) (vol : List Row → ℚ) (dr : Draws) (d : Nat)
    (knn : Nat → List Row → List Row → List (List Nat)) (s : Stats) (X : List Row) (y : List Int) :
    Res (List Row × List Int) := do
  let n ← detNToSample (.num par.proportion) (s.count s.majLabel) (s.count s.minLabel)
  if n = 0 then return (X, y)
  let Xmin := selectLabel X y s.minLabel
  if Xmin.length < par.ss.nDim then throw .valueError
  let samples ← sampleSimplex par.ss vol dr d Xmin (knn par.ss.nDim Xmin Xmin) par.ss.nDim n {}
  return withSamples X y s.minLabel samples

/-- `samples + normal(size=samples.shape) * stds`, oversampling/_rwo_sampling.py:123. -/
def addColumnNoise (normalU : Nat → Nat → ℚ) (stds : List ℚ) (samples : List Row) : List Row :=
  samples.zipIdx.map (fun p => List.zipWith (· + ·) p.1 (stds.zipIdx.map (fun q => normalU p.2 q.2 * q.1)))

/-- `RWO_sampling.sampling_algorithm`, oversampling/_rwo_sampling.py:91-128. `colStd rows j` is `np.std` of column `j` divided by
the square root of the number of rows. -/
def rwoAlg (par : NbParams) (colStd : List Row → Nat → ℚ) (vol : List Row → ℚ) (dr : Draws) (walkU : Nat → Nat → ℚ) (d : Nat)
    (knn : Nat → List Row → List Row → List (List Nat)) (s : Stats) (X : List Row) (y : List Int) :
    Res (List Row × List Int) := do
  let n ← detNToSample (.num par.proportion) (s.count s.majLabel) (s.count s.minLabel)
  if n = 0 then return (X, y)
  let Xmin := selectLabel X y s.minLabel
  if Xmin.length < par.ss.nDim then throw .valueError
  let samples ← sampleSimplex par.ss vol dr d Xmin (knn par.ss.nDim Xmin Xmin) par.ss.nDim n {}
  return withSamples X y s.minLabel (addColumnNoise walkU ((List.range d).map (colStd Xmin)) samples)

end Verif

import Verif.Model.Base
import Verif.Model.Interp
import Verif.Model.Dbsmote
import Verif.Model.Simplex
import Verif.Model.Rejection

/-!
# SYMPROD

`fit rows` are the means and scales `StandardScaler` finds, `dist` the distance of two scaled rows, `knn` the order of the neighbours,
`u` the stream of `choice` with probabilities, `nbh i m` the `i`-th answer of `choice(m)`, `beta i` the `i`-th row of `dirichlet`.
-/

namespace Verif

/-- External functions and draws of `SYMPROD`. Used for oversampling/_symprod.py:132-136 and oversampling/_symprod.py:138-159. -/
structure SyEnv where
  fit : List Row → Row × Row
  dist : Row → Row → ℚ
  knn : Nat → List Row → List Row → List (List Nat)
  u : Nat → ℚ
  nbh : Nat → Nat → Nat
  beta : Nat → Nat → ℚ

/-- The parameters, oversampling/_symprod.py:91-97. -/
structure SyParams where
  proportion : ℚ
  std : ℚ
  k : Nat
  m : Nat
  cutoff : ℚ

/-- `remove_outliers`, oversampling/_symprod.py:132-136. -/
def syInliers (env : SyEnv) (std : ℚ) (rows : List Row) : List Row :=
  let sc := env.fit rows
  rows.filter (fun r => (scaleRow sc.1 sc.2 r).all (fun v => decide (|v| < std)))

/-- `noise_removal`, oversampling/_symprod.py:138-159: the kept rows of the two classes, not scaled yet. Line 143 asks for the number of
minority rows, which is not zero after line 142. -/
def syNoise (env : SyEnv) (std : ℚ) (Amin Amaj : List Row) : List Row × List Row :=
  let Xmin := syInliers env std Amin
  let Xmaj := syInliers env std Amaj
  let Xmin := if Xmin.length = 0 then Amin else Xmin
  let Xmaj := if Xmin.length = 0 then Amaj else Xmaj
  (Xmin, Xmaj)

/-- The distances to the answers of the search `table` of the rows `Q` among the rows `X`.
Used for oversampling/_symprod.py:205-208 and oversampling/_symprod.py:228-263. -/
def syDists (env : SyEnv) (X Q : List Row) (table : List (List Nat)) : List (List ℚ) :=
  List.zipWith (fun q row => row.map (fun j => env.dist q (X.getD j []))) Q table

/-- `normalize`, oversampling/_symprod.py:174-188. -/
def syNormalize (l : List ℚ) : List ℚ :=
  if maxL l - minL l < 1 / 10000000000 then List.replicate l.length 0
  else l.map (fun v => (v - minL l) / (maxL l - minL l))

/-- The closeness factors of one class, oversampling/_symprod.py:205-208 and 221-224, or 210-219: `ValueError` for no rows, or if a sum of
distances is zero. -/
def syCf (env : SyEnv) (X : List Row) : Res (List ℚ) :=
  if X.length = 0 then .error .valueError
  else
    let sums := (syDists env X X (env.knn X.length X X)).map List.sum
    if sums.any (fun s => decide (s = 0)) then .error .valueError
    else .ok (syNormalize (sums.map (fun s => 1 / s)))

/-- The mean of `cf_j / (d_j + 1)` over neighbours and their distances. Used for oversampling/_symprod.py:228-263. -/
def syMean (cf : List ℚ) (nbs : List Nat) (ds : List ℚ) : ℚ :=
  (List.zipWith (fun j d => cf.getD j 0 / (d + 1)) nbs ds).sum / nbs.length

/-- `determine_taus`, oversampling/_symprod.py:228-263. -/
def syTaus (env : SyEnv) (k : Nat) (Xmaj Xmin : List Row) : Res (List ℚ × List ℚ × List ℚ) := do
  let cfMin ← syCf env Xmin
  let cfMaj ← syCf env Xmaj
  let kk := min k (Xmin.length - 1)
  let table := env.knn Xmin.length Xmin Xmin
  let tauMin := List.zipWith (fun row ds => syMean cfMin ((row.drop 1).take kk) ((ds.drop 1).take kk)) table (syDists env Xmin Xmin table)
  if kk = 0 ∨ Xmaj.length < kk then .error .valueError
  else
    let table2 := env.knn kk Xmaj Xmin
    let tauMaj := List.zipWith (syMean cfMaj) table2 (syDists env Xmaj Xmin table2)
    return (tauMin, tauMaj, cfMin)

/-- The mask `tau_min >= tau_maj * cutoff_threshold`, as positions. Used for oversampling/_symprod.py:294-296 and oversampling/_symprod.py:277-316. -/
def syMask (tauMin tauMaj : List ℚ) (c : ℚ) : List Nat :=
  (List.range tauMin.length).filter (fun i => decide (tauMaj.getD i 0 * c ≤ tauMin.getD i 0))

/-- The loop of oversampling/_symprod.py:294-296, for at most `fuel` turns. -/
def syCut (tauMin tauMaj : List ℚ) (c₀ : ℚ) : Nat → ℚ → Res ℚ
  | 0, _ => .error .recursionError
  | fuel + 1, c => if (syMask tauMin tauMaj c).length ≤ 1 then syCut tauMin tauMaj c₀ fuel (c - c₀ / 10) else .ok c

/-- `minority_point_selection`, oversampling/_symprod.py:277-316: the probabilities, the factors and the rows. -/
def sySelect (env : SyEnv) (k : Nat) (c₀ : ℚ) (Xmaj Xmin : List Row) : Res (List ℚ × List ℚ × List Row) := do
  let taus ← syTaus env k Xmaj Xmin
  let tauMin := taus.1
  let tauMaj := taus.2.1
  let c ← syCut tauMin tauMaj c₀ 11 c₀
  let mask := syMask tauMin tauMaj c
  let phi := mask.map (fun i => (tauMin.getD i 0 + 1) / (tauMaj.getD i 0 + 1))
  let phi := phi.map (fun q => q - minL phi)
  if phi.sum = 0 then .error .valueError
  else return (phi.map (fun q => q / phi.sum), mask.map (fun i => taus.2.2.getD i 0), mask.map (fun i => Xmin.getD i []))

/-- The weighted row of one sample, oversampling/_symprod.py:388-411: `NaN` if the weights are all zero. -/
def syPoint (d : Nat) (beta : Nat → ℚ) (cf : List ℚ) (rows : List Row) : Res Row :=
  let w := (List.range cf.length).map (fun j => beta j * cf.getD j 0)
  if w.sum = 0 then .error .nan
  else .ok ((List.range d).map (fun c => (List.zipWith (fun q (r : Row) => r.getD c 0 * (q / w.sum)) w rows).sum))

/-- `instance_synthesis` with `select_neighborhoods`, oversampling/_symprod.py:330-413. `np.take` without an axis takes from the table read
row by row. Rows of different lengths cannot be multiplied: `ValueError` unless `m` is the parameter. -/
def sySynth (env : SyEnv) (m n d : Nat) (prob cf : List ℚ) (Xmin : List Row) : Res (List Row) := do
  let ref ← npChoice prob.length n prob env.u
  let mm := min m (Xmin.length - 4)
  if mm < 2 then .error .valueError
  else
    let table := env.knn (mm + 3) Xmin Xmin
    let nbhs := combinations (List.range (mm + 3)) mm
    let selected ← (List.range n).mapM (fun i => do
      let pos ← getRow nbhs (env.nbh i nbhs.length)
      takeRows table.flatten pos)
    if mm ≠ m then .error .valueError
    else (List.zip selected ref).zipIdx.mapM (fun t => do
      let idx := t.1.1 ++ [t.1.2]
      let rows ← takeRows Xmin idx
      let cfs ← takeRows cf idx
      syPoint d (env.beta t.2) cfs rows)

/-- A call in `try ... except ValueError: return copies`. Used for oversampling/_symprod.py:415-476. -/
def syTry {α β : Type} (r : Res α) (copies : β) (next : α → Res β) : Res β :=
  match r with
  | .ok a => next a
  | .error .valueError => .ok copies
  | .error e => .error e

/-- `sampling_algorithm`, oversampling/_symprod.py:415-476. -/
def syAlg (env : SyEnv) (par : SyParams) (d : Nat) (s : Stats) (X : List Row) (y : List Int) : Res (List Row × List Int) := do
  let n ← detNToSample (.num par.proportion) (s.count s.majLabel) (s.count s.minLabel)
  if n = 0 then return (X, y)
  let kept := syNoise env par.std (selectLabel X y s.minLabel) (selectLabel X y s.majLabel)
  let sc := env.fit (kept.1 ++ kept.2)
  let Xmin := kept.1.map (scaleRow sc.1 sc.2)
  let Xmaj := kept.2.map (scaleRow sc.1 sc.2)
  syTry (sySelect env par.k par.cutoff Xmaj Xmin) (X, y) (fun sel =>
    syTry (sySynth env par.m n d sel.1 sel.2.1 sel.2.2) (X, y) (fun samples =>
      .ok (withSamples X y s.minLabel (samples.map (unscaleRow sc.1 sc.2)))))

end Verif

import Verif.Model.Base
import Verif.Model.Checks
import Verif.Model.Noise
import Verif.Model.Rejection
import Verif.Model.Distances

/-!
# DSMOTE

`sqrt`, `exp`, `log`, the geometric mean of three numbers and the draws without repetition are parameters. The arrays with one entry per
column are functions of the column.
-/

namespace Verif

/-- Column `j` of a matrix. Used for oversampling/_dsmote.py:393 and oversampling/_dsmote.py:306. -/
def dsCol (X : List Row) (j : Nat) : List ℚ := X.map (fun r => r.getD j 0)

/-- `scale_` of `MinMaxScaler(feature_range=(1e-6, 1.0 - 1e-6))` fitted to `X`, oversampling/_dsmote.py:393: a constant column counts as
having range 1. -/
def dsScale (X : List Row) (j : Nat) : ℚ :=
  let range := maxL (dsCol X j) - minL (dsCol X j)
  (1 - 1 / 1000000 - 1 / 1000000) / (if range = 0 then 1 else range)

/-- `min_` of the scaler. Used for oversampling/_dsmote.py:377-446. -/
def dsShift (X : List Row) (j : Nat) : ℚ := 1 / 1000000 - minL (dsCol X j) * dsScale X j

/-- `mms.transform`. Used for oversampling/_dsmote.py:377-446. -/
def dsForward (d : Nat) (X : List Row) (r : Row) : Row := (List.range d).map (fun j => r.getD j 0 * dsScale X j + dsShift X j)

/-- `mms.inverse_transform`. Used for oversampling/_dsmote.py:377-446. -/
def dsBackward (d : Nat) (X : List Row) (r : Row) : Row := (List.range d).map (fun j => (r.getD j 0 - dsShift X j) / dsScale X j)

/-- `DSMOTEPartialResults`, oversampling/_dsmote.py:21-40. -/
structure DsPartial where
  logSum : Nat → ℚ
  sum1 : Nat → ℚ
  sum2 : Nat → ℚ
  allSum : ℚ
  norm : ℚ

/-- The external functions: `np.sqrt` (also in `np.linalg.norm`), `np.exp`, `np.log`, `scipy.stats.gmean` of three numbers.
Used for oversampling/_dsmote.py:209-238 and oversampling/_dsmote.py:274-280. -/
structure DsFun where
  sqrt : ℚ → ℚ
  exp : ℚ → ℚ
  log : ℚ → ℚ
  gmean : ℚ → ℚ → ℚ → ℚ

/-- `calculate_gdiv`, oversampling/_dsmote.py:168-187: the numbers under the root. -/
def dsTerms (Xnew : List Row) (g : Row) (norm : ℚ) : List ℚ := Xnew.map (fun x => norm - 2 * dotRow x g + dotRow g g)

/-- `calculate_objective`, oversampling/_dsmote.py:209-238, with `calculate_gdiv` (168-187) and `calculate_fisher` (189-207). The root of a
negative number is NaN; a number divided by zero is infinite or NaN. -/
def dsObjective (fn : DsFun) (d : Nat) (Xnew : List Row) (p : DsPartial) (meanMaj varMaj : ℚ) : XF :=
  let n : ℚ := Xnew.length
  let varMin := fun j => p.sum2 j / n - (p.sum1 j / n) ^ 2
  let g := (List.range d).map (fun j => fn.exp (p.logSum j / n))
  let allMean := p.allSum / (n * d)
  let terms := dsTerms Xnew g p.norm
  if terms.any (fun t => decide (t < 0)) then .nan
  else
    let gdiv := (terms.map fn.sqrt).sum / n
    let num := (allMean - meanMaj) ^ 2
    let den := ((List.range d).map varMin).sum / d + varMaj
    if den = 0 then (if num = 0 then .nan else .posInf) else .fin (gdiv + num / den)

/-- The partial results for one more row, oversampling/_dsmote.py:274-280. -/
def DsPartial.push (fn : DsFun) (p : DsPartial) (r : Row) : DsPartial :=
  { logSum := fun j => p.logSum j + fn.log (r.getD j 0)
    sum1 := fun j => p.sum1 j + r.getD j 0
    sum2 := fun j => p.sum2 j + r.getD j 0 ^ 2
    allSum := p.allSum + r.sum
    norm := p.norm + fn.sqrt (dotRow r r) }

/-- The candidate for three drawn positions, oversampling/_dsmote.py:264-267. -/
def dsCandidate (fn : DsFun) (d : Nat) (Xmin : List Row) (idx : Nat × Nat × Nat) : Res Row := do
  let a ← getRow Xmin idx.1
  let b ← getRow Xmin idx.2.1
  let c ← getRow Xmin idx.2.2
  return (List.range d).map (fun j => fn.gmean (a.getD j 0) (b.getD j 0) (c.getD j 0))

/-- The loop over the candidates, oversampling/_dsmote.py:255-291: the best so far and its score. -/
def dsBest (score : Row → XF) : List Row → Option Row × XF → Option Row × XF
  | [], acc => acc
  | c :: cs, acc => dsBest score cs (if acc.2.lt (score c) then (some c, score c) else acc)

/-- `generate_one_sample`, oversampling/_dsmote.py:240-291. The number of steps is zero for fewer than three rows. -/
def dsGenerate (fn : DsFun) (d nStep : Nat) (pick : Nat → Nat → Nat × Nat × Nat) (Xmin : List Row) (meanMaj varMaj : ℚ) (p : DsPartial) :
    Res (Option Row) := do
  let steps := min (Xmin.length * (Xmin.length - 1) * (Xmin.length - 2)) nStep
  let cands ← (List.range steps).mapM (fun k => dsCandidate fn d Xmin (pick k Xmin.length))
  return (dsBest (fun c => dsObjective fn d (Xmin ++ [c]) (p.push fn c) meanMaj varMaj) cands (none, .fin 0)).1

/-- The loop of `sampling`, oversampling/_dsmote.py:326-333. Without a candidate `vstack` raises a `ValueError` if there are several
columns; with one column it stacks `None`, which becomes NaN. -/
def dsLoop (fn : DsFun) (d nStep : Nat) (pick : Nat → Nat → Nat → Nat × Nat × Nat) (meanMaj varMaj : ℚ) :
    (left t : Nat) → List Row → DsPartial → Res (List Row)
  | 0, _, Xmin, _ => .ok Xmin
  | left + 1, t, Xmin, p => do
    match ← dsGenerate fn d nStep (pick t) Xmin meanMaj varMaj p with
    | none => if d = 1 then .error .nan else .error .valueError
    | some c => dsLoop fn d nStep pick meanMaj varMaj left (t + 1) (Xmin ++ [c]) (p.push fn c)

/-- `mean_maj`, oversampling/_dsmote.py:307. -/
def dsMean (d : Nat) (X : List Row) : ℚ := (X.map List.sum).sum / (X.length * d)

/-- `var_maj`, oversampling/_dsmote.py:306. -/
def dsVar (d : Nat) (X : List Row) : ℚ :=
  let mean := fun j : Nat => (dsCol X j).sum / (X.length : ℚ)
  ((List.range d).map (fun j => ((dsCol X j).map (fun x => (x - mean j) ^ 2)).sum / (X.length : ℚ))).sum / (d : ℚ)

/-- The first partial results, oversampling/_dsmote.py:311-323. -/
def dsPartial (fn : DsFun) (X : List Row) : DsPartial :=
  { logSum := fun j => ((dsCol X j).map fn.log).sum
    sum1 := fun j => (dsCol X j).sum
    sum2 := fun j => ((dsCol X j).map (fun x => x ^ 2)).sum
    allSum := (X.map List.sum).sum
    norm := (X.map (fun r => dotRow r r)).sum }

/-- `calculate_abnormality`, oversampling/_dsmote.py:337-375, for one minority row. The mean distance to the majority class is not zero
unless all majority rows are equal to the row. -/
def dsAbnormality (dist : Row → Row → ℚ) (Xmin Xmaj : List Row) (x : Row) : ℚ :=
  let dMaj := (Xmaj.map (dist x)).sum / Xmaj.length
  let dMin := (Xmin.map (dist x)).sum / Xmin.length * Xmin.length / (Xmin.length - 1)
  dMin / dMaj

/-- Used for oversampling/_dsmote.py:377-446. -/
structure DsParams where
  proportion : ℚ
  rate : ℚ
  nStep : Nat

/-- `DSMOTE.sampling_algorithm`, oversampling/_dsmote.py:377-446. `sorted` is stable. -/
def dsmoteAlg (par : DsParams) (fn : DsFun) (dist : Row → Row → ℚ) (pick : Nat → Nat → Nat → Nat × Nat × Nat) (d : Nat)
    (s : Stats) (X : List Row) (y : List Int) : Res (List Row × List Int) := do
  let n ← detNToSample (.num par.proportion) (s.count s.majLabel) (s.count s.minLabel)
  if n = 0 then return (X, y)
  let Z := X.map (dsForward d X)
  let Xmin := selectLabel Z y s.minLabel
  let Xmaj := selectLabel Z y s.majLabel
  let abn := Xmin.map (dsAbnormality dist Xmin Xmaj)
  let indices := (List.range abn.length).insertionSort (fun i j => abn.getD j 0 ≤ abn.getD i 0)
  let rate := (pyInt (par.rate * abn.length)).toNat
  let moved ← takeRows Xmin (indices.take rate)
  let Xmaj := Xmaj ++ moved
  let Xmin := npDelete Xmin (indices.take rate)
  let out ← dsLoop fn d par.nStep pick (dsMean d Xmaj) (dsVar d Xmaj) n 0 Xmin (dsPartial fn Xmin)
  return ((Xmaj ++ out).map (dsBackward d X), List.replicate Xmaj.length s.majLabel ++ List.replicate out.length s.minLabel)

end Verif

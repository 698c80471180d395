import Verif.Py
import Mathlib.Analysis.SpecialFunctions.Log.Basic
import Mathlib.Analysis.Real.Sqrt

/-!
# Model of `smote_variants/base/_metrics.py`

Counts are natural numbers; rational scores are exact rationals; the scores that need a square root or
a logarithm are real numbers.
-/

namespace Verif

/-- `np.where(mask)[0]`: the positions of `True`. Used for base/_metrics.py:48-67. -/
def npWhere (mask : List Bool) : List Nat := (List.range mask.length).filter (fun i => mask.getD i false)

/-- `a[idx] = v` for a list of indices. Used for base/_metrics.py:48-67. -/
def assignAt {α : Type} (a : List α) (idx : List Nat) (v : α) : List α :=
  idx.foldl (fun acc i => acc.set i v) a

/-- `prediction_labels`, base/_metrics.py:48-67. -/
def predictionLabels (probs : List ℚ) : List Int :=
  let labels := probs.map (fun p => if p > 1 / 2 then (1 : Int) else 0)
  let equals := probs.map (fun p => decide (p = 1 / 2))
  let indices := npWhere equals
  if indices.length ≤ 1 then labels
  else
    let half := indices.length / 2
    let labels := assignAt labels (indices.take half) 0
    assignAt labels (indices.drop half) 1

/-- The four confusion counts. Used for base/_metrics.py:70-97 and base/_metrics.py:136-202. -/
structure Atoms where
  tp : Nat
  tn : Nat
  fp : Nat
  fn : Nat
  deriving DecidableEq, Repr

/-- `int(np.sum(mask))`. Used for base/_metrics.py:70-97. -/
def sumMask (m : List Bool) : Nat := m.countP id

/-- `calculate_atoms`, base/_metrics.py:70-97 (label vectors of the same length). -/
def calculateAtoms (test pred : List Int) (minLabel : Int) : Atoms :=
  let equals := List.zipWith (fun a b => decide (a = b)) test pred
  let notEquals := equals.map (!·)
  let minSample := test.map (fun t => decide (t = minLabel))
  let majSample := minSample.map (!·)
  { tp := sumMask (List.zipWith (· && ·) equals minSample)
    tn := sumMask (List.zipWith (· && ·) equals majSample)
    fp := sumMask (List.zipWith (· && ·) notEquals majSample)
    fn := sumMask (List.zipWith (· && ·) notEquals minSample) }

/-- The rational part of the dictionary returned by `calculate_label_scores`. Used for base/_metrics.py:136-202 and base/_metrics.py:164. -/
structure LabelScores where
  p : Nat
  n : Nat
  acc : ℚ
  sens : ℚ
  spec : ℚ
  ppv : ℚ
  npv : ℚ
  fpr : ℚ
  fdr : ℚ
  fnr : ℚ
  bacc : ℚ
  f1 : ℚ
  informedness : ℚ
  markedness : ℚ
  deriving DecidableEq, Repr

/-- Python `a / b` on ints: `ZeroDivisionError` for a zero divisor. Used for base/_metrics.py:136-202. -/
def pyDiv (a b : Nat) : Res ℚ := if b = 0 then .error .zeroDivision else .ok ((a : ℚ) / (b : ℚ))

/-- `if a + b > 0: a / (a + b) else 0.0`. Used for base/_metrics.py:136-202. -/
def divOrZero (a b : Nat) : ℚ := if a + b > 0 then (a : ℚ) / ((a + b : Nat) : ℚ) else 0

/-- `calculate_label_scores`, base/_metrics.py:136-202, the rational scores. -/
def calculateLabelScores (a : Atoms) : Res LabelScores := do
  let p := a.tp + a.fn
  let n := a.fp + a.tn
  let acc ← pyDiv (a.tp + a.tn) (p + n)
  let sens ← pyDiv a.tp p
  let spec ← pyDiv a.tn n
  let ppv := divOrZero a.tp a.fp
  let npv := divOrZero a.tn a.fn
  let f1 ← pyDiv (2 * a.tp) (2 * a.tp + a.fp + a.fn)
  pure { p := p, n := n, acc := acc, sens := sens, spec := spec, ppv := ppv, npv := npv
         fpr := 1 - spec, fdr := 1 - ppv, fnr := 1 - sens, bacc := (sens + spec) / 2, f1 := f1
         informedness := sens + spec - 1, markedness := ppv + npv - 1 }

/-- `gacc`, base/_metrics.py:164. -/
noncomputable def gacc (s : LabelScores) : ℝ := Real.sqrt ((s.sens * s.spec : ℚ) : ℝ)

/-- Two's complement 64 bit wrap-around of numpy integers. Used for base/_metrics.py:167-173. -/
def wrap64 (z : Int) : Int := (z + 2 ^ 63) % 2 ^ 64 - 2 ^ 63

/-- `np.prod([tp_fp, tp_fn, tn_fp, tn_fn])`, base/_metrics.py:167-173: numpy multiplies 64 bit integers. -/
def mccProd (a : Atoms) : Int :=
  wrap64 (wrap64 (wrap64 (((a.tp + a.fp : Nat) : Int) * ((a.tp + a.fn : Nat) : Int))
    * ((a.fp + a.tn : Nat) : Int)) * ((a.fn + a.tn : Nat) : Int))

/-- The value stored under `mcc`: `None`, NaN or a number. Used for base/_metrics.py:167-178. -/
inductive Mcc
  | none
  | nan
  | val (r : ℝ)

/-- `mcc`, base/_metrics.py:167-178; `np.sqrt` of a negative number is NaN. The conversions to float are
taken as exact. -/
noncomputable def mcc (a : Atoms) : Mcc :=
  let num : Int := (a.tp : Int) * a.tn - (a.fp : Int) * a.fn
  if mccProd a = 0 then .none
  else if mccProd a < 0 then .nan
  else .val ((num : ℝ) / Real.sqrt (mccProd a : ℝ))

/-- `_log_score`, base/_metrics.py:100-117. -/
noncomputable def logScore (multiplier value : ℝ) : Option ℝ :=
  if value > 0 then some (multiplier * Real.log value) else none

/-- `_log_score_div`, base/_metrics.py:120-133. -/
noncomputable def logScoreDiv (num den : Nat) : Option ℝ :=
  if den > 0 then logScore (num : ℝ) ((num : ℝ) / (den : ℝ)) else none

/-- `np.sum(items)` if no item is `None`. Used for base/_metrics.py:180-197. -/
noncomputable def sumIfAll : List (Option ℝ) → Option ℝ
  | [] => some 0
  | none :: _ => none
  | some x :: r => (sumIfAll r).map (x + ·)

/-- `uc`, base/_metrics.py:180-197. -/
noncomputable def uc (a : Atoms) : Option ℝ :=
  let p := a.tp + a.fn
  let n := a.fp + a.tn
  let l : ℝ := ((p + n : Nat) : ℝ) * Real.log ((p + n : Nat) : ℝ)
  let ltp := logScoreDiv a.tp ((a.tp + a.fp) * (a.tp + a.fn))
  let lfp := logScoreDiv a.fp ((a.tp + a.fp) * (a.fp + a.tn))
  let lfn := logScoreDiv a.fn ((a.tp + a.fn) * (a.fn + a.tn))
  let ltn := logScoreDiv a.tn ((a.fp + a.tn) * (a.fn + a.tn))
  let lp : ℝ := (p : ℝ) * Real.log ((p : ℝ) / ((p + n : Nat) : ℝ))
  let ln : ℝ := (n : ℝ) * Real.log ((n : ℝ) / ((p + n : Nat) : ℝ))
  match sumIfAll [ltp, lfp, lfn, ltn] with
  | some s => some ((l + s) / (l + lp + ln))
  | none => none

/-- `p_top20`, base/_metrics.py:219-220: the share of minority items among the first fifth of the test
set *in the given order*. -/
def pTop20 (test : List Int) (minLabel : Int) : ℚ :=
  let thres := max (test.length / 5) 1
  (((test.take thres).countP (fun t => decide (t = minLabel)) : Nat) : ℚ) / (thres : ℚ)

/-- `brier`, base/_metrics.py:221. -/
def brier (test : List Int) (probs : List ℚ) : ℚ :=
  ((List.zipWith (fun (p : ℚ) (t : Int) => (p - (t : ℚ)) ^ 2) probs test).sum) / (probs.length : ℚ)

end Verif

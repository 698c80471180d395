import Verif.Py
import Mathlib.Order.Defs.LinearOrder
import Mathlib.Data.Prod.Lex

/-!
# Model of `smote_variants/base/_base.py` (statistics, densities) and of the common part of
`smote_variants/base/_oversampling.py`
-/

namespace Verif

/-- Sorted insertion without repetition; helper of `npUnique`. Used for oversampling/_ce_smote.py:210 and oversampling/_stefanowski.py:236-320. -/
def insertU {α : Type} [LinearOrder α] (a : α) : List α → List α
  | [] => [a]
  | b :: bs => if a < b then a :: b :: bs else if a = b then b :: bs else b :: insertU a bs

/-- `np.unique(y)`: sorted distinct values. Used for oversampling/_ce_smote.py:210 and oversampling/_stefanowski.py:236-320. -/
def npUnique {α : Type} [LinearOrder α] (y : List α) : List α := y.foldr insertU []

/-- `np.unique(y, return_counts=True)`: sorted distinct values with their multiplicities. Used for base/_base.py:297-307. -/
def npUniqueCounts {α : Type} [LinearOrder α] (y : List α) : List (α × Nat) :=
  (npUnique y).map (fun v => (v, y.count v))

/-- The attributes `class_stats`, `min_label`, `maj_label` set by `class_label_statistics`.
Used for base/_base.py:297-307 and base/_oversampling.py:212-247. -/
structure Stats where
  classStats : List (Int × Nat)
  minLabel : Int
  majLabel : Int
  deriving DecidableEq, Repr

/-- `StatisticsMixin.class_label_statistics`, base/_base.py:297-307. With fewer than two classes the
expression `counts[1]` (or `counts[0]`) raises `IndexError`. -/
def classLabelStatistics (y : List Int) : Res Stats :=
  match npUniqueCounts y with
  | (u0, c0) :: (u1, c1) :: rest =>
    .ok { classStats := (u0, c0) :: (u1, c1) :: rest
          minLabel := if c0 < c1 then u0 else u1
          majLabel := if c0 < c1 then u1 else u0 }
  | _ => .error .indexError

/-- Dictionary lookup `class_stats[label]`. Used for base/_oversampling.py:212-247. -/
def Stats.count (s : Stats) (label : Int) : Nat := ((s.classStats.lookup label).getD 0)

/-- The `strategy` argument of `det_n_to_sample`: a number (`int`/`float`) or anything else. NaN and
infinite floats are not modelled. Used for base/_oversampling.py:155-183. -/
inductive Strategy
  | num (q : ℚ)
  | other
  deriving DecidableEq, Repr

/-- `OverSamplingBase.det_n_to_sample`, base/_oversampling.py:155-183. -/
def detNToSample (strategy : Strategy) (nMaj nMin : Nat) : Res Nat :=
  match strategy with
  | .num q => .ok (max 0 (pyInt (((nMaj : ℚ) - (nMin : ℚ)) * q))).toNat
  | .other => .error .valueError

/-- An entry of the `checks` dictionary that `sample` looks at (base/_oversampling.py:229-245); keys
other than `min_n_min` and `min_n_dim` are ignored by the loop. -/
inductive Check
  | minNMin (bound : ℚ)
  | minNDim (bound : ℚ)
  | other
  deriving DecidableEq, Repr

/-- The loop over the checks, base/_oversampling.py:229-245: `true` when some check makes `sample`
return copies. -/
def checksFire (nMin d : Nat) : List Check → Bool
  | [] => false
  | .minNMin b :: cs => if (nMin : ℚ) ≤ b then true else checksFire nMin d cs
  | .minNDim b :: cs => if (d : ℚ) < b then true else checksFire nMin d cs
  | .other :: cs => checksFire nMin d cs

/-- `OverSamplingBase.sample`, base/_oversampling.py:212-247. The class specific
`sampling_algorithm` is a parameter; it sees the statistics computed before. `d` is `X.shape[1]`. -/
def sample (checks : List Check) (d : Nat)
    (alg : Stats → List Row → List Int → Res (List Row × List Int))
    (X : List Row) (y : List Int) : Res (List Row × List Int) := do
  let s ← classLabelStatistics y
  if checksFire (s.count s.minLabel) d checks then
    return (X, y)
  alg s X y

/-- `OverSamplingBase.fit_resample`, base/_oversampling.py:185-197. -/
def fitResample (checks : List Check) (d : Nat)
    (alg : Stats → List Row → List Int → Res (List Row × List Int))
    (X : List Row) (y : List Int) : Res (List Row × List Int) := sample checks d alg X y

/-- The default checks, base/_oversampling.py:152 (`check_np` is ignored by the loop). -/
def defaultChecks : List Check := [.minNMin 2, .other]

/-- A float that may be NaN or infinite. Used for base/_base.py:79-88. -/
inductive XF
  | fin (q : ℚ)
  | posInf
  | negInf
  | nan
  deriving DecidableEq, Repr

/-- `np.nan_to_num(x, nan=0.0, posinf=0.0, neginf=0.0)`. Used for base/_base.py:79-88. -/
def XF.toNum : XF → ℚ
  | .fin q => q
  | _ => 0

/-- `fix_density`, base/_base.py:79-88. -/
def fixDensity (density : List XF) : List ℚ :=
  let d := density.map XF.toNum
  let d := if d.sum = 0 then List.replicate density.length 1 else d
  d.map (· / d.sum)


end Verif

import Verif.Model.Checks
import Verif.Model.Dict
import Mathlib.Data.String.Basic

/-!
# Constructors of the oversamplers as data

Every constructor in `smote_variants/oversampling` binds its keyword arguments, runs a list of checks, each on one
argument, and stores the arguments. This module gives that list a type and an interpreter; the tables are in
Model/Registry.lean. Not modelled: constructors of third-party classes called with the stored values
(`Isomap`, classifiers).
-/

namespace Verif

/-- Values of parameters in grids and defaults. `obj` stands for everything that no check looks at (classifier
descriptions), by its `repr`. Booleans are numbers. Used for queries/_queries.py:497-505 and queries/_queries.py:510. -/
inductive GV
  | none
  | num (q : ℚ)
  | str (s : String)
  | tup (l : List ℚ)
  | obj (repr : String)
deriving DecidableEq

/-- The decimal number at the start of a text, without sign or exponent: helper of `float(text)`.
Used for oversampling/_adg.py:279-291 and oversampling/_g_smote.py:121-133. -/
def digitsVal : List Char → Option Nat
  | [] => some 0
  | c :: cs => if c.isDigit then (digitsVal cs).map (fun v => (c.toNat - 48) * 10 ^ cs.length + v) else none

/-- `float(text)` for plain decimals `12` and `12.5`; `none` is `ValueError`. Simplification: signs, exponents, `inf`,
`nan` and surrounding blanks, which Python also accepts, are not. Used for oversampling/_adg.py:279-291 and oversampling/_g_smote.py:121-133. -/
def floatText (s : List Char) : Option ℚ :=
  match s.span (· ≠ '.') with
  | (a, []) => if a = [] then .none else (digitsVal a).map (fun v => (v : ℚ))
  | (a, _ :: b) => match digitsVal a, digitsVal b with
    | some x, some y => if a = [] ∧ b = [] then .none else some ((x : ℚ) + (y : ℚ) / (10 : ℚ) ^ b.length)
    | _, _ => .none

/-- `text.split("_")[-1]`. Used for oversampling/_adg.py:279-291 and oversampling/_g_smote.py:121-133. -/
def afterLast : List Char → List Char
  | [] => []
  | c :: cs => if '_' ∈ cs then afterLast cs else if c = '_' then cs else c :: cs

/-- One check of a constructor; `p` is the argument it looks at. Used for queries/_queries.py:142-253 and queries/_queries.py:256-273. -/
inductive Chk
  /-- `check_greater_or_equal(p, ..., v)` -/
  | ge (p : String) (v : ℚ)
  /-- `check_greater(p, ..., v)` -/
  | gt (p : String) (v : ℚ)
  /-- `check_in_range(p, ..., [lo, hi])` -/
  | range (p : String) (lo hi : ℚ)
  /-- `check_isin(p, ..., l)` -/
  | isin (p : String) (l : List String)
  /-- `check_n_jobs(p, ...)` -/
  | nJobs (p : String)
  /-- `check_greater_or_equal(p[i], ..., v)`, oversampling/_dsrbf.py:476-477 -/
  | elemGe (p : String) (i : Nat) (v : ℚ)
  /-- oversampling/_adg.py:279-291, oversampling/_g_smote.py:121-133 -/
  | numSuffix (p exact pre : String)
  /-- oversampling/_mot2ld.py:115-123: a positive number or `'auto'` -/
  | posOrAuto (p : String)
deriving DecidableEq

/-- The argument a check looks at. Used for base/_base.py:407-674. -/
def Chk.param : Chk → String
  | .ge p _ => p | .gt p _ => p | .range p _ _ => p | .isin p _ => p | .nJobs p => p
  | .elemGe p _ _ => p | .numSuffix p _ _ => p | .posOrAuto p => p

/-- A number as a float; comparing anything else with a number raises `TypeError`. Used for base/_base.py:407-674. -/
def GV.float : GV → Res XF
  | .num q => .ok (.fin q)
  | _ => .error .typeError

/-- `value[i]` as a float. Used for base/_base.py:407-674. -/
def GV.item (i : Nat) : GV → Res XF
  | .tup l => match l[i]? with
    | some q => .ok (.fin q)
    | .none => .error .indexError
  | _ => .error .typeError

/-- `check_isin` on a value: anything but a listed string is rejected. Used for base/_base.py:407-674. -/
def GV.inStrings (l : List String) : GV → Res Unit
  | .str s => checkIsin s l
  | _ => .error .valueError

/-- `check_n_jobs` on a value. Used for base/_base.py:407-674. -/
def GV.asNJobs : GV → NJobs
  | .none => .none
  | .num q => if q.den = 1 then .int q.num else .other
  | _ => .other

/-- The check of the `kernel` of ADG and of the `method` of G_SMOTE. Used for oversampling/_adg.py:279-291 and oversampling/_g_smote.py:121-133. -/
def GV.suffixRule (exact pre : String) : GV → Res Unit
  | .str s =>
    if s ≠ exact ∧ ¬ pre.toList.isPrefixOf s.toList then .error .valueError
    else if pre.toList.isPrefixOf s.toList then
      match floatText (afterLast s.toList) with
      | some q => raiseIf (decide (q ≤ 0))
      | .none => .error .valueError
    else .ok ()
  | _ => .error .attributeError

/-- The check of `d_cut` of MOT2LD. Used for oversampling/_mot2ld.py:115-125. -/
def GV.posOrAuto : GV → Res Unit
  | .num q => raiseIf (decide (q ≤ 0))
  | .str s => raiseIf (decide (s ≠ "auto"))
  | _ => .error .valueError

/-- A check applied to the value of its argument. Used for base/_base.py:407-674. -/
def Chk.run : Chk → GV → Res Unit
  | .ge _ v, x => do checkGreaterOrEqual (← x.float) (.fin v)
  | .gt _ v, x => do checkGreater (← x.float) (.fin v)
  | .range _ lo hi, x => do checkInRange (← x.float) (.fin lo) (.fin hi)
  | .isin _ l, x => x.inStrings l
  | .nJobs _, x => checkNJobs x.asNJobs
  | .elemGe _ i v, x => do checkGreaterOrEqual (← x.item i) (.fin v)
  | .numSuffix _ e p, x => x.suffixRule e p
  | .posOrAuto _, x => x.posOrAuto

/-- Default of `ss_params`: dimension, the two modes, whether there is a Gaussian component, and whether the object
answers `ss_params` (as an attribute, or being a `SimplexSamplingMixin`). Used for queries/_queries.py:298-353. -/
structure SsSpec where
  nDim : Nat
  simplexSampling : String
  within : String
  gaussian : Bool
  readable : Bool
deriving DecidableEq

/-- One oversampler class. Used for queries/_queries.py:142-253 and queries/_queries.py:256-273. -/
structure OsSpec where
  name : String
  /-- constructor arguments with defaults -/
  params : List (String × GV)
  /-- whether unknown keyword arguments are accepted (`**_kwargs`) -/
  kwargs : Bool
  checks : List Chk
  /-- the grids whose combinations `parameter_combinations` returns -/
  grids : List (List (String × List GV))
  /-- keys of `get_params()` with the argument they report (empty: a constant) -/
  getKeys : List (String × String)
  /-- whether `get_params()` has the key `class_name` -/
  hasClassName : Bool
  categories : List String
  ss : Option SsSpec
  /-- queries/_runtimes.py -/
  runtime : Nat
deriving DecidableEq

/-- The value an argument is bound to. Used for the constructors, e.g. oversampling/_smote.py:39-87. -/
def OsSpec.bound (s : OsSpec) (kw : Dict String GV) (p : String) : GV :=
  match Dict.get kw p with
  | some v => v
  | .none => match Dict.get s.params p with
    | some v => v
    | .none => GV.none

/-- The checks in order. Used for base/_base.py:407-674. -/
def runChecks (f : String → GV) : List Chk → Res Unit
  | [] => .ok ()
  | c :: cs => do
    c.run (f c.param)
    runChecks f cs

/-- `cls(**kw)`: `TypeError` for an unknown keyword of a class without `**_kwargs`, else the checks in order.
Used for the constructors, e.g. oversampling/_smote.py:39-87. -/
def OsSpec.construct (s : OsSpec) (kw : Dict String GV) : Res Unit :=
  if s.kwargs = false ∧ ¬ (∀ k ∈ Dict.keys kw, k ∈ s.params.map Prod.fst) then .error .typeError
  else runChecks (s.bound kw) s.checks

/-- `cls.parameter_combinations()`. Used for the class methods, e.g. oversampling/_smote.py:90-102, and base/_base.py:661-674. -/
def OsSpec.combinations (s : OsSpec) : List (Dict String GV) :=
  s.grids.flatMap generateCombinations

/-- `get_params()` of an object whose arguments are bound to `args`, without `class_name`; constants are `none`.
Used for the methods `get_params`, e.g. oversampling/_smote.py:141-152. -/
def OsSpec.getParams {V : Type} (s : OsSpec) (const : V) (args : String → V) : Dict String V :=
  s.getKeys.map (fun kp => (kp.1, if kp.2 = "" then const else args kp.2))

/-- The value argument `p` of `cls(**kw)` gets, defaults given by `dflt`. Used for the constructors, e.g. oversampling/_smote.py:39-87. -/
def rebind {V : Type} (dflt : String → V) (kw : Dict String V) (p : String) : V :=
  match Dict.get kw p with
  | some v => v
  | .none => dflt p

end Verif

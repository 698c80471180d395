import Verif.Model.Base

/-!
# Model of `ParametersMixin` checks, `smote_variants/base/_base.py:407-659`

Numbers are floats including NaN and infinities (`XF`), compared as Python compares them. The text of
the message is not modelled. A check returns unit or raises `ValueError`.
-/

namespace Verif

/-- Python `a < b` on floats (false as soon as NaN is involved). Used for base/_base.py:412-426 and base/_base.py:444-478. -/
def XF.lt : XF → XF → Bool
  | .nan, _ => false
  | _, .nan => false
  | .negInf, .negInf => false
  | .negInf, _ => true
  | _, .negInf => false
  | .posInf, _ => false
  | _, .posInf => true
  | .fin a, .fin b => decide (a < b)

/-- Python `a <= b` on floats. Used for base/_base.py:428-442 and base/_base.py:480-517. -/
def XF.le : XF → XF → Bool
  | .nan, _ => false
  | _, .nan => false
  | .negInf, _ => true
  | _, .posInf => true
  | .posInf, _ => false
  | _, .negInf => false
  | .fin a, .fin b => decide (a ≤ b)

/-- Python `a == b` on floats (NaN differs from itself). Used for base/_base.py:593-628. -/
def XF.eq : XF → XF → Bool
  | .nan, _ => false
  | .fin a, .fin b => decide (a = b)
  | .posInf, .posInf => true
  | .negInf, .negInf => true
  | _, _ => false

/-- `if cond: raise ValueError`. Used for base/_base.py:412-426 and base/_base.py:428-442. -/
def raiseIf (cond : Bool) : Res Unit := if cond then .error .valueError else .ok ()

/-- `check_in_range`, base/_base.py:412-426. -/
def checkInRange (value lo hi : XF) : Res Unit := raiseIf (value.lt lo || hi.lt value)
/-- `check_out_range`, base/_base.py:428-442. -/
def checkOutRange (value lo hi : XF) : Res Unit := raiseIf (lo.le value && value.le hi)
/-- `check_less_or_equal`(`_par`), base/_base.py:444-478. -/
def checkLessOrEqual (value val : XF) : Res Unit := raiseIf (val.lt value)
/-- `check_less`(`_par`), base/_base.py:480-517. -/
def checkLess (value val : XF) : Res Unit := raiseIf (val.le value)
/-- `check_greater_or_equal`(`_par`), base/_base.py:519-553. -/
def checkGreaterOrEqual (value val : XF) : Res Unit := raiseIf (value.lt val)
/-- `check_greater`(`_par`), base/_base.py:555-591. -/
def checkGreater (value val : XF) : Res Unit := raiseIf (value.le val)
/-- `check_equal`(`_par`), base/_base.py:593-628 (it rejects equality). -/
def checkEqual (value val : XF) : Res Unit := raiseIf (value.eq val)
/-- `check_isin`, base/_base.py:630-643, for values with a lawful `==`. -/
def checkIsin {α : Type} [DecidableEq α] (value : α) (list : List α) : Res Unit :=
  raiseIf (! list.contains value)

/-- The `n_jobs` argument: `None`, a Python `int` (including `bool`) or something else. Used for base/_base.py:645-659. -/
inductive NJobs
  | none
  | int (n : Int)
  | other
  deriving DecidableEq, Repr

/-- `check_n_jobs`, base/_base.py:645-659. -/
def checkNJobs (value : NJobs) : Res Unit :=
  raiseIf (match value with
    | .none => true
    | .int n => decide (n ≤ 0)
    | .other => false)

end Verif

import Mathlib.Data.Rat.Floor
import Mathlib.Algebra.Order.Floor.Ring
import Mathlib.Algebra.BigOperators.Group.List.Basic

/-!
# Python / numpy vocabulary used by all models

Exceptions are values; arrays are lists; numbers are exact rationals. The definitions of this file model python and numpy
(lists, indexing, slices, exceptions), not code of /repo; each one names the construct it stands for, and the models in
`Verif/Model` cite the lines of /repo where these constructs occur.
-/

namespace Verif

/-- The Python exception classes that occur on modelled paths. `nan` is not a Python exception: it
marks the places where numpy silently produces NaN (0/0) instead of a number. -/
inductive PyErr
  | valueError | indexError | keyError | typeError | assertionError | runtimeError
  | attributeError | fileNotFound | jsonDecode | eof | zeroDivision | nameError | recursionError | nan
  deriving DecidableEq, Repr

abbrev Res (α : Type) := Except PyErr α

/-- `ok`-result check usable in statements. -/
def Res.isOk {α : Type} : Res α → Bool
  | .ok _ => true
  | .error _ => false

instance {α : Type} [DecidableEq α] : DecidableEq (Res α) := fun a b =>
  match a, b with
  | .ok x, .ok y => if h : x = y then isTrue (by rw [h]) else isFalse (fun e => h (by injection e))
  | .error x, .error y =>
      if h : x = y then isTrue (by rw [h]) else isFalse (fun e => h (by injection e))
  | .ok _, .error _ => isFalse (fun e => by cases e)
  | .error _, .ok _ => isFalse (fun e => by cases e)

/-- A feature vector. -/
abbrev Row := List ℚ

/-- numpy `X[i]` for a non-negative index: `IndexError` when out of range. -/
def getRow {α : Type} (X : List α) (i : Nat) : Res α :=
  match X[i]? with
  | some r => .ok r
  | none => .error .indexError

/-- numpy `X[idx]` (fancy indexing with a list of non-negative indices). -/
def takeRows {α : Type} (X : List α) (idx : List Nat) : Res (List α) := idx.mapM (getRow X)

/-- Elementwise sum of two vectors. -/
def Row.add (a b : Row) : Row := List.zipWith (· + ·) a b
/-- Elementwise difference of two vectors. -/
def Row.sub (a b : Row) : Row := List.zipWith (· - ·) a b
/-- Elementwise product of two vectors. -/
def Row.mul (a b : Row) : Row := List.zipWith (· * ·) a b
/-- Scalar multiple of a vector. -/
def Row.smul (c : ℚ) (a : Row) : Row := a.map (c * ·)

/-- `np.sum(rows, axis=0)` for rows of length `d`. -/
def rowSum (d : Nat) (rows : List Row) : Row := rows.foldr Row.add (List.replicate d 0)

/-- Python `int(q)`: truncation towards zero. -/
def pyInt (q : ℚ) : Int := if 0 ≤ q then ⌊q⌋ else ⌈q⌉

/-- numpy `np.cumsum`. -/
def cumsum : List ℚ → List ℚ := go 0
where
  go (acc : ℚ) : List ℚ → List ℚ
    | [] => []
    | x :: xs => (acc + x) :: go (acc + x) xs

/-- `X[mask]`: boolean mask indexing (masks are at least as long as the data in all uses). -/
def maskRows {α : Type} (X : List α) (mask : List Bool) : List α :=
  (List.zip X mask).filterMap (fun p => if p.2 then some p.1 else none)

/-- `X[y == label]`. -/
def selectLabel {α : Type} (X : List α) (y : List Int) (label : Int) : List α :=
  maskRows X (y.map (· == label))

/-- A well-formed data set: as many labels as rows, all rows of length `d`. -/
def WF (d : Nat) (X : List Row) (y : List Int) : Prop :=
  X.length = y.length ∧ ∀ r ∈ X, r.length = d

instance (d : Nat) (X : List Row) (y : List Int) : Decidable (WF d X y) := by
  unfold WF; infer_instance

end Verif

import Verif.Spec.Interp
import Verif.Spec.Sampling
import Mathlib.Data.Int.Log
import Mathlib.Algebra.Order.Round
import Mathlib.Algebra.Order.Field.Power

/-!
# Specification: arithmetic with rounding

Numbers of the machine are rational numbers, and every operation gives the exact result, rounded. Overflow and underflow are left out, as are
infinite values and NaN.
-/

namespace Verif

/-- Rounding to nearest: no value of the rounding is closer to `x` than `fl x`. -/
def RoundsToNearest (fl : ℚ → ℚ) : Prop := ∀ x y, |x - fl x| ≤ |x - fl y|

/-- The relative error of one rounding is at most `ε`. -/
def RoundsWithin (fl : ℚ → ℚ) (ε : ℚ) : Prop := ∀ x, |fl x - x| ≤ ε * |x|

/-- `u`, the largest random number, is so far below one that products with it are different from the other factor. -/
def Shrinks (fl : ℚ → ℚ) (u : ℚ) : Prop := ∀ x, fl x = x → x ≠ 0 → fl (x * u) ≠ x

/-- All numbers of the rows are numbers of the machine. -/
def Representable (fl : ℚ → ℚ) (X : List Row) : Prop := ∀ r ∈ X, ∀ x ∈ r, fl x = x

/-- `s` is the sum of the list with rounding, in some order of the additions which keeps the order of the summands. -/
inductive SumsUp (fl : ℚ → ℚ) : List ℚ → ℚ → Prop
  | nil : SumsUp fl [] 0
  | single (x : ℚ) : SumsUp fl [x] x
  | add {l m : List ℚ} {a b : ℚ} (hl : l ≠ []) (hm : m ≠ []) (ha : SumsUp fl l a) (hb : SumsUp fl m b) : SumsUp fl (l ++ m) (fl (a + b))

/-- Two calls with the same outcome: the same exception, or two results in relation `P`. -/
inductive SameOutcome {α β : Type} (P : α → β → Prop) : Res α → Res β → Prop
  | ok {a : α} {b : β} (h : P a b) : SameOutcome P (.ok a) (.ok b)
  | error (e : PyErr) : SameOutcome P (.error e) (.error e)

/-- Two rows of `d` numbers with a distance of at most `δ c` in coordinate `c`. -/
def RowsWithin (d : Nat) (δ : Nat → ℚ) (r r' : Row) : Prop :=
  r.length = d ∧ r'.length = d ∧ ∀ c, c < d → |r.getD c 0 - r'.getD c 0| ≤ δ c

/-- The bound on the relative error of a point of a simplex with `m` vertices, about `2 * (m + 1) * ε`. -/
def simplexError (ε : ℚ) (m : Nat) : ℚ := ((1 + ε) / (1 - ε)) ^ (m + 1) - 1

/-- Number of samples asked for, with rounding: the rounded share `p` of the class gap, truncated, never negative. -/
def flRequested (fl : ℚ → ℚ) (p : ℚ) (nMaj nMin : Nat) : Nat := ⌊fl (((nMaj : ℚ) - (nMin : ℚ)) * p)⌋.toNat

/-- The natural numbers up to `N` are numbers of the machine. -/
def ExactUpTo (fl : ℚ → ℚ) (N : Nat) : Prop := ∀ n : Nat, n ≤ N → fl n = n

/-- A summation of numbers which are not negative, with a relative error of at most `δ`. -/
def SumsNear (δ : ℚ) (ksum : List ℚ → ℚ) : Prop := 0 ≤ δ ∧ ∀ l : List ℚ, (∀ x ∈ l, 0 ≤ x) → |ksum l - l.sum| ≤ δ * l.sum

/-- How far from one the sum of `m` rounded probabilities can appear, if it is computed with a relative error of `δ`. -/
def choiceSlack (ε δ : ℚ) (m : Nat) : ℚ := (1 + ε) * (δ * (1 + simplexError ε m) + simplexError ε m)

/-- Rounding to `p` binary digits, to nearest; `p = 53` are the numbers of Python and numpy. Ties are rounded up. -/
def binaryFl (p : Nat) (x : ℚ) : ℚ :=
  if x = 0 then 0
  else
    let q : ℚ := 2 ^ (Int.log 2 |x| - p + 1)
    round (x / q) * q

end Verif

import Verif.Model.SmoteD
import Verif.Model.Rounded

/-!
# `SMOTE_D.generate_samples` with rounding
-/

namespace Verif

/-- The inner `while`, oversampling/_smote_d.py:115-120, with rounding: the difference of the rows is divided by the rounded weight; the product with
the exact inverse, rounded, is the rounded quotient. -/
def flPairSamples (fl : ℚ → ℚ) (base nb : Row) (u : Nat → ℚ) : Nat → Nat → ℚ → Option (List Row)
  | 0, _, _ => none
  | f + 1, k, c =>
    if 0 < c then
      (flPairSamples fl base nb u f (k + 1) (fl (c - 1))).map (fun rest =>
        if u k < c then flMixRow fl base nb (fun _ => 1 / fl (c + 1)) :: rest else rest)
    else some []

/-- One pair of rows. Used for oversampling/_smote_d.py:99-122. -/
def flSmoteDPair (fl : ℚ → ℚ) (Xmin : List Row) (base : Row) (nbs : List Nat) (cs : List ℚ) (u : Nat → Nat → ℚ) (j : Nat) :
    Res (List Row) := do
  let c ← getRow cs j
  let i ← getRow nbs (j + 1)
  let nb ← getRow Xmin i
  rowsOrHang (flPairSamples fl base nb (u j) (⌈c⌉.toNat + 1) 0 c)

/-- One row with all its neighbours; `k` is `ind.shape[1]`. Used for oversampling/_smote_d.py:99-122. -/
def flSmoteDBase (fl : ℚ → ℚ) (Xmin : List Row) (ind : List (List Nat)) (k : Nat) (counts : List (List ℚ)) (u : Nat → Nat → Nat → ℚ)
    (i : Nat) : Res (List Row) := do
  let base ← getRow Xmin i
  let nbs ← getRow ind i
  let cs ← getRow counts i
  let parts ← (List.range (k - 1)).mapM (flSmoteDPair fl Xmin base nbs cs (u i))
  return parts.flatten

/-- `SMOTE_D.generate_samples`, oversampling/_smote_d.py:99-122, for given counts. -/
def flSmoteDSamples (fl : ℚ → ℚ) (Xmin : List Row) (ind : List (List Nat)) (k : Nat) (counts : List (List ℚ)) (u : Nat → Nat → Nat → ℚ) :
    Res (List Row) := do
  let parts ← (List.range Xmin.length).mapM (flSmoteDBase fl Xmin ind k counts u)
  return parts.flatten

end Verif

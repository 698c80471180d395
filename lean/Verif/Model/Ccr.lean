import Verif.Model.Interp
import Mathlib.Data.List.Sort

/-!
# `CCR` (combined cleaning and resampling)

`energy * d ** scaling` is a parameter (`E`, the power of a float). The translations of the majority rows are computed by the
code but never reach the output (oversampling/_ccr.py:280-283 against 305-308), so they are not modelled.
-/

namespace Verif

/-- `np.round`: to the nearest integer, halves to the even one. Used for oversampling/_ccr.py:290-301. -/
def npRoundHalfEven (q : ℚ) : Int :=
  if q - ⌊q⌋ < 1/2 then ⌊q⌋
  else if 1/2 < q - ⌊q⌋ then ⌊q⌋ + 1
  else if ⌊q⌋ % 2 = 0 then ⌊q⌋ else ⌊q⌋ + 1

/-- `distances[idx, sorted_distances[m - 1]]`; for `m = 0` the index `-1` is the last one. Used for oversampling/_ccr.py:199-216. -/
def prevDistance (ds : List ℚ) (m : Nat) : ℚ := if m = 0 then ds.getLastD 0 else ds.getD (m - 1) 0

/-- The loop of `determine_radii_current_majority`, oversampling/_ccr.py:199-216, over the rest of the sorted distances `ds`,
`m` being `current_majority`. Returns the radius, the remaining energy and the last `current_majority`. -/
def ccrLoop (ds : List ℚ) : List ℚ → Nat → (last rem radius : ℚ) → ℚ × ℚ × Nat
  | [], m, _, rem, radius => (radius, rem, m - 1)
  | dist :: rest, m, last, rem, radius =>
    if rem ≤ 0 then (radius, 0, m)
    else if radius + rem / (m + 1) ≤ dist then (radius + rem / (m + 1), rem, m)
    else ccrLoop ds rest (m + 1) (prevDistance ds m) (rem - max (dist - last) 0 * (m + 1)) (radius + max (dist - last) 0)

/-- `determine_radii_current_majority`, oversampling/_ccr.py:181-222, for the distances in increasing order. -/
def ccrRadius (E : ℚ) (ds : List ℚ) : ℚ :=
  let r := ccrLoop ds ds 0 0 E 0
  r.1 + (r.2.1 / max 1 (r.2.2 : ℚ)) * (if r.2.2 + 1 = ds.length then 1 else 0)

/-- `pairwise_distances(..., metric="l1")` of two rows. Used for oversampling/_smote_frst_2t.py:146-154. -/
def l1Dist (a b : Row) : ℚ := ((Row.sub a b).map (fun t => |t|)).sum

/-- `distances[idx][np.argsort(distances[idx])]`. Used for oversampling/_ccr.py:261-308. -/
def sortedL1 (p : Row) (majority : List Row) : List ℚ := (majority.map (l1Dist p)).insertionSort (· ≤ ·)

/-- The loop of `taxicab_sample`, oversampling/_ccr.py:119-127, before the permutation: `prev` is the last entry (zero at the
start), the list holds the random numbers. -/
def taxicabEntries (radius : ℚ) : (prev : ℚ) → List ℚ → List ℚ
  | _, [] => []
  | prev, u :: us => ((radius - |prev|) * (2 * u - 1)) :: taxicabEntries radius ((radius - |prev|) * (2 * u - 1)) us

/-- Draws of `CCR` for minority row `i` and sample `j`: the random numbers and the permutation.
Used for oversampling/_ccr.py:290-301 and oversampling/_ccr.py:261-308. -/
structure CcrDraws where
  u : Nat → Nat → List ℚ
  perm : Nat → Nat → List ℚ → List ℚ

/-- The number of samples of one minority row before rounding, oversampling/_ccr.py:286-295. -/
def ccrShare (n : Nat) (radii : List ℚ) (r : ℚ) : ℚ :=
  (n : ℚ) / radii.length * (1 / r) / (radii.length / radii.sum)

/-- The samples of one minority row, oversampling/_ccr.py:290-301. A radius of zero would make the share infinite. -/
def ccrRow (dr : CcrDraws) (n : Nat) (radii : List ℚ) (minority : List Row) (i : Nat) : Res (List Row) := do
  let p ← getRow minority i
  let r ← getRow radii i
  if r = 0 ∨ radii.sum = 0 then .error .nan
  else .ok ((List.range (npRoundHalfEven (ccrShare n radii r)).toNat).map (fun j =>
    Row.add p (dr.perm i j (taxicabEntries r 0 (dr.u i j)))))

/-- `CCR.sampling_algorithm`, oversampling/_ccr.py:261-308. -/
def ccrAlg (proportion E : ℚ) (dr : CcrDraws) (s : Stats) (X : List Row) (y : List Int) : Res (List Row × List Int) := do
  let n ← detNToSample (.num proportion) (s.count s.majLabel) (s.count s.minLabel)
  if n = 0 then return (X, y)
  let minority := selectLabel X y s.minLabel
  let majority := selectLabel X y s.majLabel
  let radii := minority.map (fun p => ccrRadius E (sortedL1 p majority))
  let parts ← (List.range minority.length).mapM (ccrRow dr n radii minority)
  return withSamples X y s.minLabel parts.flatten

end Verif

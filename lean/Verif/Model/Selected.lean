import Verif.Model.Regions
import Verif.Model.Rejection

/-!
# Selected_SMOTE and ROSE

`ix t m i` is the number drawn for sample `i` by `choice(m, n)` number `t`, `un i j` the number drawn for coordinate `j` of sample `i`.
-/

namespace Verif

/-- `np.rint`: halves go to the even number. Used for oversampling/_selected_smote.py:99-143. -/
def rint (x : ℚ) : Int :=
  if x - (⌊x⌋ : ℚ) < 1 / 2 then ⌊x⌋
  else if 1 / 2 < x - (⌊x⌋ : ℚ) then ⌊x⌋ + 1
  else if ⌊x⌋ % 2 = 0 then ⌊x⌋ else ⌊x⌋ + 1

/-- The share of the overlap in one attribute, oversampling/_selected_smote.py:115-134. -/
def overlapShare (Xmin Xmaj : List Row) (j : Nat) : ℚ :=
  let a := minL (Xmin.map (fun r => r.getD j 0))
  let b := maxL (Xmin.map (fun r => r.getD j 0))
  let a' := minL (Xmaj.map (fun r => r.getD j 0))
  let b' := maxL (Xmaj.map (fun r => r.getD j 0))
  let overlap := min b b' - max a a'
  let overlap := if overlap < 0 then 0 else overlap
  if b - a ≠ 0 then overlap / (b - a) else b - a

/-- `significant_attributes`, oversampling/_selected_smote.py:99-143: ones and zeros. `sorted(percentages)[-0]` is the smallest,
`sorted(percentages)[-1]` the largest (a negative number cannot occur: the share is not negative). -/
def significantAttr (share : ℚ) (d : Nat) (Xmin Xmaj : List Row) : List ℚ :=
  let percentages := (List.range d).map (overlapShare Xmin Xmaj)
  let num := min 1 (rint (share * (percentages.length : ℚ)))
  let level := if num = 0 then minL percentages else maxL percentages
  percentages.map (fun p => if level ≤ p then 1 else 0)

/-- One row of `generate_samples`, oversampling/_selected_smote.py:158-164 and 197-203. -/
def selectedRow (ix : Nat → Nat → Nat → Nat) (un : Nat → Nat → ℚ) (Xmin : List Row) (indices : List (List Nat)) (k : Nat) (sign : List ℚ)
    (i : Nat) : Res Row := do
  let b := ix 0 Xmin.length i
  let base ← getRow Xmin b
  let row ← getRow indices b
  let q ← getRow row (1 + ix 1 (k - 1) i)
  let nb ← getRow Xmin q
  return mixRow base nb (fun j => un i j * sign.getD j 0)

/-- `Selected_SMOTE.sampling_algorithm`, oversampling/_selected_smote.py:166-210. -/
def selectedAlg (proportion : ℚ) (nNeighbors : Nat) (share : ℚ) (ix : Nat → Nat → Nat → Nat) (un : Nat → Nat → ℚ) (d : Nat)
    (knn : Nat → List Row → List Row → List (List Nat)) (s : Stats) (X : List Row) (y : List Int) : Res (List Row × List Int) := do
  let n ← detNToSample (.num proportion) (s.count s.majLabel) (s.count s.minLabel)
  if n = 0 then return (X, y)
  let Xmin := selectLabel X y s.minLabel
  let k := min Xmin.length (nNeighbors + 1)
  let indices := knn k Xmin Xmin
  let sign := significantAttr share d Xmin (selectLabel X y s.majLabel)
  let _ ← choiceFrom Xmin.length n (ix 0 Xmin.length)
  let _ ← choiceFrom (k - 1) n (ix 1 (k - 1))
  let samples ← (List.range n).mapM (selectedRow ix un Xmin indices k sign)
  return withSamples X y s.minLabel samples

/-- `ROSE.sampling_algorithm`, oversampling/_rose.py:75-113. `std c` is `np.std` of the column `c`, `width n d` the power at 100-102,
`normal i j` the number drawn for coordinate `j` of sample `i`. -/
def roseAlg (proportion : ℚ) (std : List ℚ → ℚ) (width : Nat → Nat → ℚ) (ix : Nat → Nat → Nat → Nat) (normal : Nat → Nat → ℚ) (d : Nat)
    (s : Stats) (X : List Row) (y : List Int) : Res (List Row × List Int) := do
  let n ← detNToSample (.num proportion) (s.count s.majLabel) (s.count s.minLabel)
  if n = 0 then return (X, y)
  let Xmin := selectLabel X y s.minLabel
  let H := (List.range d).map (fun j => std (Xmin.map (fun r => r.getD j 0)) * width X.length d)
  let _ ← choiceFrom Xmin.length n (ix 0 Xmin.length)
  let samples ← (List.range n).mapM (fun i => do
    let base ← getRow Xmin (ix 0 Xmin.length i)
    return (List.range d).map (fun j => base.getD j 0 + normal i j * H.getD j 0))
  return withSamples X y s.minLabel samples

end Verif

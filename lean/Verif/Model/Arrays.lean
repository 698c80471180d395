import Verif.Py

/-!
# Array helpers of `smote_variants/base`

Integer indices may be negative, as in numpy. A rectangular array is a list of rows; its number of columns is given where numpy reads it
from the shape.
-/

namespace Verif

/-- numpy `a[i]` for a one-dimensional array and any integer: a negative index counts from the end, everything else raises
`IndexError`. Used for base/_simplexsampling.py:28-45. -/
def npItem {α : Type} (a : List α) (i : Int) : Res α :=
  if 0 ≤ i then getRow a i.toNat
  else if 0 ≤ i + a.length then getRow a (i + a.length).toNat
  else .error .indexError

/-- The pairs of `array[np.arange(m), column]`: the two index arrays are broadcast, so an array of length one is repeated and any other
difference of the lengths raises `IndexError`. Used for base/_simplexsampling.py:39-40. -/
def broadcastPairs (m : Nat) (column : List Int) : Res (List (Nat × Int)) :=
  if m = column.length then .ok ((List.range m).zip column)
  else if m = 1 then .ok (column.map (fun c => (0, c)))
  else match column with
    | [c] => .ok ((List.range m).map (fun r => (r, c)))
    | _ => .error .indexError

/-- Cut a list into rows of `k` items, `reshape(n, k)` for a list of `n * k` items. Used for base/_simplexsampling.py:45. -/
def rowsOf {α : Type} (k : Nat) (flat : List α) (n : Nat) : List (List α) :=
  (List.range n).map (fun r => (flat.drop (r * k)).take k)

/-- `array_array_index`, base/_simplexsampling.py:28-45. `w = array.shape[1]`, `k = indices.shape[1]`. With one column of indices the
array is indexed by row and column. Otherwise the indices are turned into positions of the flat array: the position of index `i` in row
`r` is `i + r * w`. The reshape of the first branch raises `ValueError` if the broadcast result has another number of rows. -/
def arrayArrayIndex {α : Type} (A : List (List α)) (w : Nat) (I : List (List Int)) (k : Nat) : Res (List (List α)) :=
  if k = 1 then do
    let pairs ← broadcastPairs A.length (I.map (fun row => row.headD 0))
    let out ← pairs.mapM (fun p => do
      let row ← getRow A p.1
      npItem row p.2)
    if out.length ≠ I.length then throw .valueError
    return out.map (fun x => [x])
  else do
    let out ← (I.zipIdx.flatMap (fun p => p.1.map (fun i => i + ((p.2 * w : Nat) : Int)))).mapM (npItem A.flatten)
    return rowsOf k out I.length

/-- Coordinate `j` of the multi-index of position `m` in an array of shape `lens`, last axis fastest (`reshape`). Used for
base/_simplexsampling.py:178-181. -/
def unravel : List Nat → Nat → List Nat
  | [], _ => []
  | _ :: lens, m => (m / lens.prod) :: unravel lens (m % lens.prod)

/-- `cartesian_product`, base/_simplexsampling.py:166-181. Without arguments `np.result_type` raises `ValueError`. Simplification: all
items have one type. -/
def cartesianProduct {α : Type} (arrays : List (List α)) : Res (List (List α)) :=
  if arrays = [] then .error .valueError
  else (List.range ((arrays.map List.length).prod)).mapM (fun m =>
    ((arrays.zip (unravel (arrays.map List.length) m))).mapM (fun p => getRow p.1 p.2))

/-- `shuffle_training_set`, base/_base.py:58-77. `perm` is the mask after `random_state.shuffle`, `none` if there is no random state. -/
def shuffleTrainingSet (perm : Option (List Nat)) (X : List Row) (y : List Int) : Res (List Row × List Int) :=
  match perm with
  | none => .ok (X, y)
  | some mask => do
    let X' ← takeRows X mask
    let y' ← takeRows y mask
    return (X', y')

/-- `sample_by_jittering`, base/_oversampling.py:82-91: one number for all coordinates. -/
def jitter (x : Row) (std u : ℚ) : Row := x.map (fun t => t + (u - 1 / 2) * 2 * std)

/-- `sample_by_jittering_componentwise`, base/_oversampling.py:93-105: one number for every coordinate. -/
def jitterComponentwise (x std : Row) (u : Nat → ℚ) : Row :=
  (List.zip x std).zipIdx.map (fun p => p.1.1 + (u p.2 - 1 / 2) * 2 * p.1.2)

/-- The variables of an array: its rows, or its columns. Used for base/_base.py:38-55. -/
def variablesOf (rowvar : Bool) (nCols : Nat) (A : List Row) : List Row :=
  if rowvar then A else (List.range nCols).map (fun j => A.map (fun r => r.getD j 0))

/-- The covariance of two variables in `np.cov`: the mean product of the deviations with `n - 1` in the denominator, NaN with fewer than
two observations. Used for base/_base.py:38-55. -/
def covEntry (a b : Row) : Res ℚ :=
  if a.length < 2 then .error .nan
  else .ok ((List.zipWith (fun s t => (s - a.sum / a.length) * (t - b.sum / b.length)) a b).sum / ((a.length : ℚ) - 1))

/-- The result of `np.cov`: for one variable it is squeezed to a number. Used for base/_base.py:38-55. -/
inductive NpCov
  | number (v : ℚ)
  | matrix (m : List (List ℚ))

/-- `np.cov`. Used for base/_base.py:38-55. -/
def npCov (vars : List Row) : Res NpCov :=
  match vars with
  | [v] => do
    let c ← covEntry v v
    return .number c
  | vars => do
    let m ← vars.mapM (fun a => vars.mapM (fun b => covEntry a b))
    return .matrix m

/-- `cov`, base/_base.py:38-55: the number is put back into a matrix. -/
def covHelper (rowvar : Bool) (nCols : Nat) (A : List Row) : Res (List (List ℚ)) := do
  let c ← npCov (variablesOf rowvar nCols A)
  match c with
  | .number v => return [[v]]
  | .matrix m => return m

end Verif

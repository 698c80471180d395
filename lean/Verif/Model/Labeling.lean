import Verif.Model.Selected
import Verif.Model.Base
import Mathlib.Data.List.Lex

/-!
# The preparation of data for plots (visualization/_visualization.py)

The drawing itself is not modelled.
-/

namespace Verif

/-- `np.round(x, 4)`. Used for visualization/_visualization.py:96. -/
def round4 (x : ℚ) : ℚ := (rint (x * 10000) : ℚ) / 10000

/-- `unified`, visualization/_visualization.py:96. -/
def unifiedRows (X : List Row) (y : List Int) : List Row := List.zipWith (fun r (l : Int) => (r ++ [(l : ℚ)]).map round4) X y

/-- `X_orig[:, coordinates]` and `y_orig` for a row, visualization/_visualization.py:98-101. -/
def coordKey (coords : List Nat) (u : Row) : Res Row := do
  let cs ← coords.mapM (getRow u.dropLast)
  return cs ++ [u.getLastD 0]

/-- `unique_data`, visualization/_visualization.py:82-104: coordinates and label, and the multiplicity. -/
def uniqueData (coords : List Nat) (X : List Row) (y : List Int) : Res (List (Row × Nat)) :=
  (npUniqueCounts (unifiedRows X y)).mapM (fun p => do
    let k ← coordKey coords p.1
    return (k, p.2))

/-- Values of the column `flag`. Used for visualization/_visualization.py:133-152. -/
inductive LabFlag
  | untouched | new | removed | countChanged
deriving DecidableEq

/-- A row of the merged frame: key, `counts`, `counts_old`; a missing count is also a missing indicator.
Used for visualization/_visualization.py:131 and visualization/_visualization.py:133-152. -/
structure LabRow where
  key : Row
  counts : Option Nat
  countsOld : Option Nat
deriving DecidableEq

/-- `new_pdf.merge(orig_pdf, how="outer", on=…)`, visualization/_visualization.py:131: keys in ascending order, all pairs of rows with the same
key. -/
def outerMerge (new old : List (Row × Nat)) : List LabRow :=
  (npUnique (new.map Prod.fst ++ old.map Prod.fst)).flatMap (fun k =>
    let n := new.filter (fun p => p.1 = k)
    let o := old.filter (fun p => p.1 = k)
    if n.isEmpty then o.map (fun q => ⟨k, none, some q.2⟩)
    else if o.isEmpty then n.map (fun p => ⟨k, some p.2, none⟩)
    else n.flatMap (fun p => o.map (fun q => ⟨k, some p.2, some q.2⟩)))

/-- The column `flag`, visualization/_visualization.py:133-152. -/
def LabRow.flag (r : LabRow) : Option LabFlag :=
  let f := if r.countsOld = r.counts ∧ r.countsOld.isSome ∧ r.counts.isSome then some LabFlag.untouched else none
  let f := if r.countsOld.isNone ∧ r.counts.isSome then some LabFlag.new else f
  let f := if r.countsOld.isSome ∧ r.counts.isNone then some LabFlag.removed else f
  if r.countsOld ≠ r.counts ∧ r.countsOld.isSome ∧ r.counts.isSome then some LabFlag.countChanged else f

/-- The column `original_flag`, visualization/_visualization.py:154. -/
def LabRow.originalFlag (r : LabRow) : Bool := r.countsOld.isSome

/-- The column `resampled_flag`, visualization/_visualization.py:155. -/
def LabRow.resampledFlag (r : LabRow) : Bool := r.flag = some .new ∨ r.flag = some .untouched

/-- `vector_labeling`, visualization/_visualization.py:107-160. -/
def vectorLabeling (coords : List Nat) (X : List Row) (y : List Int) (Xs : List Row) (ys : List Int) : Res (List LabRow) := do
  let orig ← uniqueData coords X y
  let new ← uniqueData coords Xs ys
  return outerMerge new orig

/-- Names of classes in a plot. Used for visualization/_visualization.py:56-79. -/
inductive LabName
  | dummy | majority | minority | minorityNr (i : Nat)
deriving DecidableEq

/-- `relabel_y`, visualization/_visualization.py:56-79. -/
def relabelY (y : List Int) : List LabName :=
  let u := npUnique y
  if u.length = 2 then y.map (fun l => if l = 1 then .minority else if l = 0 then .majority else .dummy)
  else y.map (fun l => if l ≠ 0 ∧ l ∈ u then .minorityNr (u.idxOf l) else if l = 0 then .majority else .dummy)

end Verif

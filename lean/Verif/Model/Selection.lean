import Verif.Model.Base
import Mathlib.Data.List.Lex

/-!
# Aggregation of the evaluation results and model selection (evaluation/_functions.py)

The names and the printed parameter dictionaries (`str(dict)`) are elements of an arbitrary linearly ordered type `α`
(strings in the code). One score column is modelled; the columns do not influence each other. A missing value is `none`.
-/

namespace Verif

/-- evaluation/_functions.py:203-210, `_explode_entries`: the columns used for grouping, and the score. -/
structure ResRow (α : Type) where
  dataset : α
  osModule : α
  os : α
  osParams : α
  clfModule : α
  clf : α
  clfParams : α
  score : Option ℚ
deriving DecidableEq

variable {α : Type} [LinearOrder α]

/-- evaluation/_functions.py:241-251: the grouping key, in the order of the columns. -/
def ResRow.key (r : ResRow α) : List α :=
  [r.dataset, r.osModule, r.os, r.clf, r.osParams, r.clfModule, r.clfParams]

/-- `mean` of a pandas column: missing values are skipped, the mean of nothing is missing. Used for evaluation/_functions.py:235-259. -/
def meanSkip (l : List (Option ℚ)) : Option ℚ :=
  if l.filterMap id = [] then none else some ((l.filterMap id).sum / ((l.filterMap id).length : ℚ))

/-- `max` of a pandas column: missing values are skipped. Used for evaluation/_functions.py:176. -/
def maxSkip : List (Option ℚ) → Option ℚ
  | [] => none
  | none :: l => maxSkip l
  | some a :: l => match maxSkip l with
    | none => some a
    | some b => some (max a b)

/-- `a == b` on floats that may be NaN. Used for evaluation/_functions.py:176. -/
def eqNan : Option ℚ → Option ℚ → Bool
  | some a, some b => a == b
  | _, _ => false

/-- pandas `groupby(key)`: groups in ascending order of the key, rows in their original order.
Used for evaluation/_functions.py:213-261 and evaluation/_functions.py:617-657. -/
def groupBy {ρ : Type} (key : ρ → List α) (rows : List ρ) : List (List ρ) :=
  (npUnique (rows.map key)).map (fun k => rows.filter (fun r => key r = k))

/-- evaluation/_functions.py:235-259: one row of `pdf_avg`: the group's key with the mean as its score. -/
def avgRow (g : List (ResRow α)) : Option (ResRow α) :=
  match g with
  | [] => none
  | r :: rs => some { r with score := meanSkip ((r :: rs).map (·.score)) }

/-- evaluation/_functions.py:213-261, `do_parse_results`: `IndexError` for no results at all. -/
def parseResults (rows : List (ResRow α)) : Res (List (ResRow α)) :=
  if rows = [] then throw .indexError else pure ((groupBy ResRow.key rows).filterMap avgRow)

/-- evaluation/_functions.py:632-640: the second grouping key. -/
def ResRow.key2 (r : ResRow α) : List α := [r.dataset, r.os, r.osModule, r.clf, r.clfModule]

/-- evaluation/_functions.py:176,646: `pdf[pdf[col] == pdf[col].max()]`. -/
def maxRows (l : List (ResRow α)) : List (ResRow α) := l.filter (fun r => eqNan r.score (maxSkip (l.map (·.score))))

/-- evaluation/_functions.py:161-200, `_pivot_best_scores`: the first row of the group with the maximal mean; a group
without any valid mean keeps a row with a missing score. -/
def pivotBest (g : List (ResRow α)) : Option (ResRow α) :=
  match maxRows g with
  | r :: _ => some r
  | [] => match g with
    | [] => none
    | r :: _ => some { r with score := none }

/-- evaluation/_functions.py:617-657, `model_selection` up to the instantiation of the winners. `lit` is `literal_eval`
applied to the two printed dictionaries. -/
def modelSelection {β : Type} (lit : α → Res β) (rows : List (ResRow α)) : Res ((α × α × β) × (α × α × β)) := do
  let avg ← parseResults rows
  match maxRows ((groupBy ResRow.key2 avg).filterMap pivotBest) with
  | [] => throw .indexError
  | b :: _ => do
    let po ← lit b.osParams
    let pc ← lit b.clfParams
    pure ((b.osModule, b.os, po), (b.clfModule, b.clf, pc))

end Verif

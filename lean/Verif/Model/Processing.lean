import Verif.Model.Selection
import Verif.Model.Dict

/-!
# Summaries of evaluation results (evaluation/_processing.py)

Names, printed dictionaries and column names are elements of a linearly ordered type `α` (strings in the code), the values of the columns
elements of `β`. A data frame is the list of its columns and the list of its rows.
-/

namespace Verif

/-- A row of the data frame of results, evaluation/_processing.py:40-53, with the record of evaluation/_evaluation.py:150-170. `osStr` and
`clStr` are the printed parameters; `ss` is the entry `ss_params` of the parameters of the oversampler (`none`: no such entry), of which only
`within_simplex_sampling` is used (`some none`: no such entry). -/
structure SumRow (α β : Type) where
  db : α
  fold : Nat
  osModule : α
  os : α
  osParams : β
  osStr : α
  clModule : α
  cl : α
  clParams : β
  clStr : α
  ss : Option (Option α)
  scores : Dict α β
  fields : α → β

/-- A data frame; only the columns that may be asked for are listed. Used for evaluation/_processing.py:71-73 and evaluation/_processing.py:76-98. -/
structure SumFrame (α β : Type) where
  columns : List α
  rows : List (SumRow α β)

variable {α β : Type} [LinearOrder α]

/-- `is_deterministic`, evaluation/_processing.py:56-68. -/
def isDeterministic (r : SumRow α β) : Res (Option α) :=
  match r.ss with
  | none => .ok none
  | some none => .error .keyError
  | some (some w) => .ok (some w)

/-- `_extract_field(pdf, "scores", score)`, evaluation/_processing.py:71-73. -/
def extractScore (f : SumFrame α β) (score : α) : Res (SumFrame α β) := do
  let rows ← f.rows.mapM (fun r => match r.scores.get score with
    | some v => Except.ok { r with fields := Function.update r.fields score v }
    | none => .error .keyError)
  return { columns := if score ∈ f.columns then f.columns else f.columns ++ [score], rows := rows }

/-- `_extract_attributes`, evaluation/_processing.py:76-98: the scores become columns, and the rows get their `deterministic` entry. -/
def extractAttributes (f : SumFrame α β) (scores : List α) : Res (List α × List (SumRow α β × Option α)) := do
  let det ← f.rows.mapM isDeterministic
  let f' ← scores.foldlM extractScore f
  return (f'.columns, f'.rows.zip det)

/-- A row of the summary: the key, the serialized columns and the kept ones.
Used for evaluation/_processing.py:99-120 and evaluation/_processing.py:127-170. -/
structure SumOut (α β : Type) where
  key : List α
  cols : Dict α (List β)
  osParams : β
  clParams : β

/-- `_serialize_data`, evaluation/_processing.py:99-120; `argsort` is the order of `sort_values`. A group is not empty. -/
def serializeData (argsort : List Nat → List Nat) (known columns : List α) (key : List α) (r : SumRow α β) (g : List (SumRow α β)) :
    Res (SumOut α β) := do
  let cols ← columns.foldlM (init := ([] : Dict α (List β))) (fun d c =>
    if c ∈ known then Except.ok (Dict.set d c ((argsort (g.map (·.fold))).filterMap (fun i => (g[i]?).map (·.fields c)))) else .error .keyError)
  return { key := key, cols := cols, osParams := r.osParams, clParams := r.clParams }

/-- The grouping key, evaluation/_processing.py:155-165; the last entry is the `deterministic` one. -/
def SumRow.key (r : SumRow α β) (det : α) : List α := [r.db, r.osStr, r.clStr, r.osModule, r.os, r.clModule, r.cl, det]

/-- `create_summary`, evaluation/_processing.py:127-170. `groupby` drops the rows with a missing entry in the key. `onEmpty`: what pandas does
without any group. -/
def createSummary (argsort : List Nat → List Nat) (onEmpty : Res (List (SumOut α β))) (scores columns : List α) (f : SumFrame α β) :
    Res (List (SumOut α β)) := do
  let ⟨known, rows⟩ ← extractAttributes f scores
  let keyed := rows.filterMap (fun p => p.2.map (fun det => (p.1.key det, p.1)))
  if keyed.isEmpty then onEmpty else
  (groupBy Prod.fst keyed).mapM (fun g => match g with
    | [] => .error .indexError
    | kr :: _ => serializeData argsort known columns kr.1 kr.2 (g.map Prod.snd))

end Verif

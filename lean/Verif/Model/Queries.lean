import Verif.Model.Registry
import Mathlib.Data.List.Sort

/-!
# Queries on the oversamplers, `smote_variants/queries/_queries.py`
-/

namespace Verif

/-- `l[:n]` for any integer `n`. Used for queries/_queries.py:118-139 and queries/_queries.py:497-505. -/
def sliceTo {τ : Type} (l : List τ) (n : Int) : List τ :=
  if 0 ≤ n then l.take n.toNat else l.take (l.length - n.natAbs)

/-- queries/_queries.py:133: `(osampler, runtimes[osampler.__name__])`. -/
def withRuntime {τ : Type} (rt : τ → Option Nat) (o : τ) : Res (τ × Nat) :=
  match rt o with
  | some r => .ok (o, r)
  | none => .error .keyError

/-- queries/_queries.py:118-139, `determine_n_quickest`. `sorted` is stable. -/
def determineNQuickest {τ : Type} (rt : τ → Option Nat) (os : List τ) (n : Int) : Res (List τ) :=
  if n = -1 then .ok os
  else do
    let pairs ← os.mapM (withRuntime rt)
    let sorted := pairs.insertionSort (fun a b => a.2 ≤ b.2)
    .ok ((sliceTo sorted (min n os.length)).map Prod.fst)

/-- The recorded runtime of a class: queries/_runtimes.py has an entry for every class of the table. -/
def OsSpec.rt (s : OsSpec) : Option Nat := some s.runtime

/-- queries/_queries.py:142-253, `get_all_oversamplers`. -/
def getAllOversamplers (n : Int) : Res (List OsSpec) := determineNQuickest OsSpec.rt registry n

/-- `"proportion" in o().get_params()`. Used for queries/_queries.py:256-273 and queries/_queries.py:424-438. -/
def OsSpec.hasProportion (s : OsSpec) : Bool := (s.getKeys.map Prod.fst).contains "proportion"

/-- queries/_queries.py:256-273, `get_proportion_oversamplers`. -/
def getProportionOversamplers (n : Int) : Res (List OsSpec) := do
  determineNQuickest OsSpec.rt ((← getAllOversamplers (-1)).filter OsSpec.hasProportion) n

/-- queries/_queries.py:276-295, `get_metric_learning_oversamplers`. -/
def getMetricLearningOversamplers (n : Int) : Res (List OsSpec) := do
  determineNQuickest OsSpec.rt ((← getAllOversamplers (-1)).filter (fun s => s.categories.contains "metric_learning")) n

/-- queries/_queries.py:424-438, `multiclass_filter`. -/
def multiclassFilter (s : OsSpec) : Bool :=
  !s.categories.contains "changes_majority" && !s.categories.contains "dim_reduction" && s.hasProportion

/-- queries/_queries.py:441-468, `get_multiclass_oversamplers`. -/
def getMulticlassOversamplers (strategy : String) (n : Int) : Res (List OsSpec) := do
  let all ← getAllOversamplers (-1)
  let sel := if strategy = "eq_1_vs_many_successive" ∨ strategy = "equalize_1_vs_many" then all.filter multiclassFilter
    else all
  determineNQuickest OsSpec.rt sel n

/-- The conditions of `get_simplex_sampling_oversamplers`; a list of one stands for a single value.
Used for queries/_queries.py:298-353 and queries/_queries.py:386-419. -/
structure SsQuery where
  within : Option (List String)
  excludeWithin : Option (List String)
  gaussian : Option Bool
  nDim : Option (List Nat)

/-- queries/_queries.py:298-353 and 398-418: all given conditions hold. -/
def SsQuery.accepts (q : SsQuery) (p : SsSpec) : Bool :=
  (match q.within with | some l => l.contains p.within | none => true) &&
  (match q.excludeWithin with | some l => !l.contains p.within | none => true) &&
  (match q.gaussian with | some b => p.gaussian == b | none => true) &&
  (match q.nDim with | some l => l.contains p.nDim | none => true)

/-- queries/_queries.py:386-419: one round of the loop; `none` is `continue` or a failed condition.
`SimplexSamplingMixin.get_params` of an object without its attributes raises `AttributeError`. -/
def SsQuery.step (q : SsQuery) (s : OsSpec) : Res (Option OsSpec) :=
  match s.ss with
  | none => .ok none
  | some p => if p.readable then .ok (if q.accepts p then some s else none) else .error .attributeError

/-- queries/_queries.py:356-421, `get_simplex_sampling_oversamplers`. -/
def getSimplexSamplingOversamplers (q : SsQuery) (n : Int) : Res (List OsSpec) := do
  let all ← getAllOversamplers (-1)
  let res ← all.mapM q.step
  determineNQuickest OsSpec.rt (res.filterMap id) n

/-- The dictionary `cls(**comb).get_params()`, values as bound by the constructor. Used for queries/_queries.py:497-505. -/
def OsSpec.instantiated (s : OsSpec) (c : Dict String GV) : Res (OsSpec × Dict String GV) := do
  s.construct c
  .ok (s, s.getParams (.obj "constant") (s.bound c))

/-- queries/_queries.py:497-505: one round. `shuffle` is `random_state.shuffle`. -/
def paramRound (shuffle : List (Dict String GV) → List (Dict String GV)) (nMax : Int) (s : OsSpec) :
    Res (List (OsSpec × Dict String GV)) :=
  (sliceTo (shuffle s.combinations) (min (s.combinations.length : Int) nMax)).mapM s.instantiated

/-- queries/_queries.py:510: `("smote_variants", r["class_name"], r)`; `KeyError` without `class_name`. -/
def formatResult (r : OsSpec × Dict String GV) : Res (String × Dict String GV) :=
  if r.1.hasClassName then .ok (r.1.name, r.2) else .error .keyError

/-- queries/_queries.py:497-505: the loop; the generator differs from round to round, so each round has its own
shuffle. -/
def paramRounds (nMax : Int) : List OsSpec → (Nat → List (Dict String GV) → List (Dict String GV)) →
    Res (List (OsSpec × Dict String GV))
  | [], _ => .ok []
  | s :: ss, sh => do
    let r ← paramRound (sh 0) nMax s
    let rest ← paramRounds nMax ss (fun i => sh (i + 1))
    .ok (r ++ rest)

/-- queries/_queries.py:480-510, `generate_parameter_combinations`, in its default format. -/
def generateParams (nMax : Int) (classes : List OsSpec) (sh : Nat → List (Dict String GV) → List (Dict String GV)) :
    Res (List (String × Dict String GV)) := do
  let results ← paramRounds nMax classes sh
  results.mapM formatResult

end Verif

import Verif.Model.Smote
import Verif.Model.Polynom
import Verif.Model.Rejection

/-!
# Model of `smote_variants/oversampling/_smote_amsr.py`

The scores of the isolation forest and the generator are parameters.
-/

namespace Verif

/-- `topology`. Used for oversampling/_smote_amsr.py:362-438. -/
inductive AmsrTopology
  | star | bus | mesh

/-- What SMOTE_AMSR calls. `score X r`: `decision_function` of the forest fitted to `X` for the row `r`; `base t m`, `other t m`: the numbers drawn out
of `m` for the `t`-th new row; `u t k`: the number drawn for its coordinate `k`.
Used for oversampling/_smote_amsr.py:119-174 and oversampling/_smote_amsr.py:224-269. -/
structure AmsrEnv where
  score : List Row → Row → ℚ
  base : Nat → Nat → Nat
  other : Nat → Nat → Nat
  u : Nat → Nat → ℚ

/-- A new row from `p` towards `q`, whose scores are `sp` and `sq`: `generate_star_steps_ge`, `generate_star_steps_less` and the lines 156-172,
their copies for the other topologies (oversampling/_smote_amsr.py:64-117, 176-222, 271-315). -/
def amsrPull (maxMin sp sq : ℚ) (p q : Row) (u : Nat → ℚ) : Row :=
  let diff := sq - sp
  if 0 ≤ diff then
    let dGe := if 0 < maxMin then diff / maxMin else diff
    (List.range p.length).map (fun k => p.getD k 0 + (u k * (1 - dGe) + dGe) * (q.getD k 0 - p.getD k 0))
  else
    let dLess := if 0 < maxMin then -diff / maxMin else -diff
    (List.range p.length).map (fun k => p.getD k 0 + u k * (1 - dLess) * (q.getD k 0 - p.getD k 0))

/-- `_star_generator`, oversampling/_smote_amsr.py:119-174. -/
def amsrStar (env : AmsrEnv) (score : Row → ℚ) (d : Nat) (A : List Row) (n : Nat) : Res (List Row) := do
  let mean := meanRow d A
  let scores := A.map score
  let maxMin := max (maxL scores) (score mean) - min (minL scores) (score mean)
  (List.range n).mapM (fun t => do
    let p ← getRow A (env.base t A.length)
    let sp ← getRow scores (env.base t A.length)
    return amsrPull maxMin sp (score mean) p mean (env.u t))

/-- `_bus_generator`, oversampling/_smote_amsr.py:224-269. -/
def amsrBus (env : AmsrEnv) (score : Row → ℚ) (A : List Row) (n : Nat) : Res (List Row) := do
  let scores := A.map score
  let maxMin := maxL scores - minL scores
  (List.range n).mapM (fun t => do
    let p ← getRow A.tail (env.base t (A.length - 1))
    let q ← getRow A.dropLast (env.base t (A.length - 1))
    let sp ← getRow scores.tail (env.base t (A.length - 1))
    let sq ← getRow scores.dropLast (env.base t (A.length - 1))
    return amsrPull maxMin sp sq p q (env.u t))

/-- `_mesh_generator`, oversampling/_smote_amsr.py:317-360. -/
def amsrMesh (env : AmsrEnv) (score : Row → ℚ) (A : List Row) (n : Nat) : Res (List Row) := do
  let scores := A.map score
  let maxMin := maxL scores - minL scores
  (List.range n).mapM (fun t => do
    let q ← getRow A (env.base t A.length)
    let p ← getRow A (env.other t A.length)
    let sq ← getRow scores (env.base t A.length)
    let sp ← getRow scores (env.other t A.length)
    return amsrPull maxMin sp sq p q (env.u t))

/-- `SMOTE_AMSR.sampling_algorithm`, oversampling/_smote_amsr.py:362-438. -/
def amsrAlg (env : AmsrEnv) (proportion : ℚ) (top : AmsrTopology) (d : Nat) (s : Stats) (X : List Row) (y : List Int) :
    Res (List Row × List Int) := do
  let A := selectLabel X y s.minLabel
  let n ← detNToSample (.num proportion) (s.count s.majLabel) (s.count s.minLabel)
  if n = 0 then return (X, y)
  let new ← match top with
    | .star => amsrStar env (env.score X) d A n
    | .bus => amsrBus env (env.score X) A n
    | .mesh => amsrMesh env (env.score X) A n
  return (X ++ new, y ++ List.replicate new.length s.minLabel)

end Verif

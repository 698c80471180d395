import Verif.Model.Amsco
import Verif.Model.Dbsmote
import Verif.Model.Frst
import Verif.Model.Polynom
import Verif.Model.Metrics

/-!
# Model of `smote_variants/oversampling/_ipade_id.py`

The decision tree that gives the leaves, the classifier with its scores, and the generator are parameters.
-/

namespace Verif

/-- What IPADE_ID calls. `leaf X y`: the leaf of every row, `dt_classifier_obj.fit(X, y)` and `apply(X)`; `auc G yG V yV`: the area under the ROC
curve on `V`, `yV` of the classifier trained on `G`, `yG` (`none`: NaN), and `acc` its accuracy; `three r it i m`: the `i`-th choice of three of
`m` elements in iteration `it` of the `r`-th optimization, `u r it i` the number drawn after it; `one r m`: the choice in `generate_trial`.
Used for oversampling/_ipade_id.py:164-173 and oversampling/_ipade_id.py:231-249. -/
structure IpEnv where
  leaf : List Row → List Int → List Nat
  auc : List Row → List Int → List Row → List Int → Res (Option ℚ)
  acc : List Row → List Int → List Row → List Int → Res ℚ
  three : Nat → Nat → Nat → Nat → Nat × Nat × Nat
  u : Nat → Nat → Nat → ℚ
  one : Nat → Nat → Nat

/-- Parameters, oversampling/_ipade_id.py:76-122. `OT` is compared with a counter only, so it is taken to be a natural number. `fuel` bounds the
`while` loop of the model. -/
structure IpParams where
  F : ℚ
  G : ℚ
  OT : Nat
  maxIt : Nat
  fuel : Nat

/-- The scaled data and the labels of the classes. Used for oversampling/_ipade_id.py:536-539 and oversampling/_ipade_id.py:164-173. -/
structure IpCtx where
  d : Nat
  X : List Row
  y : List Int
  minLabel : Int
  majLabel : Int

/-- `np.where(y == l)[0]`. Used for oversampling/_ipade_id.py:536-539 and oversampling/_ipade_id.py:460-489. -/
def ipWhere (y : List Int) (l : Int) : List Nat := npWhere (y.map (fun v => decide (v = l)))

/-- `indices[l]`, oversampling/_ipade_id.py:536-539. -/
def ipIndices (c : IpCtx) (l : Int) : Res (List Nat) :=
  if l = c.minLabel then .ok (ipWhere c.y c.minLabel)
  else if l = c.majLabel then .ok (ipWhere c.y c.majLabel)
  else .error .keyError

/-- `update_element` and the clipping, oversampling/_ipade_id.py:164-173 and 215. -/
def ipElement (env : IpEnv) (par : IpParams) (c : IpCtx) (r it i : Nat) (l : Int) (g : Row) : Res Row := do
  let ind ← ipIndices c l
  if ind.length < 3 then throw .valueError
  let t := env.three r it i ind.length
  let p ← getRow c.X (← getRow ind t.1)
  let q ← getRow c.X (← getRow ind t.2.1)
  let w ← getRow c.X (← getRow ind t.2.2)
  return (List.range c.d).map (fun k => npClip (g.getD k 0 + par.G * env.u r it i * (p.getD k 0 - g.getD k 0) + par.F * (q.getD k 0 - w.getD k 0)) 0 1)

/-- The rows `X[val]`. Used for oversampling/_ipade_id.py:231-249 and oversampling/_ipade_id.py:325-336. -/
def ipRows (c : IpCtx) (val : List Nat) : List Row := val.map (fun i => c.X.getD i [])
/-- The labels `y[val]`. Used for oversampling/_ipade_id.py:231-249 and oversampling/_ipade_id.py:279-300. -/
def ipLabels (c : IpCtx) (val : List Nat) : List Int := val.map (fun i => c.y.getD i 0)

/-- `evaluate_ID`, oversampling/_ipade_id.py:231-249. -/
def ipAuc (env : IpEnv) (c : IpCtx) (G : List Row) (yG : List Int) (val : List Nat) : Res (Option ℚ) :=
  if c.minLabel ∈ yG then env.auc G yG (ipRows c val) (ipLabels c val) else .error .indexError

/-- One iteration of `DE_optimization`, oversampling/_ipade_id.py:207-227. -/
def ipDeStep (env : IpEnv) (par : IpParams) (c : IpCtx) (r : Nat) (yG : List Int) (val : List Nat) (st : List Row × Option ℚ) (it : Nat) :
    Res (List Row × Option ℚ) := do
  let hat ← (List.zip st.1 yG).zipIdx.mapM (fun e => ipElement env par c r it e.2 e.1.2 e.1.1)
  let a ← ipAuc env c hat yG val
  return if gtNan a st.2 then (hat, a) else st

/-- `DE_optimization`, oversampling/_ipade_id.py:175-229. -/
def ipDe (env : IpEnv) (par : IpParams) (c : IpCtx) (r : Nat) (G : List Row) (yG : List Int) (val : List Nat) : Res (List Row) := do
  let a ← ipAuc env c G yG val
  let st ← (List.range par.maxIt).foldlM (ipDeStep env par c r yG val) (G, a)
  return st.1

/-- `configuration_checks`, oversampling/_ipade_id.py:279-300. -/
def ipCheck (c : IpCtx) (val : List Nat) (yG : List Int) : Res Unit :=
  if (npUnique (ipLabels c val)).length = 1 then .error .valueError
  else if (npUnique yG).length = 1 then .error .valueError
  else .ok ()

/-- The rows in the leaf `l`. Used for oversampling/_ipade_id.py:325-336 and oversampling/_ipade_id.py:331-332. -/
def ipLeaf (leaf : List Nat) (l : Nat) : List Nat := npWhere (leaf.map (fun v => decide (v = l)))

/-- The prototypes: the mean of every leaf and the most frequent label in it, oversampling/_ipade_id.py:325-336. -/
def ipInit (c : IpCtx) (leaf : List Nat) : Res (List (Row × Int)) :=
  (npUnique leaf).mapM (fun l => do
    let m ← pyMode (ipLabels c (ipLeaf leaf l))
    return (meanRow c.d (ipRows c (ipLeaf leaf l)), m))

/-- The rows not alone in their leaf, oversampling/_ipade_id.py:331-332 and 339. -/
def ipValidation (leaf : List Nat) : List Nat := npWhere (leaf.map (fun l => decide ((ipLeaf leaf l).length ≠ 1)))

/-- `phase_1`, oversampling/_ipade_id.py:302-364: the score, the validation set, the prototypes. -/
def ipPhase1 (env : IpEnv) (par : IpParams) (c : IpCtx) : Res (Option ℚ × List Nat × List Row × List Int) := do
  let leaf := env.leaf c.X c.y
  let gs ← ipInit c leaf
  let val := ipValidation leaf
  ipCheck c val (gs.map Prod.snd)
  let G ← ipDe env par c 0 (gs.map Prod.fst) (gs.map Prod.snd) val
  let a ← ipAuc env c G (gs.map Prod.snd) val
  return (a, val, G, gs.map Prod.snd)

/-- The state of `phase_2`: the prototypes, their score, the validation set, which classes are optimizable, `number_of_optimizations` of the minority
label (that of the majority label is never anything but zero), the last trial and its validation set.
Used for oversampling/_ipade_id.py:366-399 and oversampling/_ipade_id.py:460-489. -/
structure IpState where
  G : List Row
  auc : Option ℚ
  val : List Nat
  regMin : Bool
  regMaj : Bool
  nMin : Nat
  trial : List Row
  trialVal : List Nat

/-- The accuracy in one class, oversampling/_ipade_id.py:387-394. -/
def ipAcc (env : IpEnv) (c : IpCtx) (G : List Row) (yG : List Int) (val : List Nat) (l : Int) : Res ℚ :=
  let v := val.filter (fun i => decide (c.y.getD i 0 = l))
  env.acc G yG (ipRows c v) (ipLabels c v)

/-- `determine_target_class`, oversampling/_ipade_id.py:366-399: whether it is the minority. `target_class` is not bound if no class is optimizable. -/
def ipTarget (env : IpEnv) (c : IpCtx) (yG : List Int) (st : IpState) : Res Bool :=
  match st.regMin, st.regMaj with
  | true, true => do
    let a ← ipAcc env c st.G yG st.val c.minLabel
    let b ← ipAcc env c st.G yG st.val c.majLabel
    return ! decide (b < a)
  | true, false => do
    let _ ← ipAcc env c st.G yG st.val c.minLabel
    return true
  | false, true => do
    let _ ← ipAcc env c st.G yG st.val c.majLabel
    return false
  | false, false => .error .nameError

/-- The trial, oversampling/_ipade_id.py:460-489: the rows and the validation set it is scored on. The row added by `generate_trial` (lines 418-419) is in
a `GS_trial` that is overwritten by the optimization of `GS`, so only its removal from the validation set (line 423) is left. -/
def ipTrial (env : IpEnv) (par : IpParams) (c : IpCtx) (yG : List Int) (r : Nat) (isMin : Bool) (st : IpState) : Res (List Row × List Nat) :=
  if isMin = true ∧ 0 < st.nMin then do
    let G ← ipDe env par c r st.trial yG st.val
    return (G, st.trialVal)
  else do
    let ind := ipWhere c.y (if isMin then c.minLabel else c.majLabel)
    let i ← getRow ind (env.one r ind.length)
    let val := st.val.filter (fun j => decide (j ≠ i))
    let G ← ipDe env par c r st.G yG val
    return (G, val)

/-- One iteration of the loop of `phase_2`, oversampling/_ipade_id.py:452-518. -/
def ipStep (env : IpEnv) (par : IpParams) (c : IpCtx) (yG : List Int) (r : Nat) (st : IpState) : Res IpState := do
  let isMin ← ipTarget env c yG st
  let t ← ipTrial env par c yG r isMin st
  let a ← ipAuc env c t.1 yG t.2
  if gtNan a st.auc then
    ipCheck c t.2 yG
    return { st with G := t.1, auc := a, val := t.2, nMin := if isMin then 0 else st.nMin, trial := t.1, trialVal := t.2 }
  else if isMin = true ∧ st.nMin < par.OT then return { st with nMin := st.nMin + 1, trial := t.1, trialVal := t.2 }
  else if isMin then return { st with regMin := false, trial := t.1, trialVal := t.2 }
  else return { st with regMaj := false, trial := t.1, trialVal := t.2 }

/-- `AUC < 1.0`, false for NaN, and one of the classes is optimizable, oversampling/_ipade_id.py:448-451. -/
def ipGoes (st : IpState) : Bool := gtNan (some 1) st.auc && (st.regMin || st.regMaj)

/-- The loop of `phase_2`, oversampling/_ipade_id.py:448-518; `recursionError` stands for running out of fuel. -/
def ipLoop (env : IpEnv) (par : IpParams) (c : IpCtx) (yG : List Int) : Nat → Nat → IpState → Res IpState
  | 0, _, st => if ipGoes st then .error .recursionError else .ok st
  | fuel + 1, r, st =>
    if ipGoes st then do
      let st' ← ipStep env par c yG r st
      ipLoop env par c yG fuel (r + 1) st'
    else .ok st

/-- Both phases, oversampling/_ipade_id.py:543-554. -/
def ipSearch (env : IpEnv) (par : IpParams) (c : IpCtx) : Res (List Row × List Int) := do
  let p ← ipPhase1 env par c
  let st ← ipLoop env par c p.2.2.2 par.fuel 1
    { G := p.2.2.1, auc := p.1, val := p.2.1, regMin := true, regMaj := true, nMin := 0, trial := [], trialVal := [] }
  return (st.G, p.2.2.2)

/-- The minima of the columns. Used for oversampling/_ipade_id.py:522-558. -/
def ipLow (d : Nat) (X : List Row) : Row := (List.range d).map (frstMin X)
/-- The ranges of the columns. Used for oversampling/_ipade_id.py:522-558. -/
def ipSpan (d : Nat) (X : List Row) : Row := (List.range d).map (frstRange X)

/-- `IPADE_ID.sampling_algorithm`, oversampling/_ipade_id.py:522-558. `X` is the scaled data when the copies are made. -/
def ipadeAlg (env : IpEnv) (par : IpParams) (d : Nat) (s : Stats) (X : List Row) (y : List Int) : Res (List Row × List Int) :=
  let Xs := X.map (scaleRow (ipLow d X) (ipSpan d X))
  match ipSearch env par ⟨d, Xs, y, s.minLabel, s.majLabel⟩ with
  | .ok r => .ok (r.1.map (unscaleRow (ipLow d X) (ipSpan d X)), r.2)
  | .error .valueError => .ok (Xs, y)
  | .error e => .error e

/-- `checks={"min_n_min": 4}`, oversampling/_ipade_id.py:103. -/
def ipadeChecks : List Check := [.minNMin 4]

end Verif

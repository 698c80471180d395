import Verif.Model.Smote
import Verif.Model.Dbsmote
import Verif.Model.Checks
import Verif.Model.Interp
import Mathlib.Data.List.Sort

/-!
# DSRBF

A network of radial basis functions is the list of its neurons. What a neuron is, and how it is cloned or changed, is a parameter, and so
is the loss of a network; the sizes of the networks, the population and the data they are evaluated on are modelled. Every call of the
generator has a key, so that any two calls may answer differently. `drs r` are the draws of the `r`-th run of SMOTE.
-/

namespace Verif

/-- Neurons, losses and the generator. `recentre X net i`: the `i`-th neuron after `improve_centers`, oversampling/_dsrbf.py:276-300;
`rnd key m`: `randint(m)`; `coin key`: `random_sample()`. -/
structure RbfEnv (ν : Type) where
  node : List Nat → List Row → ν
  clone : List Nat → ν → ν
  mutate : List Nat → ν → ν
  addConn : List Nat → ν → ν
  dropConn : List Nat → ν → ν
  recentre : List Row → List ν → Nat → ν → ν
  eval : List ν → List Row → List Int → XF
  rnd : List Nat → Nat → Nat
  coin : List Nat → ℚ

/-- oversampling/_dsrbf.py:486-510. -/
structure RbfParams where
  smote : SmoteParams
  mMin : Nat
  mMax : Nat
  nPop : Nat
  nInit : Nat
  nIter : Nat
  nEpoch : Nat

/-- A member of the population, `[rbf, X, y, loss]`; `posInf` is a loss that is not known yet.
Used for oversampling/_dsrbf.py:649-651 and oversampling/_dsrbf.py:624-630. -/
structure RbfPop (ν : Type) where
  net : List ν
  X : List Row
  y : List Int
  loss : XF

variable {ν : Type}

/-- `RBF.clone`, oversampling/_dsrbf.py:230-244. -/
def rbfClone (env : RbfEnv ν) (key : List Nat) (net : List ν) : List ν := net.zipIdx.map (fun p => env.clone (p.2 :: key) p.1)

/-- `improve_centers`, oversampling/_dsrbf.py:276-300. -/
def rbfImprove (env : RbfEnv ν) (X : List Row) (net : List ν) : List ν := net.zipIdx.map (fun p => env.recentre X net p.2 p.1)

/-- The networks of the start, oversampling/_dsrbf.py:222-228 and 536-558. -/
def rbfInit (env : RbfEnv ν) (mMin mMax : Nat) (X : List Row) (i : Nat) : List ν :=
  (List.range (mMin + env.rnd [i] (mMax - mMin))).map (fun j => env.node [j, i] X)

/-- `mutation`, oversampling/_dsrbf.py:315-325. -/
def rbfMutation (env : RbfEnv ν) (key : List Nat) (net : List ν) : List ν :=
  (rbfClone env key net).zipIdx.map (fun p => env.mutate (p.2 :: key) p.1)

/-- `structural_mutation`, oversampling/_dsrbf.py:327-347. -/
def rbfStructural (env : RbfEnv ν) (mMin mMax : Nat) (key : List Nat) (X : List Row) (net : List ν) : List ν :=
  let c := rbfClone env key net
  if env.coin key < 1 / 2 then
    if c.length < mMax then c ++ [env.node key X]
    else if mMin < c.length then c.eraseIdx (env.rnd key c.length) else c
  else (c.modify (env.rnd (0 :: key) c.length) (env.dropConn key)).modify (env.rnd (1 :: key) c.length) (env.addConn key)

/-- `while len(new_rbf.neurons) > m_max`, oversampling/_dsrbf.py:372-374; every turn removes a neuron. -/
def rbfShrink (env : RbfEnv ν) (mMax : Nat) (key : List Nat) : Nat → List ν → List ν
  | 0, net => net
  | f + 1, net => if mMax < net.length then rbfShrink env mMax key f (net.eraseIdx (env.rnd (f :: key) net.length)) else net

/-- `choice(neurons, randint(1, len(neurons)))`, oversampling/_dsrbf.py:363-367: a `ValueError` for a single neuron. -/
def rbfSome (env : RbfEnv ν) (key : List Nat) (net : List ν) : Res (List ν) :=
  if net.length ≤ 1 then .error .valueError
  else .ok ((List.range (1 + env.rnd key (net.length - 1))).filterMap (fun j => net[env.rnd (j :: key) net.length]?))

/-- `recombine`, oversampling/_dsrbf.py:349-381. -/
def rbfRecombine (env : RbfEnv ν) (mMax : Nat) (key : List Nat) (net other : List ν) : Res (List ν) :=
  let c := rbfClone env key net
  if env.coin key < 1 / 2 then do
    let n0 ← rbfSome env (0 :: key) c
    let n1 ← rbfSome env (1 :: key) other
    let new := rbfClone env (2 :: key) n0 ++ rbfClone env (3 :: key) n1
    return rbfShrink env mMax key new.length new
  else .ok (c.zipIdx.map (fun p =>
    if env.coin (p.2 :: key) < 1 / 5 then
      match other[env.rnd (p.2 :: key) other.length]? with
      | some n => env.clone (p.2 :: 1 :: key) n
      | none => p.1
    else p.1))

/-- `if pop[3] == np.inf: pop[3] = evaluate`, oversampling/_dsrbf.py:649-651 and 681-683. -/
def rbfEvaluate (env : RbfEnv ν) (p : RbfPop ν) : RbfPop ν :=
  if p.loss = .posInf then { p with loss := env.eval p.net p.X p.y } else p

/-- `sorted(population, key=loss)`, oversampling/_dsrbf.py:624-630, 654 and 686. -/
def rbfSort (pop : List (RbfPop ν)) : List (RbfPop ν) := pop.insertionSort (fun p q => q.loss.lt p.loss = false)

/-- Mutation and recombination, oversampling/_dsrbf.py:560-576 and 657-668. -/
def rbfBreed (env : RbfEnv ν) (par : RbfParams) (mMax it : Nat) (pop : List (RbfPop ν)) : Res (List (RbfPop ν)) := do
  let p1 := pop ++ (pop.take (par.nPop / 10)).zipIdx.map (fun q => { q.1 with net := rbfMutation env [q.2, it, 1] q.1.net, loss := .posInf })
  let p2 := p1 ++ (p1.take ((9 * par.nPop - 10) / 10)).zipIdx.map (fun q =>
    { q.1 with net := rbfStructural env par.mMin mMax [q.2, it, 2] q.1.X q.1.net, loss := .posInf })
  let best := p2.take (par.nPop / 10)
  let new ← best.zipIdx.mapM (fun q => do
    let other := (best[env.rnd [q.2, it, 3] best.length]?).getD q.1
    let net ← rbfRecombine env mMax [q.2, it, 3] q.1.net other.net
    return { q.1 with net := net, loss := .posInf })
  return p2 ++ new

/-- One iteration, oversampling/_dsrbf.py:638-678: the number of runs of SMOTE so far and the population. -/
def rbfIter (env : RbfEnv ν) (par : RbfParams) (smote : Nat → Res (List Row × List Int)) (mMax it : Nat) (st : Nat × List (RbfPop ν)) :
    Res (Nat × List (RbfPop ν)) := do
  let pop ← rbfBreed env par mMax it ((rbfSort (st.2.map (rbfEvaluate env))).take par.nPop)
  let epochLen := par.nIter / par.nEpoch
  if epochLen = 0 then throw .zeroDivision
  if it % epochLen = 0 then
    let r ← smote (st.1 + 1)
    return (st.1 + 1, pop ++ pop.zipIdx.map (fun q =>
      { net := rbfImprove env r.1 (rbfClone env [q.2, it, 4] q.1.net), X := r.1, y := r.2, loss := .posInf }))
  else return (st.1, pop)

/-- The loop, oversampling/_dsrbf.py:638-678, for the `m` iterations from `it` on. -/
def rbfLoop (env : RbfEnv ν) (par : RbfParams) (smote : Nat → Res (List Row × List Int)) (mMax : Nat) :
    Nat → Nat → Nat × List (RbfPop ν) → Res (Nat × List (RbfPop ν))
  | 0, _, st => .ok st
  | m + 1, it, st => do
    let st' ← rbfIter env par smote mMax it st
    rbfLoop env par smote mMax m (it + 1) st'

/-- `execute_optimization`, oversampling/_dsrbf.py:578-688. -/
def rbfSearch (env : RbfEnv ν) (par : RbfParams) (smote : Nat → Res (List Row × List Int)) (mMax : Nat) : Res (RbfPop ν) := do
  let r ← smote 0
  let pop := (List.range par.nInit).map (fun i =>
    let net := rbfInit env par.mMin mMax r.1 i
    ({ net := net, X := r.1, y := r.2, loss := env.eval net r.1 r.2 } : RbfPop ν))
  let pop := ((rbfSort pop).take par.nPop).map (fun p => { p with net := rbfImprove env p.X p.net })
  let st ← rbfLoop env par smote mMax par.nIter 0 (0, pop)
  match (rbfSort (st.2.map (rbfEvaluate env))).take par.nPop with
  | [] => .error .indexError
  | p :: _ => .ok p

/-- `DSRBF.sampling_algorithm`, oversampling/_dsrbf.py:690-727. -/
def dsrbfAlg (env : RbfEnv ν) (par : RbfParams) (fitScaler : List Row → Row × Row) (vol : List Row → ℚ) (drs : Nat → Draws) (d : Nat)
    (knn : Nat → List Row → List (List Nat)) (s : Stats) (X : List Row) (y : List Int) : Res (List Row × List Int) := do
  let n ← detNToSample (.num par.smote.proportion) (s.count s.majLabel) (s.count s.minLabel)
  if n = 0 then return (X, y)
  let mMax := min X.length par.mMax
  if mMax ≤ par.mMin ∨ X.length < par.mMin + 1 then return (X, y)
  let sc := fitScaler X
  let Z := X.map (scaleRow sc.1 sc.2)
  let best ← rbfSearch env par (fun r => smoteSample par.smote vol (drs r) d knn Z y) mMax
  return (best.X.map (unscaleRow sc.1 sc.2), best.y)

end Verif

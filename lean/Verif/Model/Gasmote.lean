import Verif.Model.Smote
import Mathlib.Data.List.Sort

/-!
# Model of `smote_variants/oversampling/_gasmote.py`

The decision tree, the square root, the power of a drawn number, the neighbour searcher and the generator are parameters.
-/

namespace Verif

/-- What GASMOTE calls. `predict Xtrain ytrain Xtest`: the labels given by the tree; `dr t i`: the draws for the `i`-th minority row in the
`t`-th evaluation (the last one generates the returned rows); `init j i` = `randint(maxn, size)`; `pick g t`: the `t`-th `randint(n_pop)` of
the generation `g`; `cut g j r m` = `randint(m)` in round `r` of the `j`-th crossover; `gate g j`, `rand g j i`, `coin g j i`: the draws of
the `j`-th mutation (lines 256, 258, 260). Used for oversampling/_gasmote.py:361-396. -/
structure GaEnv where
  knn : Nat → List Row → List (List Nat)
  predict : List Row → List Int → List Row → Res (List Int)
  sqrt : ℚ → ℚ
  pow : ℚ → ℚ → ℚ
  dr : Nat → Nat → Draws
  init : Nat → Nat → Nat
  pick : Nat → Nat → Nat
  cut : Nat → Nat → Nat → Nat → Nat
  gate : Nat → Nat → ℚ
  rand : Nat → Nat → Nat → ℚ
  coin : Nat → Nat → Nat → Bool

/-- Parameters of `GASMOTE` (oversampling/_gasmote.py:53-120). `popl3` is not checked there; a negative value acts as 0. -/
structure GaParams where
  nNeighbors : Nat
  ss : SSParams
  maxn : Nat
  nPop : Nat
  popl3 : Nat
  pm : ℚ
  pr : ℚ
  ge : Nat

/-- What does not change during the call: parameters, volume, dimension, `X_min`, `ind`, its width, the data, the labels of the classes.
Used for oversampling/_gasmote.py:143-165 and oversampling/_gasmote.py:188-225. -/
structure GaCtx where
  env : GaEnv
  par : GaParams
  vol : List Row → ℚ
  d : Nat
  Xmin : List Row
  ind : List (List Nat)
  k : Nat
  X : List Row
  y : List Int
  a : Int
  b : Int

/-- `samples_from_conf`, oversampling/_gasmote.py:143-165. -/
def gaSamples (c : GaCtx) (dr : Nat → Draws) (conf : List Nat) : Res (List Row) := do
  let parts ← conf.zipIdx.mapM (fun p => do
    let x ← getRow c.Xmin p.2
    let row ← getRow c.ind p.2
    sampleSimplex c.par.ss c.vol (dr p.2) c.d [x] [row] c.k p.1 { Xv := some c.Xmin })
  return parts.flatten

/-- The sizes of the folds of `KFold(k)` for `n` rows (scikit-learn): the first `n % k` folds have one row more.
Used for oversampling/_gasmote.py:188-225. -/
def gaFoldSizes (n k : Nat) : List Nat := (List.range k).map (fun i => n / k + if i < n % k then 1 else 0)

/-- The loop over the folds, oversampling/_gasmote.py:216-223, from the row `i` on: the predictions and the labels of the test rows. -/
def gaCross (predict : List Row → List Int → List Row → Res (List Int)) (X : List Row) (y : List Int) :
    List Nat → Nat → Res (List Int × List Int)
  | [], _ => .ok ([], [])
  | s :: sizes, i => do
    let p ← predict (X.take i ++ X.drop (i + s)) (y.take i ++ y.drop (i + s)) ((X.drop i).take s)
    let rest ← gaCross predict X y sizes (i + s)
    return (p ++ rest.1, (y.drop i).take s ++ rest.2)

/-- `calculate_score`, oversampling/_gasmote.py:167-186; a division by zero gives NaN. -/
def gaScore (sqrt : ℚ → ℚ) (a b : Int) (tests preds : List Int) : Res ℚ :=
  let z := tests.zip preds
  let tp := (z.filter (fun p => decide (p.1 = a) && decide (p.1 = p.2))).length
  let tn := (z.filter (fun p => decide (p.1 = b) && decide (p.1 = p.2))).length
  let fp := (z.filter (fun p => decide (p.1 = b) && decide (p.1 ≠ p.2))).length
  let fn := (z.filter (fun p => decide (p.1 = a) && decide (p.1 ≠ p.2))).length
  if tp + fn = 0 ∨ fp + tn = 0 then .error .nan
  else .ok (sqrt ((tp : ℚ) / ((tp + fn : Nat) : ℚ) * ((tn : ℚ) / ((fp + tn : Nat) : ℚ))))

/-- `fitness`, oversampling/_gasmote.py:188-225, as the `t`-th evaluation. `KFold` needs at least two folds and as many rows as folds. -/
def gaFitness (c : GaCtx) (t : Nat) (conf : List Nat) : Res ℚ := do
  let samples ← gaSamples c (c.env.dr t) conf
  let Xn := c.X ++ samples
  let yn := c.y ++ List.replicate samples.length c.a
  let k := min c.X.length 5
  if k ≤ 1 ∨ Xn.length < k then throw .valueError
  let r ← gaCross c.env.predict Xn yn (gaFoldSizes Xn.length k) 0
  gaScore c.env.sqrt c.a c.b r.2 r.1

/-- `crossover`, oversampling/_gasmote.py:227-242: the rounds `cuts`. The second line of the loop uses the new `conf_a`. -/
def gaCrossover : List Nat → List Nat → List Nat → List Nat × List Nat
  | [], ca, cb => (ca, cb)
  | k :: cuts, ca, cb =>
    let ca' := ca.take k ++ cb.drop k
    let cb' := cb.take k ++ ca'.drop k
    gaCrossover cuts ca' cb'

/-- `mutation`, oversampling/_gasmote.py:244-265, the `j`-th one of the generation `g`. -/
def gaMutation (c : GaCtx) (g j : Nat) (conf : List Nat) : List Nat :=
  if c.par.pm ≤ c.env.gate g j then
    conf.zipIdx.map (fun p =>
      let r := c.env.pow (c.env.rand g j p.2) ((1 - (g : ℚ) / c.par.ge) ^ 3)
      if c.env.coin g j p.2 then ⌊(p.1 : ℚ) + ((c.par.maxn : ℚ) - p.1) * r⌋.toNat
      else ⌊(p.1 : ℚ) - (p.1 : ℚ) * r⌋.toNat)
  else conf

/-- `sorted(population, key=lambda x: -x[1])` (stable). Used for oversampling/_gasmote.py:303-353 and oversampling/_gasmote.py:280-359. -/
def gaSort (pop : List (List Nat × ℚ)) : List (List Nat × ℚ) := pop.insertionSort (fun p q => q.2 ≤ p.2)

/-- A population with the number of evaluations made so far. Used for oversampling/_gasmote.py:314-336 and oversampling/_gasmote.py:340-351. -/
abbrev GaState := List (List Nat × ℚ) × Nat

/-- One crossover with its two evaluations, oversampling/_gasmote.py:314-336. -/
def gaCrossStep (c : GaCtx) (g : Nat) (st : GaState) (j : Nat) : Res GaState := do
  let p0 ← getRow st.1 (c.env.pick g (2 * j))
  let p1 ← getRow st.1 (c.env.pick g (2 * j + 1))
  let r := gaCrossover ((List.range c.par.popl3).map (fun r => c.env.cut g j r p0.1.length)) p0.1 p1.1
  let fa ← gaFitness c st.2 r.1
  let fb ← gaFitness c (st.2 + 1) r.2
  return (st.1 ++ [(r.1, fa), (r.2, fb)], st.2 + 2)

/-- One mutation with its evaluation, oversampling/_gasmote.py:340-351. -/
def gaMutStep (c : GaCtx) (g : Nat) (st : GaState) (j : Nat) : Res GaState := do
  let p0 ← getRow st.1 (c.env.pick g (2 * (c.par.nPop / 2) + j))
  let ca := gaMutation c g j p0.1
  let fa ← gaFitness c st.2 ca
  return (st.1 ++ [(ca, fa)], st.2 + 1)

/-- `int(n_pop * pr)`, oversampling/_gasmote.py:306. -/
def gaKeep (par : GaParams) : Nat := ⌊(par.nPop : ℚ) * par.pr⌋.toNat

/-- One generation, oversampling/_gasmote.py:303-353. -/
def gaGeneration (c : GaCtx) (st : GaState) (g : Nat) : Res GaState := do
  let pop := gaSort st.1
  let kept := pop.take (gaKeep c.par) ++ pop.take (c.par.nPop - gaKeep c.par)
  let st ← (List.range (c.par.nPop / 2)).foldlM (gaCrossStep c g) (kept, st.2)
  (List.range (c.par.nPop / 2)).foldlM (gaMutStep c g) st

/-- `genetic_algorithm`, oversampling/_gasmote.py:280-359: the configuration and the number of evaluations. -/
def gaSearch (c : GaCtx) : Res (List Nat × Nat) := do
  let pop ← (List.range c.par.nPop).mapM (fun j => do
    let conf := (List.range c.Xmin.length).map (c.env.init j)
    let f ← gaFitness c j conf
    return (conf, f))
  let st ← (List.range c.par.ge).foldlM (gaGeneration c) (pop, c.par.nPop)
  match gaSort st.1 with
  | [] => throw .indexError
  | best :: _ => return (best.1, st.2)

/-- `GASMOTE.sampling_algorithm`, oversampling/_gasmote.py:361-396. -/
def gaAlg (env : GaEnv) (par : GaParams) (vol : List Row → ℚ) (d : Nat) (s : Stats) (X : List Row) (y : List Int) :
    Res (List Row × List Int) := do
  let Xmin := selectLabel X y s.minLabel
  let k := min (par.nNeighbors + 1) Xmin.length
  let c : GaCtx := ⟨env, par, vol, d, Xmin, env.knn k Xmin, k, X, y, s.minLabel, s.majLabel⟩
  let r ← gaSearch c
  let samples ← gaSamples c (env.dr r.2) r.1
  return (X ++ samples, y ++ List.replicate samples.length s.minLabel)

end Verif

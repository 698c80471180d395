import Verif.Model.Smote
import Verif.Model.Smotewb
import Verif.Model.Esmote

/-!
# Random number generators and who draws from them

`RandomStateMixin` of `smote_variants/base/_base.py`, the draws of `SMOTE` in the order of the code, and the three oversamplers that use the
generator of the module `np.random` although they have a seed: `E_SMOTE`, `SMOTEWB`, `DEAGO`.
-/

namespace Verif

/-- A generator as numpy has it: states, the state made from a seed, one uniform number of `[0, 1)`, one normal number, one integer below a
bound. Used for base/_base.py:369-391. -/
structure RngLib where
  State : Type
  seed : Nat → State
  uniform : State → ℚ × State
  normal : State → ℚ × State
  below : Nat → State → Nat × State

/-- The generator of the module `np.random` and the `RandomState` objects, by number. Used for base/_base.py:369-391. -/
structure RngWorld (R : RngLib) where
  glob : R.State
  objects : List R.State

/-- What can be passed as `random_state`: `None`, an integer, a `RandomState` object, the module `np.random`, anything else.
Used for base/_base.py:369-391 and oversampling/_deago.py:270-271. -/
inductive RsArg
  | none
  | int (n : Int)
  | object (i : Nat)
  | module
  | other
deriving DecidableEq

/-- The attribute `random_state` of an oversampler: the module or an object. Used for base/_base.py:369-391. -/
inductive RngRef
  | glob
  | object (i : Nat)
deriving DecidableEq

/-- `RandomStateMixin.set_random_state`, base/_base.py:369-391. A new `RandomState` object for an integer; numpy accepts seeds from zero below
`2**32`. -/
def newGenerator (R : RngLib) (v : RsArg) (w : RngWorld R) : Res (RngRef × RngWorld R) :=
  match v with
  | .none => .ok (.glob, w)
  | .int n => if 0 ≤ n ∧ n < 2 ^ 32 then .ok (.object w.objects.length, { w with objects := w.objects ++ [R.seed n.toNat] })
    else .error .valueError
  | .object i => if i < w.objects.length then .ok (.object i, w) else .error .nameError
  | .module => .ok (.glob, w)
  | .other => .error .valueError

/-- Where a draw comes from: `self.random_state` or `np.random`. Used for base/_simplexsampling.py:470-532 and base/_simplexsampling.py:704-721. -/
inductive RngSrc
  | own
  | glob
deriving DecidableEq

/-- A computation with draws: it ends with a result or an exception, or draws some uniform or normal numbers or an integer and goes on, or
seeds the generator of the module. Used for base/_simplexsampling.py:470-532 and base/_simplexsampling.py:704-721. -/
inductive RProg (α : Type)
  | ret (r : Res α)
  | uniforms (s : RngSrc) (n : Nat) (k : List ℚ → RProg α)
  | normals (s : RngSrc) (n : Nat) (k : List ℚ → RProg α)
  | integer (s : RngSrc) (m : Nat) (k : Nat → RProg α)
  | seedGlobal (n : Nat) (k : RProg α)

/-- `n` draws in a row. Used for base/_base.py:354-404. -/
def drawMany {σ β : Type} (step : σ → β × σ) : Nat → σ → List β × σ
  | 0, st => ([], st)
  | n + 1, st =>
    let r := step st
    let rs := drawMany step n r.2
    (r.1 :: rs.1, rs.2)

/-- The generator a draw uses. Used for base/_base.py:354-404. -/
def RngSrc.ref (ref : RngRef) : RngSrc → RngRef
  | .own => ref
  | .glob => .glob

/-- The state of a generator. A reference to no object does not occur. Used for base/_base.py:354-404. -/
def RngWorld.get {R : RngLib} (w : RngWorld R) : RngRef → R.State
  | .glob => w.glob
  | .object i => w.objects.getD i w.glob

/-- The world after a change of one generator. Used for base/_base.py:354-404. -/
def RngWorld.put {R : RngLib} (w : RngWorld R) (st : R.State) : RngRef → RngWorld R
  | .glob => { w with glob := st }
  | .object i => { w with objects := w.objects.set i st }

/-- The run of a computation by an oversampler with the generator `ref`. Used for base/_base.py:354-404. -/
def RProg.run {α : Type} (R : RngLib) (ref : RngRef) : RProg α → RngWorld R → Res α × RngWorld R
  | .ret r, w => (r, w)
  | .uniforms s n k, w =>
    let d := drawMany R.uniform n (w.get (s.ref ref))
    (k d.1).run R ref (w.put d.2 (s.ref ref))
  | .normals s n k, w =>
    let d := drawMany R.normal n (w.get (s.ref ref))
    (k d.1).run R ref (w.put d.2 (s.ref ref))
  | .integer s m k, w =>
    let d := R.below m (w.get (s.ref ref))
    (k d.1).run R ref (w.put d.2 (s.ref ref))
  | .seedGlobal n k, w => k.run R ref (w.put (R.seed n) .glob)

/-- The same computation by an oversampler without a seed. Used for base/_base.py:354-404. -/
def RProg.unseeded {α : Type} : RProg α → RProg α
  | .ret r => .ret r
  | .uniforms _ n k => .uniforms .glob n (fun l => (k l).unseeded)
  | .normals _ n k => .normals .glob n (fun l => (k l).unseeded)
  | .integer _ m k => .integer .glob m (fun i => (k i).unseeded)
  | .seedGlobal n k => .seedGlobal n k.unseeded

/-- Sequencing; an exception ends the computation. Used for base/_base.py:354-404. -/
def RProg.bind {α β : Type} (p : RProg α) (f : α → RProg β) : RProg β :=
  match p with
  | .ret (.ok a) => f a
  | .ret (.error e) => .ret (.error e)
  | .uniforms s n k => .uniforms s n (fun l => (k l).bind f)
  | .normals s n k => .normals s n (fun l => (k l).bind f)
  | .integer s m k => .integer s m (fun i => (k i).bind f)
  | .seedGlobal n k => .seedGlobal n (k.bind f)

/-- The probabilities of the simplices, base/_simplexsampling.py:497-522: the part of `simplices` before the draw. -/
def simplexShares (mode : SimplexSampling) (vol : List Row → ℚ) (X : List Row) (baseWeights : Option (List ℚ)) (indices : List (List Nat))
    (k : Nat) (Xv : Option (List Row)) (simplexWeights : Option (List (List ℚ))) (nDim : Nat) : Res (List (List Nat) × List ℚ) := do
  let all ← allNeighborSimplicesRealIdx nDim indices k
  let nw ← nodeWeights simplexWeights indices.length k nDim all.length
  let w ← determineWeights mode vol X baseWeights Xv all indices.length
  if w.length ≠ nw.length then throw .valueError
  let p ← normalize (List.zipWith (· * ·) w nw)
  return (all, p)

/-- `SimplexSamplingMixin.simplices`, base/_simplexsampling.py:470-532. `RandomState.choice` with probabilities checks them and draws `n` uniform
numbers. -/
def simplicesProg (mode : SimplexSampling) (vol : List Row → ℚ) (X : List Row) (n : Nat) (baseWeights : Option (List ℚ))
    (indices : List (List Nat)) (k : Nat) (Xv : Option (List Row)) (simplexWeights : Option (List (List ℚ))) (nDim : Nat) :
    RProg (List (List Nat)) :=
  (RProg.ret (simplexShares mode vol X baseWeights indices k Xv simplexWeights nDim)).bind (fun ap =>
    if mode = .deterministic then .ret (do takeRows ap.1 (← deterministicSample n ap.2))
    else match npChoice ap.1.length n ap.2 (fun _ => 0) with
      | .error e => .ret (.error e)
      | .ok _ => .uniforms .own n (fun us => .ret (do takeRows ap.1 (← npChoice ap.1.length n ap.2 (fun i => us.getD i 0)))))

/-- The points within the simplices, base/_simplexsampling.py:704-721. The random points draw an array with one row for each simplex and one
column for each vertex, row by row. -/
def withinProg (ss : SSParams) (d : Nat) (X : List Row) (sel : List (List Nat)) (nDim : Nat) (a : SSArgs) : RProg (List Row) :=
  match ss.within with
  | .random => .uniforms .own (sel.length * nDim) (fun us =>
      .ret (randomSamplesFromSimplices d X sel a.Xv a.vertexWeights (fun i j => us.getD (i * nDim + j) 0)))
  | .deterministic => .ret (deterministicSamples X sel a.Xv a.sameVertices a.vertexWeights nDim)
  | .unknown => .ret (.error .valueError)

/-- `add_gaussian_noise`, base/_simplexsampling.py:534-562. -/
def gaussianProg (g : Gaussian) (d : Nat) (samples : List Row) : RProg (List Row) :=
  match g with
  | .none => .ret (.ok samples)
  | g => .normals .own (samples.length * d) (fun us => .ret (.ok (addGaussianNoise g (fun i j => us.getD (i * d + j) 0) samples)))

/-- `SimplexSamplingMixin.sample_simplex`, base/_simplexsampling.py:650-722. -/
def sampleSimplexProg (ss : SSParams) (vol : List Row → ℚ) (d : Nat) (X : List Row) (indices : List (List Nat)) (k n : Nat) (a : SSArgs) :
    RProg (List Row) :=
  if n = 0 then .ret (.ok [])
  else
    let nDim := min ss.nDim k
    (simplicesProg ss.simplexSampling vol X n a.baseWeights indices k a.Xv a.simplexWeights nDim).bind (fun sel =>
      (withinProg ss d X sel nDim a).bind (gaussianProg ss.gaussian d))

/-- `SMOTE.sample`, base/_oversampling.py:212-247 and oversampling/_smote.py. -/
def smoteProg (par : SmoteParams) (vol : List Row → ℚ) (d : Nat) (knn : Nat → List Row → List (List Nat)) (X : List Row) (y : List Int) :
    RProg (List Row × List Int) :=
  (RProg.ret (classLabelStatistics y)).bind (fun s =>
    if checksFire (s.count s.minLabel) d defaultChecks then .ret (.ok (X, y))
    else (RProg.ret (detNToSample (.num par.proportion) (s.count s.majLabel) (s.count s.minLabel))).bind (fun n =>
      if n = 0 then .ret (.ok (X, y))
      else
        let Xmin := selectLabel X y s.minLabel
        let k := min Xmin.length (par.nNeighbors + 1)
        (sampleSimplexProg par.ss vol d Xmin (knn k Xmin) k n {}).bind (fun samples =>
          .ret (.ok (X ++ samples, y ++ List.replicate n s.minLabel)))))

/-- A new oversampler with the seed `v` and one call of `sample`. Used for base/_base.py:354-404. -/
def freshRun {α : Type} (R : RngLib) (v : RsArg) (p : RProg α) (w : RngWorld R) : Res (Res α × RngWorld R) :=
  match newGenerator R v w with
  | .error e => .error e
  | .ok rw => .ok (p.run R rw.1 rw.2)

/-- A history of calls: which oversampler, given by its generator, and what it computes. An exception of one call does not keep the caller from
making the next. Used for base/_base.py:354-404. -/
def runCalls {α : Type} (R : RngLib) : List (RngRef × RProg α) → RngWorld R → List (RngRef × Res α) × RngWorld R
  | [], w => ([], w)
  | c :: cs, w =>
    let r := c.2.run R c.1 w
    let rs := runCalls R cs r.2
    ((c.1, r.1) :: rs.1, rs.2)

/-- `E_SMOTE.sample`, oversampling/_e_smote.py:180-258: the first feature is drawn from `np.random` (line 212). The other draws come from
`self.random_state` and from a generator with the same seed; they are those of `env` and `dr` here. -/
def esProg (env : EsEnv) (minFeatures : Nat) (par : SmoteParams) (vol : List Row → ℚ) (dr : Draws) (knn : Nat → List Row → List (List Nat))
    (d : Nat) (X : List Row) (y : List Int) : RProg (List Row × List Int) :=
  .integer .glob d (fun j => .ret (sample defaultChecks d (esAlg { env with start := fun _ => j } minFeatures par vol dr knn d) X y))

/-- The SMOTE inside `SMOTEWB`, oversampling/_smotewb.py:266-267 and 308-309, which gets no seed. -/
def wbSmoteProg (env : WbEnv) (par : WbParams) (vol : List Row → ℚ) (d : Nat) (X : List Row) (y : List Int) : RProg (List Row × List Int) :=
  (smoteProg ⟨par.proportion, 5, wbSmoteSs⟩ vol d (fun k R => env.knn k R R) X y).unseeded

/-- `np.random.seed(self._random_state_init)` of `DEAGO`, oversampling/_deago.py:270-271: an integer seeds the generator of the module; a
`RandomState` object or the module raise `TypeError`. With `None` the system chooses a seed, here `fresh`. -/
def deagoSeeding {α : Type} (fresh : Nat) (v : RsArg) (rest : RProg α) : RProg α :=
  match v with
  | .int n => if 0 ≤ n ∧ n < 2 ^ 32 then .seedGlobal n.toNat rest else .ret (.error .valueError)
  | .none => .seedGlobal fresh rest
  | _ => .ret (.error .typeError)

end Verif

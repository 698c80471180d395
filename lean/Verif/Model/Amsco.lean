import Verif.Model.Smote
import Verif.Model.Ccr
import Verif.Model.Noise

/-!
# `AMSCO`

The fitness of a pair (minority rows, majority rows) is a parameter: it is the outcome of a cross validation of a classifier on
the original data, and may raise. It is a pair of Cohen's kappa (`none` for NaN, when the expected agreement is one) and
accuracy. The random choices are the fields of `AmscoRand`.
-/

namespace Verif

/-- The result of `determine_scores`, oversampling/_amsco.py:186-213. -/
structure AScore where
  kappa : Option ℚ
  acc : ℚ
  deriving DecidableEq, Repr

/-- `np.prod(score)`. Used for oversampling/_amsco.py:314-334 and oversampling/_amsco.py:554-603. -/
def AScore.joint (s : AScore) : Option ℚ := s.kappa.map (· * s.acc)

/-- `>` on floats, false for NaN. Used for oversampling/_amsco.py:314-334. -/
def gtNan : Option ℚ → Option ℚ → Bool
  | some x, some y => decide (x > y)
  | _, _ => false

/-- The fitness function, oversampling/_amsco.py:215-251. -/
abbrev Fit := List Row → List Row → Res AScore

/-- `np.clip`. Used for oversampling/_amsco.py:253-276 and oversampling/_amsco.py:278-296. -/
def npClip (x lo hi : ℚ) : ℚ := min (max x lo) hi

/-- A particle of the swarm that tunes SMOTE: (proportion, number of neighbours).
Used for oversampling/_amsco.py:253-276 and oversampling/_amsco.py:278-296. -/
structure OParticle where
  pos : ℚ × ℚ
  vel : ℚ × ℚ
  localBest : ℚ × ℚ
  localScore : AScore
  deriving DecidableEq, Repr

/-- The global part of `OSMOTEStatus`. Used for oversampling/_amsco.py:253-276 and oversampling/_amsco.py:314-334. -/
structure OGlobal where
  best : ℚ × ℚ
  score : AScore
  data : Option (List Row × List Row)
  deriving DecidableEq, Repr

/-- Numbers of `AMSCOParams`. Used for oversampling/_amsco.py:253-276 and oversampling/_amsco.py:352-369. -/
structure AmscoParams where
  nPop : Nat
  nIter : Nat
  omega : ℚ
  r1 : ℚ
  r2 : ℚ
  ss : SSParams

/-- `update_velocities_osmote`, oversampling/_amsco.py:253-276, for one particle (the differences are taken to the velocity, as
in the code). -/
def updateVelocity (par : AmscoParams) (g : OGlobal) (p : OParticle) : OParticle :=
  let v1 := p.vel.1 * par.omega + par.r1 * (p.localBest.1 - p.vel.1) + par.r2 * (g.best.1 - p.vel.1)
  let v2 := p.vel.2 * par.omega + par.r1 * (p.localBest.2 - p.vel.2) + par.r2 * (g.best.2 - p.vel.2)
  { p with vel := (npClip v1 (-4 / 2) (4 / 2), npClip v2 (-10 / 2) (10 / 2)) }

/-- `update_particles_osmote`, oversampling/_amsco.py:278-296, for one particle; the limits are `[0.25, 3]` and `[4.0, 10]`
(line 409). -/
def updatePosition (p : OParticle) : OParticle :=
  { p with pos := (npClip (p.pos.1 + p.vel.1) (1/4) 4, npClip (p.pos.2 + p.vel.2) 3 10) }

/-- The candidate of a particle, oversampling/_amsco.py:352-369 and 385: (minority, majority). -/
def osmoteCandidate (par : AmscoParams) (vol : List Row → ℚ) (dr : Draws) (d : Nat) (knn : Nat → List Row → List (List Nat))
    (minLabel majLabel : Int) (Xmin Xmaj : List Row) (pos : ℚ × ℚ) : Res (List Row × List Row) := do
  let ys := List.replicate Xmaj.length majLabel ++ List.replicate Xmin.length minLabel
  let r ← smoteSample { proportion := pos.1, nNeighbors := (npRoundHalfEven pos.2).toNat, ss := par.ss } vol dr d knn
    (Xmaj ++ Xmin) ys
  return (r.1.drop Xmaj.length, r.1.take Xmaj.length)

/-- `update_scores_osmote`, oversampling/_amsco.py:314-334. -/
def updateScores (g : OGlobal) (p : OParticle) (score : AScore) (data : List Row × List Row) : OGlobal × OParticle :=
  (if gtNan score.joint g.score.joint then { best := p.pos, score := score, data := some data } else g,
   if gtNan score.joint p.localScore.joint then { p with localBest := p.pos, localScore := score } else p)

/-- The body of the loop of `evaluate_osmote`, oversampling/_amsco.py:350-386, over the particles. -/
def evaluateOsmote (cand : Nat → ℚ × ℚ → Res (List Row × List Row)) (fit : Fit) :
    OGlobal → Nat → List OParticle → Res (OGlobal × List OParticle)
  | g, _, [] => .ok (g, [])
  | g, i, p :: ps => do
    let c ← cand i p.pos
    let score ← fit c.1 c.2
    let gp := updateScores g p score c
    let r ← evaluateOsmote cand fit gp.1 (i + 1) ps
    return (r.1, gp.2 :: r.2)

/-- The loop of `osmote`, oversampling/_amsco.py:416-431: `left` iterations remain, the next one has number `t`. -/
def osmoteLoop (par : AmscoParams) (cand : Nat → Nat → ℚ × ℚ → Res (List Row × List Row)) (fit : Fit) :
    (left t : Nat) → OGlobal → List OParticle → Res OGlobal
  | 0, _, g, _ => .ok g
  | left + 1, t, g, ps => do
    let r ← evaluateOsmote (cand t) fit g 0 (ps.map (fun p => updatePosition (updateVelocity par g p)))
    osmoteLoop par cand fit left (t + 1) r.1 r.2

/-- `osmote`, oversampling/_amsco.py:388-434; `inits` are the positions drawn by `init_pop_osmote` (298-312). Without a positive
score `best_dataset` is `None`, and its subscription raises. -/
def osmote (par : AmscoParams) (cand : Nat → Nat → ℚ × ℚ → Res (List Row × List Row)) (fit : Fit) (inits : List (ℚ × ℚ)) :
    Res (List Row × List Row) := do
  let ps := inits.map (fun q => ({ pos := q, vel := (1/10, 1), localBest := q, localScore := ⟨some 0, 0⟩ } : OParticle))
  let first ← getRow inits 0
  let g ← osmoteLoop par cand fit par.nIter 0 { best := first, score := ⟨some 0, 0⟩, data := none } ps
  match g.data with
  | some r => pure r
  | none => throw .typeError

/-- The random choices of the instance selection: the initial particles, the positions removed from a particle, the rows added.
Used for oversampling/_amsco.py:531-550 and oversampling/_amsco.py:497-552. -/
structure SisRand where
  init : Nat → List Nat
  remove : Nat → Nat → List Nat → List Nat
  add : Nat → Nat → List Nat → List Nat

/-- `remove_elements`, oversampling/_amsco.py:453-474. `randint(0, 0)` raises. -/
def removeElements (rem : List Nat → List Nat) (particle : List Nat) : Res (List Nat) :=
  if Nat.sqrt particle.length = 0 then .error .valueError
  else if (particle.length : Int) - (rem particle).length < 4 then .ok particle
  else .ok (npDelete particle (rem particle))

/-- The majority rows a particle lacks, oversampling/_amsco.py:489-491. -/
def missingFrom (nMaj : Nat) (particle : List Nat) : List Nat :=
  (List.range nMaj).filter (fun i => ! particle.contains i)

/-- `add_elements`, oversampling/_amsco.py:476-495. `randint(0, 0)` raises. -/
def addElements (add : List Nat → List Nat) (nMaj : Nat) (particle mutant : List Nat) : Res (List Nat) :=
  if (missingFrom nMaj particle).length = 0 then .error .valueError
  else .ok (mutant ++ add (missingFrom nMaj particle))

/-- Best score and selection of `sis` so far. Used for oversampling/_amsco.py:535-550 and oversampling/_amsco.py:531-550. -/
structure SisBest where
  acc : ℚ
  data : Option (List Nat)
  deriving DecidableEq, Repr

/-- The inner loop of `sis`, oversampling/_amsco.py:535-550, over the particles and their accuracies. -/
def sisRound (fit : List Nat → Res AScore) (rem add : Nat → List Nat → List Nat) (nMaj : Nat) :
    SisBest → Nat → List (List Nat × ℚ) → Res (SisBest × List (List Nat × ℚ))
  | b, _, [] => .ok (b, [])
  | b, i, p :: ps => do
    let m0 ← removeElements (rem i) p.1
    let m ← addElements (add i) nMaj p.1 m0
    let score ← fit m
    let b' := if score.acc > b.acc then { acc := score.acc, data := some m } else b
    let r ← sisRound fit rem add nMaj b' (i + 1) ps
    return (r.1, (if score.acc > p.2 then (m, score.acc) else p) :: r.2)

/-- The outer loop of `sis`, oversampling/_amsco.py:531-550. -/
def sisLoop (fit : List Nat → Res AScore) (rnd : SisRand) (nMaj : Nat) :
    (left t : Nat) → SisBest → List (List Nat × ℚ) → Res SisBest
  | 0, _, b, _ => .ok b
  | left + 1, t, b, ps => do
    let r ← sisRound fit (rnd.remove t) (rnd.add t) nMaj b 0 ps
    sisLoop fit rnd nMaj left (t + 1) r.1 r.2

/-- The majority part of `sis`, oversampling/_amsco.py:497-552. Without a positive accuracy `best_dataset` is `None`; indexing
with it adds an axis, and the next `np.vstack` raises `ValueError`. -/
def sis (par : AmscoParams) (fit : Fit) (rnd : SisRand) (Xmin Xmaj : List Row) : Res (List Row) := do
  if Xmin.length ≥ Xmaj.length then return Xmaj
  let fitI : List Nat → Res AScore := fun idx => do
    let rows ← takeRows Xmaj idx
    fit Xmin rows
  let ps ← (List.range par.nPop).mapM (fun i => do
    let sc ← fitI (rnd.init i)
    pure (rnd.init i, sc.acc))
  let b ← sisLoop fitI rnd Xmaj.length par.nIter 0 { acc := 0, data := none } ps
  match b.data with
  | some idx => takeRows Xmaj idx
  | none => throw .valueError

/-- `np.max`, NaN if there is a NaN. Used for oversampling/_amsco.py:554-603. -/
def maxNan (l : List (Option ℚ)) : Option ℚ :=
  if l.any Option.isNone then none else (l.filterMap id).max?

/-- `max_fitness in (f, g)`. Used for oversampling/_amsco.py:554-603. -/
def inPair (m f g : Option ℚ) : Bool := m.isSome && (m == f || m == g)

/-- Lines 597-603 of oversampling/_amsco.py: the choice from the four fitness values. -/
def chooseCurrent (f0 f1 f2 f3 : Option ℚ) (current : List Row × List Row) (newMin newMaj : List Row) :
    List Row × List Row :=
  let m := maxNan [f0, f1, f2, f3]
  let c1 := if inPair m f1 f3 then (current.1, newMaj) else current
  if inPair m f0 f2 then (newMin, c1.2) else c1

/-- `evaluate`, oversampling/_amsco.py:554-603. -/
def amscoEvaluate (fit : Fit) (current : List Row × List Row) (newMin newMaj : List Row) : Res (List Row × List Row) := do
  let f0 ← fit newMin current.2
  let f1 ← fit current.1 current.2
  let f2 ← fit newMin newMaj
  let f3 ← fit current.1 newMaj
  return chooseCurrent f0.joint f1.joint f2.joint f3.joint current newMin newMaj

/-- The random choices of a whole run, by iteration. Used for oversampling/_amsco.py:626-650 and oversampling/_amsco.py:605-661. -/
structure AmscoRand where
  draws : Nat → Nat → Nat → Draws
  inits : Nat → List (ℚ × ℚ)
  sis : Nat → SisRand

/-- The loop of `sampling_algorithm`, oversampling/_amsco.py:626-650. -/
def amscoLoop (par : AmscoParams) (vol : List Row → ℚ) (rnd : AmscoRand) (d : Nat) (knn : Nat → List Row → List (List Nat))
    (fit : Fit) (minLabel majLabel : Int) (Xmin Xmaj : List Row) :
    (left it : Nat) → List Row × List Row → Res (List Row × List Row)
  | 0, _, current => .ok current
  | left + 1, it, current => do
    let om ← osmote par (fun t i pos => osmoteCandidate par vol (rnd.draws it t i) d knn minLabel majLabel Xmin current.2 pos)
      fit (rnd.inits it)
    let newMaj ← sis par fit (rnd.sis it) current.1 Xmaj
    let c ← amscoEvaluate fit current om.1 newMaj
    amscoLoop par vol rnd d knn fit minLabel majLabel Xmin Xmaj left (it + 1) c

/-- `AMSCO.sampling_algorithm`, oversampling/_amsco.py:605-661. -/
def amscoAlg (par : AmscoParams) (vol : List Row → ℚ) (rnd : AmscoRand) (d : Nat) (knn : Nat → List Row → List (List Nat))
    (fit : Fit) (s : Stats) (X : List Row) (y : List Int) : Res (List Row × List Int) := do
  let Xmin := selectLabel X y s.minLabel
  let Xmaj := selectLabel X y s.majLabel
  let c ← amscoLoop par vol rnd d knn fit s.minLabel s.majLabel Xmin Xmaj par.nIter 0 (Xmin, Xmaj)
  return (c.2 ++ c.1, List.replicate c.2.length s.majLabel ++ List.replicate c.1.length s.minLabel)

/-- The checks of `AMSCO`, oversampling/_amsco.py:149. -/
def amscoChecks : List Check := [.minNMin 4]

end Verif

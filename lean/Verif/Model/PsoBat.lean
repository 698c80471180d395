import Verif.Model.Smote
import Verif.Model.Regions

/-!
# Model of `smote_variants/oversampling/_smote_psobat.py`

The scores of a combination (five fold cross validation of a decision tree on the output of SMOTE) and the generator are parameters.
-/

namespace Verif

/-- A combination: the number of neighbours (a float that is truncated when used) and the proportion.
Used for oversampling/_smote_psobat.py:477-480 and oversampling/_smote_psobat.py:293-297. -/
structure Combo where
  k : ℚ
  prop : ℚ
deriving DecidableEq

/-- Which search is used. Used for oversampling/_smote_psobat.py:75-147. -/
inductive PbMethod | pso | bat
deriving DecidableEq

/-- Parameters of SMOTE_PSOBAT (oversampling/_smote_psobat.py:75-147). `nPop` is 10 and `nKeep` is 5 in the code; `alpha` and `gamma` have no effect,
see `batStep`. -/
structure PbParams where
  maxit : Nat
  c1 : ℚ
  c2 : ℚ
  c3 : ℚ
  method : PbMethod
  nPop : Nat
  nKeep : Nat

/-- What SMOTE_PSOBAT calls. `k0 hi p`: `randint(1, hi)` for particle `p`; `u0 p`: the number the proportion is drawn with; `eval X y K prop`:
`evaluate` (lines 256-280), kappa (`none`: NaN) and accuracy; `loud p c`: `pulse_loudness[p, c]` as drawn; `freq i p`, `pulse i p`, `slot i p`,
`jit i p c`, `accept i`: the numbers drawn in iteration `i`, lines 734, 548, 551, 554 (the row for bat `p`) and 684; `sort`: the order of the
kept entries, `local_scores[:, :, 0].argsort()[::-1]`. Used for oversampling/_smote_psobat.py:293-297 and oversampling/_smote_psobat.py:429-482. -/
structure PbEnv where
  k0 : Nat → Nat → Nat
  u0 : Nat → ℚ
  eval : List Row → List Int → Nat → ℚ → Option ℚ × ℚ
  loud : Nat → Nat → ℚ
  freq : Nat → Nat → ℚ
  pulse : Nat → Nat → ℚ
  slot : Nat → Nat → ℚ
  jit : Nat → Nat → Nat → ℚ
  accept : Nat → ℚ
  sort : List (Combo × ℚ × ℚ) → List (Combo × ℚ × ℚ)

/-- `np.clip`. Used for oversampling/_smote_psobat.py:477-480. -/
def pbClip (lo hi x : ℚ) : ℚ := min (max x lo) hi

/-- The clipping of a combination, oversampling/_smote_psobat.py:477-480 and 560-563. -/
def comboClip (hi : Nat) (c : Combo) : Combo := ⟨pbClip 1 hi c.k, pbClip (1 / 10) 2 c.prop⟩

/-- `init_particle_or_bat`, oversampling/_smote_psobat.py:293-297. -/
def pbInit (env : PbEnv) (hi p : Nat) : Combo := ⟨env.k0 hi p, env.u0 p * (2 - 1 / 10) + 1 / 10⟩

/-- `self.evaluate(K=int(c[0]), proportion=c[1])`. Used for oversampling/_smote_psobat.py:449-480 and oversampling/_smote_psobat.py:733-775. -/
def pbEval (f : Nat → ℚ → Option ℚ × ℚ) (c : Combo) : Option ℚ × ℚ := f ⌊c.k⌋.toNat c.prop

/-- `a > b` for a number that may be NaN. Used for oversampling/_smote_psobat.py:358-379 and oversampling/_smote_psobat.py:496-510. -/
def pbGt (a : Option ℚ) (b : ℚ) : Bool := match a with | some x => decide (b < x) | none => false

/-- One particle: where it is, its velocity, its best combination and the scores of that.
Used for oversampling/_smote_psobat.py:326-337 and oversampling/_smote_psobat.py:395-412. -/
structure PbParticle where
  x : Combo
  v : ℚ × ℚ
  best : Combo
  kappa : ℚ
  acc : ℚ

/-- `pso_update_local_scores` for one particle, oversampling/_smote_psobat.py:326-337; whether it was changed is only used for the global
scores. -/
def pbLocal (p : PbParticle) (s : Option ℚ × ℚ) : PbParticle :=
  match s.1 with
  | none => p
  | some kap =>
    if (2 / 5 < min p.kappa kap ∧ s.2 < p.acc) ∨ (2 / 5 < kap ∧ p.kappa ≤ 2 / 5) then { p with best := p.x, kappa := kap, acc := s.2 } else p

/-- The entry of the largest accuracy among those selected, the first of them: `particles[mask][np.argmax(scores[mask, 1])]`.
Used for oversampling/_smote_psobat.py:358-379. -/
def pbPick (l : List (Combo × Option ℚ × ℚ)) : Option (Combo × Option ℚ × ℚ) := l[argminIdx (l.map (fun e => - e.2.2))]?

/-- The state of the swarm: particles, the best combination, its kappa and accuracy.
Used for oversampling/_smote_psobat.py:358-379 and oversampling/_smote_psobat.py:449-480. -/
structure PbSwarm where
  parts : List PbParticle
  gbest : Combo
  gkappa : ℚ
  gacc : ℚ

/-- `pso_update_global_scores`, oversampling/_smote_psobat.py:358-379: the new best with its scores, and `not_changed`. -/
def pbGlobal (st : PbSwarm) (l : List (Combo × Option ℚ × ℚ)) : (Combo × ℚ × ℚ) × Bool :=
  match pbPick (l.filter (fun e => pbGt (e.2.1.map (min st.gkappa)) (2 / 5) && decide (e.2.2 < st.gacc))) with
  | some e => ((e.1, e.2.1.getD 0, e.2.2), false)
  | none =>
    match pbPick (l.filter (fun e => pbGt e.2.1 (2 / 5) && decide (st.gkappa ≤ 2 / 5))) with
    | some e => ((e.1, e.2.1.getD 0, e.2.2), false)
    | none => ((st.gbest, st.gkappa, st.gacc), true)

/-- The reduction of one velocity, oversampling/_smote_psobat.py:401-410. -/
def pbReduce (range v : ℚ) : ℚ := if 1 < |v| / range then v / ⌈|v| / range⌉ else v

/-- `pso_update_velocities` and the new position, oversampling/_smote_psobat.py:395-412, 476-480. -/
def pbMove (par : PbParams) (hi : Nat) (g : Combo) (p : PbParticle) : PbParticle :=
  let vk := pbReduce ((hi : ℚ) - 1) (par.c1 * p.v.1 + (p.best.k - p.x.k) * par.c2 + (g.k - p.x.k) * par.c3)
  let vp := pbReduce (2 - 1 / 10) (par.c1 * p.v.2 + (p.best.prop - p.x.prop) * par.c2 + (g.prop - p.x.prop) * par.c3)
  { p with v := (vk, vp), x := comboClip hi ⟨p.x.k + vk, p.x.prop + vp⟩ }

/-- One iteration, oversampling/_smote_psobat.py:449-480. -/
def pbPsoStep (f : Nat → ℚ → Option ℚ × ℚ) (par : PbParams) (hi : Nat) (st : PbSwarm) : PbSwarm × Bool :=
  let g := pbGlobal st (st.parts.map (fun p => (p.x, pbEval f p.x)))
  ({ parts := (st.parts.map (fun p => pbLocal p (pbEval f p.x))).map (pbMove par hi g.1.1), gbest := g.1.1, gkappa := g.1.2.1, gacc := g.1.2.2 }, g.2)

/-- The loop of `pso_vectorized`, oversampling/_smote_psobat.py:441-482: `nc` is `not_changed`. -/
def pbPsoLoop (f : Nat → ℚ → Option ℚ × ℚ) (par : PbParams) (hi : Nat) : Nat → Nat → PbSwarm → PbSwarm
  | 0, _, st => st
  | n + 1, nc, st =>
    if par.nPop < nc then st
    else
      let r := pbPsoStep f par hi st
      pbPsoLoop f par hi n (if r.2 then nc + 1 else 0) r.1

/-- `pso_vectorized`, oversampling/_smote_psobat.py:429-482. -/
def pbPso (env : PbEnv) (f : Nat → ℚ → Option ℚ × ℚ) (par : PbParams) (hi : Nat) : Combo :=
  (pbPsoLoop f par hi par.maxit 0
    { parts := (List.range par.nPop).map (fun p => ⟨pbInit env hi p, (0, 0), pbInit env hi p, 0, 0⟩), gbest := pbInit env hi 0,
      gkappa := 0, gacc := 0 }).gbest

/-- One bat: where it is, its velocity, the kept combinations with kappa and accuracy (−1 where there is none).
Used for oversampling/_smote_psobat.py:547-563 and oversampling/_smote_psobat.py:583-606. -/
structure Bat where
  x : Combo
  v : ℚ × ℚ
  kept : List (Combo × ℚ × ℚ)

/-- The state of the bats. The scores of the best may be NaN.
Used for oversampling/_smote_psobat.py:733-775 and oversampling/_smote_psobat.py:725-777. -/
structure PbBats where
  bats : List Bat
  gbest : Combo
  gscores : Option ℚ × ℚ

/-- `bat_local_search` for one bat, oversampling/_smote_psobat.py:547-563. `loudness` is the mean of `pulse_loudness[:, 2]`. -/
def batSearch (env : PbEnv) (hi : Nat) (loudness : ℚ) (i p : Nat) (b : Bat) : Res Bat := do
  let lens := b.kept.countP (fun e => decide (0 ≤ e.2.1))
  let e ← getRow b.kept ⌊(lens : ℚ) * env.slot i p⌋.toNat
  let x := if env.loud p 1 < env.pulse i p then
      (⟨e.1.k + (env.jit i p 0 - 1 / 2) * 2 / 20 * ((hi : ℚ) - 1) * loudness, e.1.prop + (env.jit i p 1 - 1 / 2) * 2 / 20 * (2 - 1 / 10) * loudness⟩ : Combo)
    else b.x
  return { b with x := comboClip hi x }

/-- `bat_check_local` for one bat with the first of its kept entries, oversampling/_smote_psobat.py:523-530: the first comparison has no effect other
than excluding what it selects, which the second excludes as well. -/
def batImproved (first s : Option ℚ × ℚ) : Bool :=
  match first.1, s.1 with
  | some a, some kap => !(decide (2 / 5 < min a kap) && decide (s.2 < first.2)) && decide (2 / 5 < kap) && decide (a ≤ 2 / 5)
  | _, _ => false

/-- `bat_update_local` for one bat, oversampling/_smote_psobat.py:583-606. -/
def batLocal (env : PbEnv) (nKeep : Nat) (b : Bat) (s : Option ℚ × ℚ) : Res Bat := do
  let first ← getRow b.kept 0
  let kept ← if batImproved (some first.2.1, first.2.2) s then
      let at_ := min (b.kept.countP (fun e => decide (0 ≤ e.2.1)) + 1) nKeep
      if at_ < b.kept.length then pure (b.kept.set at_ (b.x, s.1.getD 0, s.2)) else .error .indexError
    else pure b.kept
  return { b with kept := env.sort kept }

/-- `bat_check_global`, oversampling/_smote_psobat.py:496-510: the position returned is one among the entries selected by the mask. -/
def batCheckGlobal (g : Option ℚ × ℚ) (scores : List (Option ℚ × ℚ)) : Option Nat :=
  let isFirst := fun (s : Option ℚ × ℚ) => pbGt (g.1.bind (fun a => s.1.map (min a))) (2 / 5) && decide (s.2 < g.2)
  let mask1 := scores.filter isFirst
  let mask2 := scores.filter (fun s => !isFirst s && pbGt s.1 (2 / 5) && (match g.1 with | some a => decide (a ≤ 2 / 5) | none => false))
  if mask2 ≠ [] then some (argminIdx (mask2.map (fun s => - s.2)))
  else if mask1 ≠ [] then some (argminIdx (mask1.map (fun s => - s.2)))
  else none

/-- One iteration, oversampling/_smote_psobat.py:733-775, and whether the position was found. `bat_update_pulse_loudness` (lines 608-629) assigns to
copies, so pulse and loudness stay as drawn. -/
def batStep (env : PbEnv) (f : Nat → ℚ → Option ℚ × ℚ) (par : PbParams) (hi : Nat) (st : PbBats) (i : Nat) : Res (PbBats × Bool) := do
  let moved := st.bats.mapIdx (fun p (b : Bat) =>
    let v := (b.v.1 + (b.x.k - st.gbest.k) * (env.freq i p * 10), b.v.2 + (b.x.prop - st.gbest.prop) * (env.freq i p * 10))
    ({ b with v := v, x := ⟨b.x.k + v.1, b.x.prop + v.2⟩ } : Bat))
  let loudness := ((List.range par.nPop).map (fun p => env.loud p 2)).sum / par.nPop
  let bats ← (moved.zipIdx).mapM (fun (b, p) => batSearch env hi loudness i p b)
  let scores := bats.map (fun b => pbEval f b.x)
  let kept ← (List.zip bats scores).mapM (fun (b, s) => batLocal env par.nKeep b s)
  match batCheckGlobal st.gscores scores with
  | none => return ({ st with bats := kept }, false)
  | some j => do
    if env.accept i < env.loud j 2 then
      let b ← getRow bats j
      let s ← getRow scores j
      return ({ bats := kept, gbest := b.x, gscores := s }, true)
    else return ({ st with bats := kept }, true)

/-- The loop of `bat_vectorized`, oversampling/_smote_psobat.py:725-777: `nc` is `not_changed`, which is multiplied with whether a position was
found. -/
def batLoop (env : PbEnv) (f : Nat → ℚ → Option ℚ × ℚ) (par : PbParams) (hi : Nat) : Nat → Nat → Nat → PbBats → Res PbBats
  | 0, _, _, st => .ok st
  | n + 1, i, nc, st =>
    if 10 < nc + 1 then .ok st
    else do
      let r ← batStep env f par hi st i
      batLoop env f par hi n (i + 1) (if r.2 then nc + 1 else 0) r.1

/-- `bat_vectorized`, oversampling/_smote_psobat.py:706-777. -/
def pbBat (env : PbEnv) (f : Nat → ℚ → Option ℚ × ℚ) (par : PbParams) (hi : Nat) : Res Combo := do
  let st ← batLoop env f par hi par.maxit 0 0
    { bats := (List.range par.nPop).map (fun p => ⟨pbInit env hi p, (0, 0), List.replicate par.nKeep (pbInit env hi p, -1, -1)⟩),
      gbest := pbInit env hi 0, gscores := (some 0, 0) }
  return st.gbest

/-- `self.k_range[1]` after `sampling_algorithm` was entered, oversampling/_smote_psobat.py:795-797. It is kept for the next call. -/
def pbRange (hi nMin : Nat) : Nat := min nMin hi

/-- The search of the chosen method, oversampling/_smote_psobat.py:799-802. -/
def pbChoose (env : PbEnv) (f : Nat → ℚ → Option ℚ × ℚ) (par : PbParams) (hi : Nat) : Res Combo :=
  match par.method with
  | .pso => .ok (pbPso env f par hi)
  | .bat => pbBat env f par hi

/-- `SMOTE_PSOBAT.sampling_algorithm`, oversampling/_smote_psobat.py:779-814, of an object whose `k_range[1]` is `hi0`. -/
def psobatAlg (env : PbEnv) (par : PbParams) (hi0 : Nat) (ss : SSParams) (vol : List Row → ℚ) (dr : Draws) (d : Nat)
    (knn : Nat → List Row → List (List Nat)) (s : Stats) (X : List Row) (y : List Int) : Res (List Row × List Int) := do
  let hi := pbRange hi0 (s.count s.minLabel)
  let best ← pbChoose env (env.eval X y) par hi
  let K := ⌊best.k⌋.toNat
  smoteSample { proportion := best.prop, nNeighbors := K, ss := { ss with nDim := min ss.nDim K } } vol dr d knn X y

end Verif

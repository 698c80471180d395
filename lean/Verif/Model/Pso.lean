import Verif.Model.Smote
import Verif.Model.Regions

/-!
# Model of `smote_variants/oversampling/_smote_pso.py`

The support vector machines, the neighbour search, the scaler, the norm and the generator are parameters.
-/

namespace Verif

/-- Parameters of SMOTE_PSO (oversampling/_smote_pso.py:75-125). -/
structure PsoParams where
  k : Nat
  eps : ℚ
  nPop : Nat
  w : ℚ
  c1 : ℚ
  c2 : ℚ
  numIt : Nat

/-- What SMOTE_PSO calls. `fit X`, `scale`, `unscale`: the `StandardScaler`; `support X y`: `svc.support_`; `knn n A B`: the numbers of the `n` rows
of `A` nearest to each row of `B`; `norm`: `np.linalg.norm` of one row; `score X y part`: `evaluate_particle` (lines 322-355), the area under
the curve of the machine fitted to the rows with the particle added; `r1 o i p`, `r2 o i p`: `rand[0][p]`, `rand[1][p]` in iteration `i` of
search `o`. Used for oversampling/_smote_pso.py:252-260 and oversampling/_smote_pso.py:300-320. -/
structure PsoEnv where
  scale : List Row → Row → Row
  unscale : List Row → Row → Row
  support : List Row → List Int → List Nat
  knn : Nat → List Row → List Row → List (List Nat)
  norm : Row → ℚ
  score : List Row → List Int → List Row → ℚ
  r1 : Nat → Nat → Nat → ℚ
  r2 : Nat → Nat → Nat → ℚ

/-- What `initialize` returns for one generated row: the minority support vector it starts from, the first position, the first velocity, the search bound.
Used for oversampling/_smote_pso.py:300-320 and oversampling/_smote_pso.py:427-444. -/
structure PsoSlot where
  center : Row
  start : Row
  vel : Row
  bound : ℚ

/-- `X_scaled[SV_min]`: the rows of the support vectors with this label, oversampling/_smote_pso.py:252-260. Indexing with an empty list of numbers
(an array of floats) is an `IndexError`. -/
def psoSupport (env : PsoEnv) (X : List Row) (y : List Int) (l : Int) : Res (List Row) :=
  let idx := (env.support X y).filter (fun i => decide (y.getD i 0 = l))
  if idx = [] then .error .indexError else takeRows X idx

/-- `initialize`, oversampling/_smote_pso.py:300-320. -/
def psoInit (env : PsoEnv) (par : PsoParams) (s : Stats) (X : List Row) (y : List Int) : Res (List PsoSlot) := do
  let svMin ← psoSupport env X y s.minLabel
  let svMaj ← psoSupport env X y s.majLabel
  let n := min svMaj.length par.k
  let ind := env.knn n svMaj svMin
  let slots ← (List.zip svMin ind).mapM (fun (p, row) => do
    let near ← getRow row 0
    let u ← getRow svMaj near
    row.mapM (fun j => do
      let q ← getRow svMaj j
      let v := Row.smul par.eps (Row.sub q p)
      return (⟨p, Row.add p v, v, env.norm (Row.sub p u)⟩ : PsoSlot)))
  return slots.flatten

/-- One particle: its rows, velocities, the best rows it had and their score.
Used for oversampling/_smote_pso.py:559-569 and oversampling/_smote_pso.py:496-498. -/
structure Particle where
  x : List Row
  v : List Row
  best : List Row
  bestScore : ℚ

/-- The state of the search. Used for oversampling/_smote_pso.py:500-503 and oversampling/_smote_pso.py:541-569. -/
structure PsoState where
  swarm : List Particle
  gbest : List Row
  gscore : ℚ

/-- The velocity of one row, oversampling/_smote_pso.py:383-402. -/
def psoVel (norm : Row → ℚ) (par : PsoParams) (r1 r2 bound : ℚ) (v x lb gb : Row) : Row :=
  let raw := Row.add (Row.add (Row.smul par.w v) (Row.smul r1 (Row.smul par.c1 (Row.sub lb x)))) (Row.smul r2 (Row.smul par.c2 (Row.sub gb x)))
  if bound / 2 < norm raw then Row.smul (bound / norm raw / 2) raw else raw

/-- The position of one row, oversampling/_smote_pso.py:427-444. -/
def psoPos (norm : Row → ℚ) (slot : PsoSlot) (x v : Row) : Row :=
  let moved := Row.add x v
  let t := Row.sub moved slot.center
  if slot.bound < norm t then Row.add slot.center (Row.smul (slot.bound / norm t) t) else moved

/-- `update_velocities` and `update_positions` for one particle, oversampling/_smote_pso.py:559-569. -/
def psoMove (norm : Row → ℚ) (par : PsoParams) (slots : List PsoSlot) (gb : List Row) (r1 r2 : ℚ) (p : Particle) : Particle :=
  let vs := (List.range slots.length).map (fun j =>
    psoVel norm par r1 r2 ((slots.map PsoSlot.bound).getD j 0) (p.v.getD j []) (p.x.getD j []) (p.best.getD j []) (gb.getD j []))
  { p with v := vs, x := List.zipWith (fun slot xv => psoPos norm slot xv.1 xv.2) slots (List.zip p.x vs) }

/-- The local part of `update_scores`, oversampling/_smote_pso.py:496-498. -/
def psoLocal (score : List Row → ℚ) (p : Particle) : Particle :=
  if p.bestScore < score p.x then { p with best := p.x, bestScore := score p.x } else p

/-- The global part of `update_scores`, oversampling/_smote_pso.py:500-503: `np.argmax` takes the first of the best. -/
def psoGlobal (score : List Row → ℚ) (st : PsoState) : Res (List Row × ℚ) := do
  let scores := st.swarm.map (fun p => score p.x)
  let i := argminIdx (scores.map (fun s => -s))
  let best ← getRow scores i
  let p ← getRow st.swarm i
  return if st.gscore < best then (p.x, best) else (st.gbest, st.gscore)

/-- One iteration, oversampling/_smote_pso.py:541-569. -/
def psoStep (env : PsoEnv) (par : PsoParams) (score : List Row → ℚ) (slots : List PsoSlot) (o : Nat) (st : PsoState) (i : Nat) : Res PsoState := do
  let g ← psoGlobal score st
  let swarm := st.swarm.map (psoLocal score)
  return { swarm := swarm.mapIdx (fun p q => psoMove env.norm par slots g.1 (env.r1 o i p) (env.r2 o i p) q), gbest := g.1, gscore := g.2 }

/-- `search`, oversampling/_smote_pso.py:528-570. -/
def psoSearch (env : PsoEnv) (par : PsoParams) (s : Stats) (o : Nat) (X : List Row) (y : List Int) : Res (List Row) := do
  let slots ← psoInit env par s X y
  let gen := slots.map PsoSlot.start
  let st ← (List.range par.numIt).foldlM (psoStep env par (env.score X y) slots o)
    { swarm := List.replicate par.nPop ⟨gen, slots.map PsoSlot.vel, gen, 0⟩, gbest := gen, gscore := 0 }
  return st.gbest

/-- The loop `while np.sum(y == min_label) < np.sum(y == maj_label)`, oversampling/_smote_pso.py:608-616. -/
def psoLoop (env : PsoEnv) (par : PsoParams) (s : Stats) : Nat → Nat → List Row → List Int → List Row → Res (List Row)
  | 0, _, _, y, items => if y.count s.minLabel < y.count s.majLabel then .error .recursionError else .ok items
  | fuel + 1, o, X, y, items =>
    if y.count s.minLabel < y.count s.majLabel then do
      let best ← psoSearch env par s o X y
      psoLoop env par s fuel (o + 1) (X ++ best) (y ++ List.replicate best.length s.minLabel) (items ++ best)
    else .ok items

/-- `SMOTE_PSO.sampling_algorithm`, oversampling/_smote_pso.py:572-624. The number of passes of the loop is bounded by the number of majority rows,
which is shown to be enough. -/
def psoAlg (env : PsoEnv) (par : PsoParams) (s : Stats) (X : List Row) (y : List Int) : Res (List Row × List Int) := do
  if s.count s.majLabel ≤ s.count s.minLabel then return (X, y)
  let items ← psoLoop env par s (s.count s.majLabel) 0 (X.map (env.scale X)) y []
  return withSamples X y s.minLabel (items.map (env.unscale X))

end Verif

import Verif.Model.Smobd
import Verif.Model.Dbsmote

/-!
# ASMOBD

`optics eps m rows` as for SMOBD, `ball Z z r` the rows of `Z` within the distance `r` of `z` (`radius_neighbors`), `sig` the value of
`|2 / (1 + exp(-a ratio)) - 1|`, where the argument `none` is an infinite ratio.
-/

namespace Verif

/-- The parameters, oversampling/_asmobd.py:119-129. -/
structure AsmobdParams where
  minSamples : Nat
  eps : ℚ
  eta : ℚ
  T1 : ℚ
  T2 : ℚ
  t1 : ℚ
  t2 : ℚ
  linear : Bool

/-- oversampling/_asmobd.py:347-351. -/
def AsmobdParams.grow (p : AsmobdParams) : AsmobdParams :=
  { p with eps := p.eps * (3 / 2), T1 := p.T1 * (3 / 2), T2 := p.T2 * (3 / 2), t1 := p.t1 * (3 / 2), t2 := p.t2 * (3 / 2) }

/-- One turn of `determine_maj_min_ratios`, oversampling/_asmobd.py:251-257: `n_majs`, `n_mins`, `ratio`. -/
def asmobdRatio (ball : List Row → Row → XF → List Nat) (Z : List Row) (y : List Int) (majLabel : Int) (z : Row) (core : XF) :
    Res (ℚ × ℚ × Option ℚ) := do
  let ind := ball Z z core
  let ls ← ind.mapM (getRow y)
  if ind.length = 0 then throw .nan
  let nMaj := (ls.count majLabel : ℚ) / (ind.length : ℚ)
  let nMin := (ind.length : ℚ) - nMaj - 1
  return (nMaj, nMin, if nMin = 0 then none else some (nMaj / nMin))

/-- `calculate_density` for one row, oversampling/_asmobd.py:165-193. -/
def asmobdDensity (p : AsmobdParams) (sig : Option ℚ → ℚ) (n : Nat) (core : XF) (r : ℚ × ℚ × Option ℚ) : XF :=
  match core with
  | .fin c =>
    let density := p.eta * c + (1 - p.eta) * r.1
    if p.linear then .fin (p.eta * density + (1 - p.eta) * r.2.1 / (n : ℚ)) else .fin (density - sig r.2.2)
  | .posInf => if p.eta = 0 then .nan else .posInf
  | _ => .nan

/-- `determine_not_noise`, oversampling/_asmobd.py:195-223. -/
def asmobdNotNoise (p : AsmobdParams) (core reach : List XF) : List Bool :=
  List.zipWith (fun c r => !(((XF.fin p.T1).lt c && (XF.fin p.T2).lt r) ||
    ((xfScale p.t1 (xfMean core)).lt c && (xfScale p.t2 (xfMean reach)).lt r))) core reach

/-- `determine_not_noise_and_density`, oversampling/_asmobd.py:265-315. -/
def asmobdRound (sig : Option ℚ → ℚ) (optics : ℚ → Nat → List Row → Res (List XF × List XF)) (ball : List Row → Row → XF → List Nat)
    (Z : List Row) (y : List Int) (majLabel : Int) (A : List Row) (n : Nat) (p : AsmobdParams) : Res (List Bool × List XF) := do
  let o ← optics p.eps (min (A.length - 1) p.minSamples) A
  let ratios ← (A.zip o.1).mapM (fun q => asmobdRatio ball Z y majLabel q.1 q.2)
  return (asmobdNotNoise p o.1 o.2, List.zipWith (asmobdDensity p sig n) o.1 ratios)

/-- The loop of `determine_not_noise_and_density_safe`, oversampling/_asmobd.py:337-355, with `k + 1` turns left. -/
def asmobdLoop (round : AsmobdParams → Res (List Bool × List XF)) : Nat → AsmobdParams → Res (List Bool × List XF)
  | 0, p => round p
  | k + 1, p => do
    let r ← round p
    if r.1.count true < 2 then asmobdLoop round k p.grow else return r

/-- `ASMOBD.sampling_algorithm`, oversampling/_asmobd.py:357-418. -/
def asmobdAlg (proportion : ℚ) (ss : SSParams) (par : AsmobdParams) (fitScaler : List Row → Row × Row) (sig : Option ℚ → ℚ)
    (optics : ℚ → Nat → List Row → Res (List XF × List XF)) (ball : List Row → Row → XF → List Nat) (vol : List Row → ℚ) (dr : Draws)
    (d : Nat) (knn : Nat → List Row → List (List Nat)) (s : Stats) (X : List Row) (y : List Int) : Res (List Row × List Int) := do
  let n ← detNToSample (.num proportion) (s.count s.majLabel) (s.count s.minLabel)
  if n = 0 then return (X, y)
  let sc := fitScaler X
  let Z := X.map (scaleRow sc.1 sc.2)
  let A := selectLabel Z y s.minLabel
  let r ← asmobdLoop (asmobdRound sig optics ball Z y s.majLabel A n) 3 par
  let K := maskRows A r.1
  if K.length ≤ 2 then return (X, y)
  let density := fixDensity (maskRows r.2 r.1)
  let k := min K.length (par.minSamples + 1)
  let samples ← sampleSimplex ss vol dr d K (knn k K) k n { baseWeights := some density }
  return withSamples X y s.minLabel (samples.map (unscaleRow sc.1 sc.2))

end Verif

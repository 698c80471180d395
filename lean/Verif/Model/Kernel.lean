import Verif.Model.Base
import Verif.Model.Interp
import Verif.Model.GSmote
import Verif.Model.Ccr

/-!
# KernelADASYN

The covariance matrix enters through two parameters: `ill` is the answer of `np.linalg.cond(covariance) > 10000`, `chol` the answer of
`np.linalg.cholesky`, which may raise. `pca c X` are the transformed rows and the inverse transformation.
-/

namespace Verif

/-- The external functions and the draws of `KernelADASYN`; `d` is the number of columns, since a call on transformed rows starts its own
stream of draws. Used for oversampling/_kerneladasyn.py:132-146 and oversampling/_kerneladasyn.py:170-184. -/
structure KaEnv where
  knn : Nat → List Row → List Row → List (List Nat)
  ill : List Row → Bool
  chol : List Row → Res (List Row)
  pca : Nat → List Row → List Row × (Row → Row)
  ex : ℚ → ℚ
  fac : Nat → Nat → ℚ
  start : Nat → Nat → Nat
  normal : Nat → Nat → Row
  unif : Nat → Nat → ℚ

/-- The parameters `proportion`, `k`, `h`, and `mcmc_params`, oversampling/_kerneladasyn.py:103-115. -/
structure KaParams where
  proportion : ℚ
  k : Nat
  h : ℚ
  burnIn : Nat
  periods : Nat

/-- `p_x`, oversampling/_kerneladasyn.py:132-146; `fac` is the constant factor of lines 142-143. -/
def kaP (env : KaEnv) (h : ℚ) (d : Nat) (Xmin : List Row) (r : List ℚ) (x : Row) : ℚ :=
  env.fac Xmin.length d * (List.zipWith (· * ·) r (Xmin.map (fun m => env.ex (-(1 / 2) * dotRow (Row.sub x m) (Row.sub x m) / h)))).sum

/-- `np.dot(z, L)` for a vector `z`. Used for oversampling/_kerneladasyn.py:170-184. -/
def kaDot (d : Nat) (z : Row) (L : List Row) : Row :=
  (List.range d).map (fun j => (List.zipWith (fun a l => a * l.getD j 0) z L).sum)

/-- The loop of `mcmc`, oversampling/_kerneladasyn.py:170-184, for at most `fuel` turns. -/
def kaLoop (env : KaEnv) (par : KaParams) (d : Nat) (Xmin : List Row) (r : List ℚ) (L : List Row) (n : Nat) :
    Nat → Nat → Row → ℚ → List Row → Res (List Row)
  | 0, _, _, _, samples => if samples.length < n then .error .recursionError else .ok samples
  | fuel + 1, it, x, p, samples =>
    if samples.length < n then
      let xNew := Row.add x (kaDot d (env.normal d it) L)
      let pNew := kaP env par.h d Xmin r xNew
      let alpha := pNew / p
      let xp := if env.unif d it < alpha then (xNew, pNew) else (x, p)
      let it' := it + 1
      let samples' := if it' % par.periods = 0 ∧ par.burnIn < it' then samples ++ [xp.1] else samples
      kaLoop env par d Xmin r L n fuel it' xp.1 xp.2 samples'
    else .ok samples

/-- `mcmc`, oversampling/_kerneladasyn.py:148-186. -/
def kaMcmc (env : KaEnv) (par : KaParams) (d : Nat) (Xmin : List Row) (r : List ℚ) (cov : List Row) (n : Nat) : Res (List Row) := do
  let pos := (List.range r.length).filter (fun i => decide (0 < r.getD i 0))
  if pos = [] then .error .valueError
  else
    let i ← getRow pos (env.start d pos.length)
    let x ← getRow Xmin i
    let L ← env.chol cov
    kaLoop env par d Xmin r L n (par.burnIn + par.periods * n + 1) 0 x (kaP env par.h d Xmin r x) []

/-- `sampling_algorithm` and `iterated_sampling`, oversampling/_kerneladasyn.py:188-286; `again c X y` is the call of the new
`KernelADASYN` on the transformed rows with `c` columns. -/
def kaAlg (env : KaEnv) (par : KaParams) (d : Nat) (again : Nat → List Row → List Int → Res (List Row × List Int)) (s : Stats)
    (X : List Row) (y : List Int) : Res (List Row × List Int) := do
  let n ← detNToSample (.num par.proportion) (s.count s.majLabel) (s.count s.minLabel)
  if n = 0 then return (X, y)
  let Xmin := selectLabel X y s.minLabel
  let indices := env.knn (min Xmin.length (par.k + 1)) X Xmin
  let rScore ← (List.range Xmin.length).mapM (fun i => do
    let row ← getRow indices i
    let ls ← takeRows y row.tail
    return ls.count s.majLabel)
  if rScore.countP (fun q => decide (0 < q)) < 2 then return (X, y)
  let r := fixDensity (rScore.map (fun q : Nat => XF.fin (q : ℚ)))
  let cov := gCov d (((List.range Xmin.length).filter (fun i => decide (0 < r.getD i 0))).map (fun i => Xmin.getD i []))
  if 1 < d ∧ env.ill cov = true then
    if d ≤ 2 then return (X, y)
    let c := (npRoundHalfEven ((d : ℚ) / 2)).toNat
    if X.length < c then .error .valueError
    else
      let t := env.pca c X
      let res ← again c t.1 y
      return (res.1.map t.2, res.2)
  else
    let samples ← kaMcmc env par d Xmin r cov n
    return withSamples X y s.minLabel samples

/-- `KernelADASYN.sample`; at most `fuel` nested calls are followed. Used for base/_oversampling.py:212-247. -/
def kaSample (env : KaEnv) (par : KaParams) : Nat → Nat → List Row → List Int → Res (List Row × List Int)
  | 0, _, _, _ => .error .recursionError
  | fuel + 1, d, X, y => sample defaultChecks d (kaAlg env par d (kaSample env par fuel)) X y

end Verif

import Verif.Model.Base
import Verif.Model.Interp
import Verif.Model.Simplex

/-!
# SSO

The radial basis function network (k-means centres, the linear regression, the error functions) is a parameter: `stsm t X y` are the values
`f ** 2 - 2 * f * I_1 + I_2` of the minority rows in the round `t`, or the exception it raises (`LinearRegression.fit` refuses NaN, which
appears if two centres are equal). `kdist k X Q` is the distance of every row of `Q` from its `k`-th nearest row of `X`, `sqrt` the square
root, `pick t i` and `lam t i k` the uniform numbers of the round `t`.
-/

namespace Verif

/-- Used for oversampling/_sso.py:302-326 and oversampling/_sso.py:255-300. -/
structure SsoEnv where
  stsm : Nat → List Row → List Int → Res (List XF)
  kdist : Nat → List Row → List Row → List ℚ
  sqrt : ℚ → ℚ
  pick : Nat → Nat → ℚ
  lam : Nat → Nat → Nat → ℚ

/-- `np.abs`, oversampling/_sso.py:389. -/
def XF.mag : XF → XF
  | .fin q => .fin |q|
  | .nan => .nan
  | _ => .posInf

/-- `determine_Q`, oversampling/_sso.py:302-326. -/
def ssoQ (env : SsoEnv) (k d : Nat) (X Xmin : List Row) : ℚ :=
  let dist := env.kdist (min (k + 1) X.length) X Xmin
  dist.sum / dist.length / env.sqrt d

/-- `calculate_vectors` and `determine_Q_and_weights`, oversampling/_sso.py:255-300, 357-392: the weights. With one centre the query of two
neighbours raises `ValueError`. -/
def ssoWeights (env : SsoEnv) (h t : Nat) (X : List Row) (y : List Int) (Xmin : List Row) : Res (List ℚ) :=
  if min h Xmin.length < 2 then .error .valueError
  else do
    let v ← env.stsm t X y
    return fixDensity (v.map XF.mag)

/-- `generate_samples`, oversampling/_sso.py:328-355. -/
def ssoGenerate (env : SsoEnv) (t d : Nat) (Xmin : List Row) (weights : List ℚ) (Q : ℚ) (s : Nat) : Res (List Row) := do
  let idx ← npChoice Xmin.length s weights (env.pick t)
  let base ← takeRows Xmin idx
  return (List.range s).map (fun i =>
    let w := weights.getD (idx.getD i 0) 0
    (List.range d).map (fun k => (base.getD i []).getD k 0 + Q * (env.lam t i k * (2 * (1 - w)) - (1 - w))))

/-- The loop, oversampling/_sso.py:414-426: `fuel` rounds are left, `t` is the number of the round. -/
def ssoLoop (env : SsoEnv) (k h d : Nat) (a : Int) (s : Nat) : Nat → Nat → List Row → List Int → Res (List Row × List Int)
  | 0, _, X, y => .ok (X, y)
  | fuel + 1, t, X, y => do
    let Xmin := selectLabel X y a
    let weights ← ssoWeights env h t X y Xmin
    let samples ← ssoGenerate env t d Xmin weights (ssoQ env k d X Xmin) s
    ssoLoop env k h d a s fuel (t + 1) (X ++ samples) (y ++ List.replicate samples.length a)

/-- `SSO.sampling_algorithm`, oversampling/_sso.py:394-426. `k` is `n_neighbors`; `det_n_to_sample` with one argument uses the class
statistics. Nothing is returned early if no row is requested. -/
def ssoAlg (env : SsoEnv) (proportion : ℚ) (k h nIter d : Nat) (s : Stats) (X : List Row) (y : List Int) : Res (List Row × List Int) := do
  let n ← detNToSample (.num proportion) (s.count s.majLabel) (s.count s.minLabel)
  ssoLoop env k h d s.minLabel (max 1 (n / nIter)) nIter 0 X y

end Verif

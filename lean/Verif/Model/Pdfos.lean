import Verif.Model.Base
import Verif.Model.Checks
import Verif.Model.Interp
import Verif.Model.Dbsmote
import Verif.Model.Distances
import Verif.Model.Polynom

/-!
# PDFOS

With the default metric learning method (`"cov_min"`). A `LinAlgError` is `none`. External functions are parameters: `fit` the mean and the
scale of a `StandardScaler`; `eig` the eigenvalues and eigenvectors of the covariance matrix of rows with at least two columns (real parts);
`tensor` the inverse of the repaired covariance matrix of rows; `inv` the inverse; `sigmas` the values of `np.logspace(-5, 2, num=20)`;
`err` the function `M`; `reduce` the rows chosen for it; `normal c S i` the `i`-th row of length `c` drawn with the covariance `S`; `base i` the `i`-th index drawn.
-/

namespace Verif

/-- Used for oversampling/_pdfos.py:40-62 and oversampling/_pdfos.py:175-210. -/
structure PdEnv where
  fit : List Row → Row × Row
  eig : List Row → Option (List (ℚ × Row))
  tensor : List Row → Option (List Row)
  inv : List Row → Option (List Row)
  sigmas : List ℚ
  err : ℚ → List Row → List Row → XF
  reduce : List Row → List Row
  normal : Nat → List Row → Nat → Row
  base : Nat → Nat → Nat

/-- `FullRankTransformer.fit`, oversampling/_pdfos.py:40-62: the mean and the kept eigenvectors (columns of `transformation`). With one
column `np.cov` returns a scalar and `np.linalg.eig` raises `LinAlgError`. -/
def pdFit (env : PdEnv) (eps : ℚ) (d : Nat) (rows : List Row) : Option (Row × List Row) :=
  if d = 1 then none
  else (env.eig rows).map (fun e => (meanRow d rows, (e.filter (fun p => decide (eps < p.1))).map Prod.snd))

/-- `FullRankTransformer.transform`, oversampling/_pdfos.py:64-76, for one row. -/
def pdTransform (mean : Row) (vs : List Row) (r : Row) : Row := vs.map (fun v => dotRow (Row.sub r mean) v)

/-- `FullRankTransformer.inverse_transform`, oversampling/_pdfos.py:78-88, for one row. -/
def pdInverse (d : Nat) (mean : Row) (vs : List Row) (t : Row) : Row :=
  (List.range d).map (fun k => ((List.range vs.length).map (fun j => t.getD j 0 * (vs.getD j []).getD k 0)).sum + mean.getD k 0)

/-- The loop of `find_best_sigma`, oversampling/_pdfos.py:189-210. -/
def pdSigmaLoop (err : ℚ → XF) : List ℚ → ℚ × XF → ℚ × XF
  | [], best => best
  | s :: ss, best => pdSigmaLoop err ss (if XF.lt (err s) best.2 then (s, err s) else best)

/-- `find_best_sigma`, oversampling/_pdfos.py:175-210. -/
def pdSigma (env : PdEnv) (rows : List Row) (Sinv : List Row) : ℚ :=
  (pdSigmaLoop (fun s => env.err s (env.reduce rows) Sinv) env.sigmas (0, .posInf)).1

/-- The loop of `sample`, oversampling/_pdfos.py:260-267. -/
def pdSampleLoop (Xb : List Row) (raw : List Row) : List (Nat × Nat) → Nat → Res (List Row)
  | [], _ => .ok []
  | (b, c) :: us, loc => do
    let r ← getRow Xb b
    let rest ← pdSampleLoop Xb raw us (loc + c)
    return ((raw.drop loc).take c).map (fun z => Row.add r z) ++ rest

/-- `PDFOSKDE.fit` and `PDFOSKDE.sample`, oversampling/_pdfos.py:212-268. `none` is a `LinAlgError` of `fit`; the metric tensor `"cov_min"`
(base/_metrictensor.py:613-615) is that of the rows labelled 1, with one column again an error. `multivariate_normal` raises `ValueError` in
dimension zero. -/
def pdKde (env : PdEnv) (d : Nat) (Xmin Xml : List Row) (y : List Int) (n : Nat) : Option (Res (List Row)) := do
  let (mean, vs) ← pdFit env (1 / 50) d Xmin
  let Xb := Xmin.map (pdTransform mean vs)
  if vs.length = 1 then none
  else
    let Sinv ← env.tensor (selectLabel (Xml.map (pdTransform mean vs)) y 1)
    let S ← env.inv Sinv
    let sigma := pdSigma env Xb Sinv
    let S' := S.map (Row.smul sigma)
    return (if vs.length = 0 then .error .valueError
      else do
        let raw := (List.range n).map (env.normal vs.length S')
        let idx := (List.range n).map (env.base Xb.length)
        let samples ← pdSampleLoop Xb raw (npUniqueCounts idx) 0
        return samples.map (pdInverse d mean vs))

/-- `PDFOS.sampling_algorithm`, oversampling/_pdfos.py:341-380. -/
def pdAlg (env : PdEnv) (proportion : ℚ) (d : Nat) (s : Stats) (X : List Row) (y : List Int) : Res (List Row × List Int) := do
  let n ← detNToSample (.num proportion) (s.count s.majLabel) (s.count s.minLabel)
  if n = 0 then return (X, y)
  let sc := env.fit X
  let Xs := X.map (scaleRow sc.1 sc.2)
  match pdKde env d (selectLabel Xs y s.minLabel) Xs y n with
  | none => return (X, y)
  | some r => do
    let samples ← r
    return withSamples X y s.minLabel (samples.map (unscaleRow sc.1 sc.2))

end Verif

import Verif.Model.Base
import Verif.Model.Interp
import Verif.Model.Simplex
import Verif.Model.Distances
import Verif.Model.Polynom

/-!
# MDO

The principal components are a parameter: `pca c rows` are `c` rows of coefficients (the data are centred before, so the mean the PCA
subtracts is zero). `sqrt` is the square root, `pick t` the uniform number behind the `t`-th `choice`, `u t j` the uniform numbers behind
the coordinates of the `t`-th sample.
-/

namespace Verif

/-- `V[V < 0.001] = 0.001` and `alpha_V[alpha_V < 0.001] = 0.001`, oversampling/_mdo.py:132, 176, for one entry. -/
def mdoClip (v : ℚ) : ℚ := if v < 1 / 1000 then 1 / 1000 else v

/-- `np.var(T, axis=0)`, oversampling/_mdo.py:174, for the column `j`. -/
def mdoVar (T : List Row) (j : Nat) : ℚ :=
  let col := T.map (fun r => r.getD j 0)
  let m := col.sum / T.length
  (col.map (fun v => (v - m) * (v - m))).sum / T.length

/-- `generate_1_sample`, oversampling/_mdo.py:120-152. `X_new[-1]` raises `IndexError` without a component. -/
def mdoOne (sqrt : ℚ → ℚ) (u : Nat → ℚ) (alpha : ℚ) (V : List ℚ) : Res Row :=
  match V.getLast? with
  | none => .error .indexError
  | some vLast =>
    let aV := V.map (fun v => mdoClip (alpha * v))
    let head := (List.range (V.length - 1)).map (fun j => (2 * u j - 1) * sqrt (aV.getD j 0))
    let s := ((List.range (V.length - 1)).map (fun j => head.getD j 0 * head.getD j 0 / aV.getD j 0)).sum
    let last := sqrt (max ((1 - s) * alpha * vLast) 0) * (if s ≤ 1 then 1 else 0)
    .ok (head ++ [(2 * u (V.length - 1) - 1) * last])

/-- `pca.inverse_transform(...) + mu`, oversampling/_mdo.py:194, for one row. -/
def mdoBack (d : Nat) (W : List Row) (mu t : Row) : Row :=
  (List.range d).map (fun k => ((List.range W.length).map (fun j => t.getD j 0 * (W.getD j []).getD k 0)).sum + mu.getD k 0)

/-- `generate_samples`, oversampling/_mdo.py:154-194. `choice` is called once per sample and validates its weights each time; with weights
that sum up to zero they are NaN and it raises `ValueError`, as it does in `npChoice` for a sum other than one. `np.vstack([])` raises
`ValueError` if nothing is requested, which the caller excludes. -/
def mdoSamples (pca : Nat → List Row → List Row) (sqrt : ℚ → ℚ) (pick : Nat → ℚ) (u : Nat → Nat → ℚ) (d : Nat) (sel : List Row)
    (weights : List ℚ) (n : Nat) : Res (List Row) := do
  let mu := meanRow d sel
  let Z := sel.map (fun r => Row.sub r mu)
  let W := pca (min d Z.length) Z
  let T := Z.map (fun z => W.map (fun w => dotRow z w))
  let V := (List.range W.length).map (fun j => mdoClip (mdoVar T j))
  (List.range n).mapM (fun t => do
    let c ← npChoice sel.length 1 weights (fun _ => pick t)
    let idx ← getRow c 0
    let row ← getRow T idx
    let alpha := ((List.range V.length).map (fun j => row.getD j 0 * row.getD j 0 / V.getD j 0)).sum
    let x ← mdoOne sqrt (u t) alpha V
    return mdoBack d W mu x)

/-- `MDO.sampling_algorithm`, oversampling/_mdo.py:196-251. `K2 = k2`, `K1_frac = frac`. -/
def mdoAlg (proportion : ℚ) (k2 : Nat) (frac : ℚ) (pca : Nat → List Row → List Row) (sqrt : ℚ → ℚ) (pick : Nat → ℚ) (u : Nat → Nat → ℚ)
    (knn : Nat → List Row → List Row → List (List Nat)) (d : Nat) (s : Stats) (X : List Row) (y : List Int) :
    Res (List Row × List Int) := do
  let n ← detNToSample (.num proportion) (s.count s.majLabel) (s.count s.minLabel)
  if n = 0 then return (X, y)
  let Xmin := selectLabel X y s.minLabel
  let K1 := min ⌊(k2 : ℚ) * frac⌋.toNat X.length
  let K2 := min (k2 + 1) X.length
  let ind := knn K2 X Xmin
  let nMin ← ind.mapM (fun row => do
    let ls ← takeRows y row.tail
    return ls.count s.minLabel)
  let keep := (List.range Xmin.length).filter (fun i => decide (K1 ≤ nMin.getD i 0))
  let sel := keep.map (fun i => Xmin.getD i [])
  if sel = [] then return (X, y)
  let w := keep.map (fun i => (nMin.getD i 0 : ℚ) / K2)
  let weights := w.map (fun q => q / w.sum)
  let samples ← mdoSamples pca sqrt pick u d sel weights n
  return withSamples X y s.minLabel samples

end Verif

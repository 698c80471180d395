import Verif.Model.Base
import Verif.Model.Smote
import Verif.Model.Distances
import Verif.Model.Asmobd

/-!
# ADG

The clusterings, the mixtures and their scores, the solver of linear equations and the principal components are parameters; the kernel is
a function of two rows. The matrices are modelled as lists of rows.
-/

namespace Verif

/-- What ADG calls. `kmeans d c rows`: the labels of `KMeans(c)`; `kbic d c rows`: `bic_score`; `gmm d c rows`: fitting a mixture of `c`
components and its score; `draw d t c rows q`: `sample(q)` of that mixture in round `t`; `solve A b`: `np.linalg.solve`, `none` for a
`LinAlgError`; `pca c rows`: `transform` and `inverse_transform` of `PCA(c).fit(rows)`.
Used for oversampling/_adg.py:638-654 and oversampling/_adg.py:718-745. -/
structure AdgEnv where
  kernel : Row → Row → ℚ
  kmeans : Nat → Nat → List Row → List Nat
  kbic : Nat → Nat → List Row → XF
  gmm : Nat → Nat → List Row → Res XF
  draw : Nat → Nat → Nat → List Row → Nat → List Row
  solve : List Row → Row → Option Row
  pca : Nat → List Row → (Row → Row) × (Row → Row)

/-- oversampling/_adg.py:298-304. -/
structure AdgParams where
  proportion : ℚ
  lam : ℚ
  mu : ℚ
  k : Nat
  gamma : ℚ

/-- The choice of `xmeans` and `xgmeans`, oversampling/_adg.py:79-105 and 108-135: the number with the lowest score, if one is below
infinity. -/
def adgPick (score : Nat → Res XF) (n : Nat) : Res (Option Nat) := do
  let r ← (List.range' 1 (min 10 n - 1)).foldlM (init := (XF.posInf, (none : Option Nat))) (fun best c => do
    let v ← score c
    return if v.lt best.1 then (v, some c) else best)
  return r.2

/-- `A Bᵀ`. Used for oversampling/_adg.py:138-184 and oversampling/_adg.py:400-462. -/
def adgDot (A B : List Row) : List Row := A.map (fun r => B.map (fun s => dotRow r s))
/-- `np.outer(u, v)`. Used for oversampling/_adg.py:138-184 and oversampling/_adg.py:400-462. -/
def adgOuter (u v : Row) : List Row := u.map (fun a => v.map (fun b => a * b))
/-- A pointwise operation on two matrices. Used for oversampling/_adg.py:138-184 and oversampling/_adg.py:464-551. -/
def adgZip (f : ℚ → ℚ → ℚ) (A B : List Row) : List Row := List.zipWith (List.zipWith f) A B
/-- `np.mean` of a list of numbers (not used for an empty one). Used for oversampling/_adg.py:138-184 and oversampling/_adg.py:464-551. -/
def adgMean (l : Row) : ℚ := l.sum / (l.length : ℚ)
/-- `pairwise_distances(A, B, metric=kernel)`, oversampling/_adg.py:163, 573 and 614. -/
def adgKernel (kernel : Row → Row → ℚ) (A B : List Row) : List Row := A.map (fun a => B.map (fun b => kernel a b))

/-- `partial_results`, with `X` and `y`; `total` is `total_added`. Used for oversampling/_adg.py:138-184 and oversampling/_adg.py:464-551. -/
structure AdgState where
  minus : List Row
  plus : List Row
  hat : List Row
  y : List Int
  K : List Row
  mMinus : Row
  M : ℚ
  kPlus2 : List Row
  kMinus2 : List Row
  N : List Row
  total : Nat

/-- The current `X`. Used for oversampling/_adg.py:581-636 and oversampling/_adg.py:718-745. -/
def AdgState.X (st : AdgState) : List Row := st.minus ++ st.hat

/-- `evaluate_matrices` (called without labels: `maj_label=0`, `min_label=1`) and `initialize_matrices`, oversampling/_adg.py:138-184 and
324-362. -/
def adgStart (kernel : Row → Row → ℚ) (X : List Row) (y : List Int) : AdgState :=
  let minus := selectLabel X y 0
  let plus := selectLabel X y 1
  let K := adgKernel kernel (minus ++ plus) (minus ++ plus)
  let kPlus := K.map (fun r => r.drop minus.length)
  let kMinus := K.map (fun r => r.take minus.length)
  let mPlus := kPlus.map adgMean
  let mMinus := kMinus.map adgMean
  let diff := List.zipWith (· - ·) mMinus mPlus
  let kPlusSum := kPlus.map List.sum
  let kMinusSum := kMinus.map List.sum
  let plusDiad := (adgOuter kPlusSum kPlusSum).map (fun r => r.map (fun v => v / (plus.length : ℚ)))
  let minusDiad := (adgOuter kMinusSum kMinusSum).map (fun r => r.map (fun v => v / (minus.length : ℚ)))
  { minus := minus, plus := plus, hat := plus, y := List.replicate minus.length 0 ++ List.replicate plus.length 1, K := K,
    mMinus := mMinus, M := dotRow diff diff, kPlus2 := adgDot kPlus kPlus, kMinus2 := adgDot kMinus kMinus,
    N := adgZip (· - ·) (adgZip (· + ·) (adgZip (· - ·) (adgDot kPlus kPlus) plusDiad) (adgDot kMinus kMinus)) minusDiad, total := 0 }

/-- `k_c`, oversampling/_adg.py:536-537. -/
def adgKc (k : Nat) (lc : List ℚ) : List ℚ :=
  lc.map (fun l => let v := ⌊(1 / l) / (lc.map (fun l => 1 / l)).sum * (k : ℚ)⌋; if v = 0 then 1 else (v : ℚ))

/-- Steps 1 to 4, oversampling/_adg.py:464-551, for the labels of the chosen clustering: the matrix `A` and the vector `b`; `none` if
they contain NaN (a cluster without rows, or no rows with the label 0). -/
def adgSystem (par : AdgParams) (st : AdgState) (c : Nat) (labels : List Nat) : Option (List Row × Row) :=
  let lc := (List.range c).map (fun i => (labels.count i : ℚ))
  if st.minus = [] ∨ (0 : ℚ) ∈ lc then none else
  let kc := adgKc par.k lc
  let lamC := lc.map (fun l => par.lam / l)
  let muC := lc.map (fun l => par.mu / l)
  let omega := - (List.zipWith (fun (kl : ℚ × ℚ) m => kl.1 * kl.2 ^ 2 / (4 * m ^ 2)) (kc.zip lamC) muC).sum
  let A := adgZip (fun n k => (st.M - par.gamma * n) - omega * k) st.N st.K
  let nu := List.zipWith (fun k l => -(1 / 2) * k * l) kc lamC
  let mPlusC := (List.range c).map (fun i =>
    adgMean (st.K.map (fun r => ((r.drop st.minus.length).zip labels).filterMap (fun p => if p.2 = i then some p.1 else none))).flatten)
  let b := st.mMinus.map (fun m => (List.zipWith (fun mp v => (m - mp) * v) mPlusC nu).sum)
  some (A, b)

/-- Step 5 to 7, oversampling/_adg.py:553-579: the drawn rows on the positive side; the comparison with NaN is never true. -/
def adgKeep (kernel : Row → Row → ℚ) (X : List Row) (alpha : Option Row) (z : List Row) : List Row :=
  match alpha with
  | none => []
  | some al => z.filter (fun r => decide (0 < dotRow (X.map (kernel r)) al))

/-- Steps 9 to 16, oversampling/_adg.py:581-636. -/
def adgExtend (kernel : Row → Row → ℚ) (minLabel : Int) (st : AdgState) (zhat : List Row) : AdgState :=
  let k10 := adgKernel kernel zhat st.X
  { st with
    hat := st.hat ++ zhat,
    y := st.y ++ List.replicate zhat.length minLabel,
    K := (st.K.zip (List.range st.K.length)).map (fun r => r.1 ++ k10.map (fun q => q.getD r.2 0)) ++
      List.zipWith (· ++ ·) k10 (adgKernel kernel zhat zhat),
    total := st.total + zhat.length }

/-- `np.block([[P, C], [C.T, D]])`. Used for oversampling/_adg.py:400-462. -/
def adgBlock (P C D : List Row) : List Row :=
  List.zipWith (· ++ ·) P C ++ List.zipWith (· ++ ·) ((List.range D.length).map (fun j => C.map (fun r => r.getD j 0))) D

/-- `update_partial_results` after `new` rows were added, oversampling/_adg.py:400-462. -/
def adgUpdate (st : AdgState) (new : Nat) : AdgState :=
  let kPlus := st.K.map (fun r => r.drop st.minus.length)
  let kMinus := st.K.map (fun r => r.take st.minus.length)
  let old := st.K.length - new
  let mPlus := kPlus.map adgMean
  let mMinus := kMinus.map adgMean
  let diff := List.zipWith (· - ·) mMinus mPlus
  let kMinus2 := adgBlock st.kMinus2 (adgDot (kMinus.take old) (kMinus.drop old)) (adgDot (kMinus.drop old) (kMinus.drop old))
  let kMinusSum := mMinus.map (fun v => v * (kMinus.length : ℚ))
  let part := (kPlus.take old).map (fun r => r.drop new)
  let kPlus2 := adgBlock (adgZip (· + ·) st.kPlus2 (adgDot part part)) (adgDot (kPlus.take old) (kPlus.drop old))
    (adgDot (kPlus.drop old) (kPlus.drop old))
  let kPlusSum := mPlus.map (fun v => v * (kPlus.length : ℚ))
  let plusDiad := adgOuter (kPlusSum.map (fun v => v / (st.hat.length : ℚ))) kPlusSum
  let minusDiad := adgOuter (kMinusSum.map (fun v => v / (st.minus.length : ℚ))) kMinusSum
  { st with mMinus := mMinus, M := dotRow diff diff, kMinus2 := kMinus2, kPlus2 := kPlus2,
            N := adgZip (· - ·) (adgZip (· + ·) (adgZip (· - ·) kPlus2 plusDiad) kMinus2) minusDiad }

/-- How a round ends: a singular matrix, a `ValueError` before or after rows were added, or normally.
Used for oversampling/_adg.py:718-745 and oversampling/_adg.py:705-745. -/
inductive AdgTurn
  | singular
  | stop
  | early (st : AdgState)
  | next (st : AdgState)

/-- `alpha_star`, oversampling/_adg.py:638-654 and 712-716; a system with NaN has a solution with NaN. -/
def adgAlpha (env : AdgEnv) (par : AdgParams) (st : AdgState) (c : Nat) (labels : List Nat) : Option (Option Row) :=
  match adgSystem par st c labels with
  | none => some none
  | some (A, b) => (env.solve A b).map some

/-- The rest of a round after `alpha_star` is known, oversampling/_adg.py:718-745. -/
def adgFinish (env : AdgEnv) (minLabel : Int) (d t q : Nat) (st : AdgState) (alpha : Option Row) : Res AdgTurn :=
  match adgPick (fun c => env.gmm d c st.plus) st.plus.length with
  | .error .valueError => .ok .stop
  | .error e => .error e
  | .ok none => .error .attributeError
  | .ok (some c) =>
    let zhat := adgKeep env.kernel st.X alpha (env.draw d t c st.plus q)
    if zhat = [] then .ok .stop else
    let st' := adgExtend env.kernel minLabel st zhat
    if (zhat.length : ℚ) / (st'.total : ℚ) < 1 / 100 then .ok (.early st') else .ok (.next (adgUpdate st' zhat.length))

/-- One round, oversampling/_adg.py:705-745. -/
def adgTurn (env : AdgEnv) (par : AdgParams) (minLabel : Int) (d t q : Nat) (st : AdgState) : Res AdgTurn :=
  match adgPick (fun c => .ok (env.kbic d c st.hat)) st.hat.length with
  | .error e => .error e
  | .ok none => .error .attributeError
  | .ok (some c) =>
    match adgAlpha env par st c (env.kmeans d c st.hat) with
    | none => .ok .singular
    | some alpha => adgFinish env minLabel d t q st alpha

/-- The loop, oversampling/_adg.py:704-745, with a bound for the number of rounds that is always large enough: the state at the end, and
whether a singular matrix ended it. -/
def adgLoop (env : AdgEnv) (par : AdgParams) (minLabel : Int) (d : Nat) : Nat → Nat → Nat → AdgState → Res (AdgState × Bool)
  | 0, _, _, st => .ok (st, false)
  | f + 1, t, q, st =>
    if q ≤ 1 then .ok (st, false) else
    match adgTurn env par minLabel d t (q / 2) st with
    | .error e => .error e
    | .ok .singular => .ok (st, true)
    | .ok .stop => .ok (st, false)
    | .ok (.early st') => .ok (st', false)
    | .ok (.next st') => adgLoop env par minLabel d f (t + 1) (q / 2) st'

/-- `ADG.sampling_algorithm`, oversampling/_adg.py:663-761, with `again` for the run in fewer dimensions
(`sample_with_n_components`, oversampling/_adg.py:364-398). -/
def adgAlg (env : AdgEnv) (par : AdgParams) (again : Nat → List Row → List Int → Res (List Row × List Int)) (d : Nat) (s : Stats)
    (X : List Row) (y : List Int) : Res (List Row × List Int) := do
  let n ← detNToSample (.num par.proportion) (s.count s.majLabel) (s.count s.minLabel)
  if n = 0 then return (X, y)
  let st := adgStart env.kernel X y
  if st.X = [] then throw .valueError
  let r ← adgLoop env par s.minLabel d (2 * n) 0 (2 * n) st
  if r.2 = true ∧ 0 < d / 2 then
    let p := env.pca (d / 2) r.1.X
    let o ← again (d / 2) (r.1.X.map p.1) r.1.y
    return (o.1.map p.2, o.2)
  else return (r.1.X, r.1.y)

/-- `ADG.sample`; every run in fewer dimensions has less than the dimensions of the one before.
Used for oversampling/_adg.py:663-761 and base/_oversampling.py:212-247. -/
def adgRun (env : AdgEnv) (par : AdgParams) : Nat → Nat → List Row → List Int → Res (List Row × List Int)
  | 0, _, _, _ => .error .recursionError
  | f + 1, d, X, y => sample defaultChecks d (adgAlg env par (adgRun env par f) d) X y

end Verif

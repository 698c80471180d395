import Verif.Model.Smote
import Verif.Model.Interp
import Verif.Model.Multiclass

/-!
# Sampling with rounding

The other models compute with exact rational numbers. Here the arithmetic of the new rows is that of the machine: every operation rounds its
result. Which rows are mixed (neighbours, choices) is as in the exact models. Overflow, underflow and NaN are left out.
-/

namespace Verif

/-- The arithmetic of the machine: rounding of the result of one operation, and `np.sum` of a vector.
Used for base/_simplexsampling.py:203-244 and base/_oversampling.py:53-80. -/
structure MachineArith where
  fl : ℚ → ℚ
  sum : List ℚ → ℚ

/-- Exact arithmetic. Used for base/_simplexsampling.py:203-244. -/
def MachineArith.exact : MachineArith := ⟨id, List.sum⟩

/-- base/_simplexsampling.py:224-225: the drawn numbers divided by their sum; `nan` if it is zero. -/
def flNormalize (A : MachineArith) (u : List ℚ) : Res (List ℚ) :=
  if A.sum u = 0 then .error .nan else .ok (u.map (fun x => A.fl (x / A.sum u)))

/-- base/_simplexsampling.py:240-242: the vertices times the weights, added up coordinate by coordinate. -/
def flPoint (A : MachineArith) (d : Nat) (w : List ℚ) (vs : List Row) : Row :=
  (List.range d).map (fun c => A.sum (List.zipWith (fun (v : Row) x => A.fl (v.getD c 0 * x)) vs w))

/-- `random_samples_from_simplices` without vertex weights, base/_simplexsampling.py:203-244. -/
def flRandomSamples (A : MachineArith) (d : Nat) (X : List Row) (simplices : List (List Nat)) (Xv : Option (List Row)) (u : Nat → Nat → ℚ) :
    Res (List Row) :=
  simplices.zipIdx.mapM (fun (s, i) => do
    let w ← flNormalize A ((List.range s.length).map (u i))
    let vs ← simplexVertices X Xv none s
    return flPoint A d w vs)

/-- `OverSamplingBase.det_n_to_sample` for a number, base/_oversampling.py:155-183: the product is rounded before `int`. -/
def flDetN (fl : ℚ → ℚ) (q : ℚ) (nMaj nMin : Nat) : Res Nat := .ok (max 0 (pyInt (fl (((nMaj : ℚ) - (nMin : ℚ)) * q)))).toNat

/-- `SMOTE.sampling_algorithm`, oversampling/_smote.py:104-139, with base/_simplexsampling.py:650-722 for random points within the simplices
and without a gaussian component (the defaults). -/
def flSmoteAlg (A : MachineArith) (par : SmoteParams) (vol : List Row → ℚ) (dr : Draws) (d : Nat)
    (knn : Nat → List Row → List (List Nat)) (s : Stats) (X : List Row) (y : List Int) : Res (List Row × List Int) := do
  let n ← flDetN A.fl par.proportion (s.count s.majLabel) (s.count s.minLabel)
  if n = 0 then return (X, y)
  let Xmin := selectLabel X y s.minLabel
  let k := min Xmin.length (par.nNeighbors + 1)
  let sel ← simplicesSel par.ss.simplexSampling vol dr.choiceU Xmin n none (knn k Xmin) k none none (min par.ss.nDim k)
  let samples ← flRandomSamples A d Xmin sel none dr.simplexU
  return (X ++ samples, y ++ List.replicate n s.minLabel)

/-- `a + (b - a) * u` with rounding. Used for base/_oversampling.py:53-80 and oversampling/_random_smote.py:141-147. -/
def flMixRow (fl : ℚ → ℚ) (a b : Row) (u : Nat → ℚ) : Row :=
  (List.zip a b).zipIdx.map (fun p => fl (p.1.1 + fl (fl (p.1.2 - p.1.1) * u p.2)))

/-- `splits` of `add_samples`, base/_simplexsampling.py:265. -/
def flSplit (fl : ℚ → ℚ) (count j : Nat) : ℚ := fl (fl (1 / ((count : ℚ) + 1)) * j)

/-- `add_samples` without vertex weights, base/_simplexsampling.py:247-279. The multiplication of the differences by `1.0` is exact and left out. -/
def flAddSamples (fl : ℚ → ℚ) (pairs : List ((Nat × Nat) × Nat)) (count : Nat) (X V : List Row) : Res (List Row) := do
  let filtered := (pairs.filter (fun pc => pc.2 == count)).map Prod.fst
  let rows ← filtered.mapM (fun p => do
    let base ← getRow X p.1
    let nb ← getRow V p.2
    return (base, nb))
  return (List.range' 1 count).flatMap (fun (j : Nat) => rows.map (fun bn => flMixRow fl bn.1 bn.2 (fun _ => flSplit fl count j)))

/-- `deterministic_samples_dim_2` without other vertices and weights, base/_simplexsampling.py:564-606. -/
def flDeterministicDim2 (fl : ℚ → ℚ) (X : List Row) (simplices : List (List Nat)) : Res (List Row) := do
  let pairs ← simplices.mapM edgeOf
  let pairs := pairs.map (fun p => (min p.1 p.2, max p.1 p.2))
  let uc := (npUniqueCounts (pairs.map (fun p => toLex p))).map (fun vc => (ofLex vc.1, vc.2))
  let maxCount := (uc.map Prod.snd).foldr max 0
  let present := (List.range' 1 maxCount).filter (fun c => (uc.map Prod.snd).contains c)
  let parts ← present.mapM (fun c => flAddSamples fl uc c X X)
  return parts.flatten

/-- `SMOTE.sampling_algorithm`, oversampling/_smote.py:104-139, with the points on the edges of base/_simplexsampling.py:564-606
(`within_simplex_sampling = 'deterministic'`) and without a gaussian component. -/
def flSmoteDetAlg (fl : ℚ → ℚ) (par : SmoteParams) (vol : List Row → ℚ) (dr : Draws)
    (knn : Nat → List Row → List (List Nat)) (s : Stats) (X : List Row) (y : List Int) : Res (List Row × List Int) := do
  let n ← flDetN fl par.proportion (s.count s.majLabel) (s.count s.minLabel)
  if n = 0 then return (X, y)
  let Xmin := selectLabel X y s.minLabel
  let k := min Xmin.length (par.nNeighbors + 1)
  let sel ← simplicesSel par.ss.simplexSampling vol dr.choiceU Xmin n none (knn k Xmin) k none none (min par.ss.nDim k)
  let samples ← if min par.ss.nDim k = 2 then flDeterministicDim2 fl Xmin sel else deterministicSamples Xmin sel none false none (min par.ss.nDim k)
  return (X ++ samples, y ++ List.replicate n s.minLabel)

/-- One row of oversampling/_random_smote.py:138-147. -/
def flRandomSmoteRow (fl : ℚ → ℚ) (dr : RsDraws) (Xmin : List Row) (indices : List (List Nat)) (i : Nat) : Res Row := do
  let base ← getRow Xmin (dr.base i)
  let nbs ← getRow indices (dr.base i)
  let j1 ← getRow nbs (dr.nb1 i)
  let j2 ← getRow nbs (dr.nb2 i)
  let y1 ← getRow Xmin j1
  let y2 ← getRow Xmin j2
  return flMixRow fl base (flMixRow fl y1 y2 (dr.u1 i)) (dr.u2 i)

/-- `Random_SMOTE.sampling_algorithm`, oversampling/_random_smote.py:98-152. -/
def flRandomSmoteAlg (fl : ℚ → ℚ) (proportion : ℚ) (nNeighbors : Nat) (dr : RsDraws) (knn : Nat → List Row → List (List Nat))
    (s : Stats) (X : List Row) (y : List Int) : Res (List Row × List Int) := do
  let n ← flDetN fl proportion (s.count s.majLabel) (s.count s.minLabel)
  if n = 0 then return (X, y)
  let Xmin := selectLabel X y s.minLabel
  let k := min Xmin.length (nNeighbors + 1)
  let indices := knn k Xmin
  let _ ← choiceFrom Xmin.length n dr.base
  let _ ← choiceFrom (k - 1) n dr.nb1
  let samples ← (List.range n).mapM (flRandomSmoteRow fl dr Xmin indices)
  return withSamples X y s.minLabel samples

/-- One row of oversampling/_msmote.py:133-149. -/
def flMsmoteRow (fl : ℚ → ℚ) (dr : MsDraws) (items : List MsItem) (X : List Row) (i : Nat) : Res Row := do
  let it ← getRow items (dr.base i)
  let j ← getRow it.nbs (msPosition it.type (dr.nb i))
  let nb ← getRow X j
  return flMixRow fl it.row nb (dr.u i)

/-- `MSMOTE.sampling_algorithm`, oversampling/_msmote.py:153-203. -/
def flMsmoteAlg (fl : ℚ → ℚ) (proportion : ℚ) (nNeighbors : Nat) (dr : MsDraws) (knn : Nat → List Row → List Row → List (List Nat))
    (s : Stats) (X : List Row) (y : List Int) : Res (List Row × List Int) := do
  let n ← flDetN fl proportion (s.count s.majLabel) (s.count s.minLabel)
  if n = 0 then return (X, y)
  let Xmin := selectLabel X y s.minLabel
  let k := min X.length (nNeighbors + 1)
  let indices := knn k X Xmin
  let types ← indices.mapM (msTypeOf s.minLabel k y)
  if types.all (fun t => decide (t = .noi)) then return (X, y)
  let items := (List.zip Xmin (List.zip indices types)).map (fun p => MsItem.mk p.1 p.2.1 p.2.2)
  let good := items.filter (fun it => decide (it.type ≠ .noi))
  let _ ← choiceFrom good.length n dr.base
  let samples ← (List.range n).mapM (flMsmoteRow fl dr good X)
  return withSamples X y s.minLabel samples

/-- A proportion, rounded. Used for multiclassoversampling/_multiclassoversampling.py:17-55. -/
def XF.rounded (fl : ℚ → ℚ) : XF → XF
  | .fin q => .fin (fl q)
  | x => x

/-- `MulticlassOversampling.sample`, multiclassoversampling/_multiclassoversampling.py:128-302: the proportions (lines 17-55) are only used for
the binary oversampler, which gets them rounded. -/
def flMulticlassSample (fl : ℚ → ℚ) (strategy : MultiStrategy) (over : BinOver) (X : List Row) (y : List Int) : Res (List Row × List Int) :=
  multiclassSample strategy (fun i p => over i (p.rounded fl)) X y

/-- SMOTE with rounding as binary oversampler of multiclassoversampling/_multiclassoversampling.py:128-302, oversampling/_smote.py:104-139. -/
def flSmoteOver (A : MachineArith) (par : SmoteParams) (vol : List Row → ℚ) (dr : Nat → Draws) (d : Nat)
    (knn : Nat → List Row → List (List Nat)) : BinOver := fun i p X y =>
  match p with
  | .fin q => sample defaultChecks d (flSmoteAlg A { par with proportion := q } vol (dr i) d knn) X y
  | _ => sample defaultChecks d (fun _ _ _ => .error .valueError) X y

end Verif

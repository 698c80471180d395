import Verif.Model.Noise
import Verif.Model.Interp
import Verif.Model.Smote

/-!
# Oversamplers weighting or selecting the base rows by the labels around them

`ADASYN`, `Borderline_SMOTE1`, `Borderline_SMOTE2`. `knn k X Q` is the answer of the search for `k` neighbours in `X` of every
row of `Q`; the learning of a metric tensor only influences this answer.
-/

namespace Verif

/-- `sum(y[row[1:]] == maj_label) / self.n_neighbors`, oversampling/_adasyn.py:154-157. The constructor makes sure that
`n_neighbors` is at least one. -/
def adasynRatio (y : List Int) (maj : Int) (nNeighbors : Nat) (row : List Nat) : Res ℚ := do
  let ls ← takeRows y (row.drop 1)
  return (ls.count maj : ℚ) / (nNeighbors : ℚ)

/-- Parameters of `ADASYN`, oversampling/_adasyn.py:47-97. -/
structure AdasynParams where
  nNeighbors : Nat
  dTh : ℚ
  beta : ℚ
  ss : SSParams

/-- `ADASYN.sampling_algorithm`, oversampling/_adasyn.py:114-184. Without majority rows the division in line 139 would raise
`ZeroDivisionError`. -/
def adasynAlg (par : AdasynParams) (vol : List Row → ℚ) (dr : Draws) (d : Nat)
    (knn : Nat → List Row → List Row → List (List Nat)) (s : Stats) (X : List Row) (y : List Int) :
    Res (List Row × List Int) := do
  let n ← detNToSample (.num par.beta) (s.count s.majLabel) (s.count s.minLabel)
  if n = 0 then return (X, y)
  let Xmin := selectLabel X y s.minLabel
  let mMaj := X.length - Xmin.length
  if mMaj = 0 then throw .zeroDivision
  if (Xmin.length : ℚ) / (mMaj : ℚ) > par.dTh then return (X, y)
  let k := min Xmin.length (par.nNeighbors + 1)
  let r ← (knn k X Xmin).mapM (adasynRatio y s.majLabel par.nNeighbors)
  if r.sum = 0 then return (X, y)
  let samples ← sampleSimplex par.ss vol dr d Xmin (knn k Xmin Xmin) k n
    { baseWeights := some (r.map (· / r.sum)) }
  return withSamples X y s.minLabel samples

/-- What `determine_danger_remove_noise` makes of a minority row. Used for oversampling/_borderline_smote.py:48-52. -/
inductive BorderKind
  | noise | danger | safe
  deriving DecidableEq, Repr

/-- One step of the loop in oversampling/_borderline_smote.py:48-52; `k` is the number of neighbours asked for. -/
def borderKind (k : Nat) (y : List Int) (maj : Int) (row : List Nat) : Res BorderKind := do
  let ls ← takeRows y (row.drop 1)
  if k - 1 = ls.count maj then return .noise
  let m ← pyMode ls
  return (if m = maj then .danger else .safe)

/-- The rows whose kind passes the test: `X_min[danger]`, `np.delete(X_min, noise)`. Used for oversampling/_borderline_smote.py:18-57. -/
def rowsOfKind (Xmin : List Row) (kinds : List BorderKind) (p : BorderKind → Bool) : List Row :=
  ((Xmin.zip kinds).filter (fun q => p q.2)).map Prod.fst

/-- `determine_danger_remove_noise`, oversampling/_borderline_smote.py:18-57. -/
def dangerRemoveNoise (knn : Nat → List Row → List Row → List (List Nat)) (nNeighbors : Nat) (X : List Row) (y : List Int)
    (Xmin : List Row) (maj : Int) : Res (List Row × List Row) := do
  let k := min X.length (nNeighbors + 1)
  let kinds ← (knn k X Xmin).mapM (borderKind k y maj)
  return (rowsOfKind Xmin kinds (fun q => q != .noise), rowsOfKind Xmin kinds (fun q => q == .danger))

/-- Parameters of the two Borderline-SMOTE classes, oversampling/_borderline_smote.py:95-136 and 295-336. -/
structure BorderParams where
  proportion : ℚ
  nNeighbors : Nat
  kNeighbors : Nat
  ss : SSParams

/-- `Borderline_SMOTE1.sampling_algorithm`, oversampling/_borderline_smote.py:161-239. -/
def borderline1Alg (par : BorderParams) (vol : List Row → ℚ) (dr : Draws) (d : Nat)
    (knn : Nat → List Row → List Row → List (List Nat)) (s : Stats) (X : List Row) (y : List Int) :
    Res (List Row × List Int) := do
  let n ← detNToSample (.num par.proportion) (s.count s.majLabel) (s.count s.minLabel)
  if n = 0 then return (X, y)
  let dn ← dangerRemoveNoise knn par.nNeighbors X y (selectLabel X y s.minLabel) s.majLabel
  if dn.1.length < 2 ∨ dn.2.length = 0 then return (X, y)
  let k := min dn.1.length (par.kNeighbors + 1)
  let indices := (knn k dn.1 dn.2).map (fun row => row.drop 1)
  let samples ← sampleSimplex par.ss vol dr d dn.2 indices (k - 1) n { Xv := some dn.1 }
  return withSamples X y s.minLabel samples

/-- `Borderline_SMOTE2.sampling_algorithm`, oversampling/_borderline_smote.py:361-449. -/
def borderline2Alg (par : BorderParams) (vol : List Row → ℚ) (dr : Draws) (d : Nat)
    (knn : Nat → List Row → List Row → List (List Nat)) (s : Stats) (X : List Row) (y : List Int) :
    Res (List Row × List Int) := do
  let n ← detNToSample (.num par.proportion) (s.count s.majLabel) (s.count s.minLabel)
  if n = 0 then return (X, y)
  let dn ← dangerRemoveNoise knn par.nNeighbors X y (selectLabel X y s.minLabel) s.majLabel
  if dn.1.length < 2 ∨ dn.2.length = 0 then return (X, y)
  let k := min (par.kNeighbors + 1) X.length
  let indices := (knn k X dn.2).map (fun row => row.drop 1)
  let vw := y.map (fun l => if l = s.majLabel then (1 / 2 : ℚ) else 1)
  let samples ← sampleSimplex par.ss vol dr d dn.2 indices (k - 1) n { Xv := some X, vertexWeights := some vw }
  return withSamples X y s.minLabel samples

end Verif

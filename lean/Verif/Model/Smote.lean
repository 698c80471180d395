import Verif.Model.Simplex

/-!
# Model of `smote_variants/oversampling/_smote.py` and `_adasyn.py`
-/

namespace Verif

/-- Parameters of `SMOTE` (oversampling/_smote.py:39-87). -/
structure SmoteParams where
  proportion : ℚ
  nNeighbors : Nat
  ss : SSParams

/-- `SMOTE.sampling_algorithm`, oversampling/_smote.py:104-139. `knn k rows` stands for the answer of
`NearestNeighborsWithMetricTensor(k).fit(rows).kneighbors(rows)` (one index list per row). -/
def smoteAlg (par : SmoteParams) (vol : List Row → ℚ) (dr : Draws) (d : Nat)
    (knn : Nat → List Row → List (List Nat)) (s : Stats) (X : List Row) (y : List Int) :
    Res (List Row × List Int) := do
  let n ← detNToSample (.num par.proportion) (s.count s.majLabel) (s.count s.minLabel)
  if n = 0 then return (X, y)
  let Xmin := selectLabel X y s.minLabel
  let k := min Xmin.length (par.nNeighbors + 1)
  let samples ← sampleSimplex par.ss vol dr d Xmin (knn k Xmin) k n {}
  return (X ++ samples, y ++ List.replicate n s.minLabel)

/-- `SMOTE.sample` = `OverSamplingBase.sample` with the default checks.
Used for oversampling/_amsco.py:352-369 and oversampling/_smote_enn.py:117-149. -/
def smoteSample (par : SmoteParams) (vol : List Row → ℚ) (dr : Draws) (d : Nat)
    (knn : Nat → List Row → List (List Nat)) (X : List Row) (y : List Int) :
    Res (List Row × List Int) :=
  sample defaultChecks d (smoteAlg par vol dr d knn) X y

end Verif

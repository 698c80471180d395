import Verif.Model.Clusters

/-!
# CE_SMOTE and NRAS

`clusterings X` are the `h` arrays of labels which `CE_SMOTE.do_the_clustering` computes with `KMeans` on random subsets of the
features, `propensity X y` the scores of the logistic regression, `fitScaler X` the minima and ranges of the `MinMaxScaler`,
`knn k X Q` the answer of the neighbour search.
-/

namespace Verif

/-! ## CE_SMOTE -/

/-- Used for oversampling/_ce_smote.py:217-280. -/
structure CeParams where
  proportion : ℚ
  h : Nat
  k : Nat
  alpha : ℚ
  ss : SSParams

/-- The relabelling of one clustering, oversampling/_ce_smote.py:190-195. The loop variable `kdx` still has its last value
`k - 1` from the loops above, and `row_ind` is `0, …, k - 1` (the first component of `linear_sum_assignment` of a square matrix);
the second component, the assignment, is discarded. -/
def ceRelabel (k : Nat) (labeling : List Int) : List Int :=
  (List.range k).foldl (fun relabeling (j : Nat) =>
    List.zipWith (fun l x => if l = ((k - 1 : Nat) : Int) then (j : Int) else x) labeling relabeling) labeling

/-- `cluster_matching`, oversampling/_ce_smote.py:164-197. -/
def ceMatching (k : Nat) : List (List Int) → List (List Int)
  | [] => []
  | base :: rest => base :: rest.map (ceRelabel k)

/-- `max(set(x), key=x.count)`, oversampling/_ce_smote.py:210 (the first maximal element in increasing order; the order of a
Python set matters for the label only, not for its count). -/
def ceMode (col : List Int) : Int :=
  (npUnique col).foldl (fun best v => if col.count best < col.count v then v else best) ((npUnique col).headD 0)

/-- `cluster_consistency_index` of row `i`, oversampling/_ce_smote.py:199-215. -/
def ceIndex (h : Nat) (labels : List (List Int)) (i : Nat) : ℚ :=
  let col := labels.map (fun l => l.getD i 0)
  (col.count (ceMode col) : ℚ) / (h : ℚ)

/-- `CE_SMOTE.sampling_algorithm`, oversampling/_ce_smote.py:217-280. The `return` is missing in lines 230-231, so the algorithm goes
on with zero samples to generate. -/
def ceSmoteAlg (par : CeParams) (vol : List Row → ℚ) (dr : Draws) (d : Nat) (clusterings : List Row → List (List Int))
    (knn : Nat → List Row → List Row → List (List Nat)) (s : Stats) (X : List Row) (y : List Int) :
    Res (List Row × List Int) := do
  let n ← detNToSample (.num par.proportion) (s.count s.majLabel) (s.count s.minLabel)
  let labels := ceMatching par.k (clusterings X)
  let cci := (List.range X.length).map (ceIndex par.h labels)
  let boundary := ((X.zip (y.zip cci)).filter (fun p => decide (p.2.1 = s.minLabel) && decide (p.2.2 ≤ par.alpha))).map Prod.fst
  if boundary.length ≤ par.ss.nDim - 1 then return (X, y)
  let k := min boundary.length par.k
  let samples ← sampleSimplex par.ss vol dr d boundary (knn k boundary boundary) k n {}
  return withSamples X y s.minLabel samples

/-! ## NRAS -/

/-- `t_hat < t * n_neighbors`, oversampling/_nras.py:227-228, for every row of the table. -/
def nrasNoise (t : ℚ) (k : Nat) (y : List Int) (minL : Int) (ind : List (List Nat)) : Res (List Bool) :=
  ind.mapM (fun row => do
    let ls ← takeRows y (row.drop 1)
    return decide ((ls.count minL : ℚ) < t * (k : ℚ)))

/-- `NRAS.sampling_algorithm`, oversampling/_nras.py:193-283, with `generate_samples` (163-191). The statement
`vertex_weights[y == min_label][to_remove] = 0.0` assigns to a copy, so all vertex weights stay one. -/
def nrasAlg (par : NbParams) (t : ℚ) (fitScaler : List Row → Row × Row) (propensity : List Row → List Int → List ℚ)
    (vol : List Row → ℚ) (dr : Draws) (d : Nat) (knn : Nat → List Row → List Row → List (List Nat)) (s : Stats)
    (X : List Row) (y : List Int) : Res (List Row × List Int) := do
  let n ← detNToSample (.num par.proportion) (s.count s.majLabel) (s.count s.minLabel)
  if n = 0 then return (X, y)
  let sc := fitScaler X
  let Xt := X.map (scaleRow sc.1 sc.2)
  let Xmin := selectLabel Xt y s.minLabel
  let Xnew := List.zipWith (fun r p => r ++ [p]) Xt (propensity Xt y)
  let k := min Xnew.length (par.nNeighbors + 1)
  let ind := knn k Xnew (selectLabel Xnew y s.minLabel)
  let noise ← nrasNoise t k y s.minLabel ind
  if noise.count true ≥ Xmin.length - 1 then return (X, y)
  let samples ← sampleSimplex par.ss vol dr d Xmin ind k (n + noise.count true)
    { Xv := some Xt, vertexWeights := some (List.replicate Xt.length 1),
      baseWeights := some (noise.map (fun b => if b then 0 else 1)) }
  let kept := ((Xmin.zip noise).filter (fun p => !p.2)).map Prod.fst
  return ((selectLabel Xt y s.majLabel ++ kept ++ samples).map (unscaleRow sc.1 sc.2),
    List.replicate (y.count s.majLabel) s.majLabel ++ List.replicate kept.length s.minLabel ++
      List.replicate samples.length s.minLabel)

end Verif

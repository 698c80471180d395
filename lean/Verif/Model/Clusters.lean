import Verif.Model.Regions

/-!
# Oversamplers which sample within clusters: `kmeans_SMOTE` and `cluster_SMOTE`

`kmeans n rows` is the array `labels_` of `KMeans(n_clusters=n).fit(rows)`, `pick m n` the answer of `choice(m, n)`, `pdist p q`
the distance of two rows, `knn k X Q` the answer of the neighbour search.
-/

namespace Verif

/-- What one call of `sample_simplex` for one cluster gets: the rows of the cluster, the neighbour table and its width, and the
weights. Used for oversampling/_kmeans_smote.py:223-239. -/
structure ClusterTask where
  rows : List Row
  indices : List (List Nat)
  k : Nat
  args : SSArgs := {}

/-- The loop over the selected clusters, oversampling/_kmeans_smote.py:223-239 and oversampling/_cluster_smote.py:167-184:
`np.unique(selected, return_counts=True)`, one call of `sample_simplex` for every distinct cluster with its count, and
`np.vstack` of the answers, which raises `ValueError` without any. `drs i` are the draws of the `i`-th call. -/
def sampleInClusters (ss : SSParams) (vol : List Row → ℚ) (drs : Nat → Draws) (d : Nat) (task : Nat → Res ClusterTask)
    (selected : List Nat) : Res (List Row) := do
  let parts ← (npUniqueCounts selected).zipIdx.mapM (fun p => do
    let t ← task p.1.1
    sampleSimplex ss vol (drs p.2) d t.rows t.indices t.k p.1.2 t.args)
  if parts.length = 0 then throw .valueError
  return parts.flatten

/-! ## kmeans_SMOTE -/

/-- `cluster_filter`, oversampling/_kmeans_smote.py:144-148, for the labels of the rows of a cluster. -/
def clusterAccepted (irt : ℚ) (maj min : Int) (labels : List Int) : Bool :=
  decide (((labels.count maj : ℚ) + 1) / ((labels.count min : ℚ) + 1) < irt) && decide (1 < labels.count min)

/-- `kmeans_SMOTE.do_the_clustering`, oversampling/_kmeans_smote.py:121-152, after the clustering: the positions of the rows of
the accepted clusters. -/
def kmClusters (n : Nat) (irt : ℚ) (maj min : Int) (y labels : List Int) : Res (List (List Nat)) := do
  let clusters := (List.range n).map (fun (c : Nat) => labelPositions labels (c : Int))
  let keep ← clusters.mapM (fun cluster => do
    let ls ← takeRows y cluster
    return clusterAccepted irt maj min ls)
  return ((clusters.zip keep).filter (fun p => p.2)).map Prod.fst

/-- `minority_ind` of a cluster, oversampling/_kmeans_smote.py:176. -/
def clusterMinority (y : List Int) (min : Int) (cluster : List Nat) : Res (List Nat) := do
  let ls ← takeRows y cluster
  return selectLabel cluster ls min

/-- `sparsity` of the minority rows of a cluster, oversampling/_kmeans_smote.py:179-188. The clusters here have at least two
minority rows, so the denominator is not zero. -/
def clusterSparsity (pdist : Row → Row → ℚ) (d : Nat) (rows : List Row) : ℚ :=
  let total := (rows.map (fun p => (rows.map (fun q => pdist p q)).sum)).sum
  let trace := (rows.map (fun p => pdist p p)).sum
  let avg := (total - trace) / ((rows.length : ℚ) ^ 2 - (rows.length : ℚ))
  avg ^ d / (rows.length : ℚ)

/-- `kmeans_SMOTE.sampling_algorithm`, oversampling/_kmeans_smote.py:259-298, with `calculate_weights` (154-200) and
`generate_samples_in_clusters` (202-239). `cu` are the draws of the choice of the clusters. -/
def kmeansSmoteAlg (par : NbParams) (nClusters : Nat) (irt : ℚ) (vol : List Row → ℚ) (cu : Nat → ℚ) (drs : Nat → Draws)
    (d : Nat) (kmeans : Nat → List Row → List Int) (pdist : Row → Row → ℚ)
    (knn : Nat → List Row → List Row → List (List Nat)) (s : Stats) (X : List Row) (y : List Int) :
    Res (List Row × List Int) := do
  let n ← detNToSample (.num par.proportion) (s.count s.majLabel) (s.count s.minLabel)
  if n = 0 then return (X, y)
  let nc := min nClusters X.length
  let filt ← kmClusters nc irt s.majLabel s.minLabel y (kmeans nc X)
  if filt.length = 0 then return (X, y)
  let rows ← filt.mapM (fun cluster => do
    let ind ← clusterMinority y s.minLabel cluster
    takeRows X ind)
  let weights := fixDensity (rows.map (fun r => XF.fin (clusterSparsity pdist d r)))
  let selected ← npChoice weights.length n weights cu
  let samples ← sampleInClusters par.ss vol drs d (fun c => do
    let r ← getRow rows c
    let k := min r.length (par.nNeighbors + 1)
    return { rows := r, indices := knn k r r, k := k }) selected
  return withSamples X y s.minLabel samples

/-! ## cluster_SMOTE -/

/-- `cluster_SMOTE.sampling_algorithm`, oversampling/_cluster_smote.py:186-233, with `determine_clusters_and_neighbood_graph`
(120-145) and `generate_samples_in_clusters` (147-184). `np.max` of no clusters raises `ValueError`. -/
def clusterSmoteAlg (par : NbParams) (nClusters : Nat) (vol : List Row → ℚ) (pick : Nat → Nat → List Nat) (drs : Nat → Draws)
    (d : Nat) (kmeans : Nat → List Row → List Int) (knn : Nat → List Row → List Row → List (List Nat)) (s : Stats)
    (X : List Row) (y : List Int) : Res (List Row × List Int) := do
  let n ← detNToSample (.num par.proportion) (s.count s.majLabel) (s.count s.minLabel)
  if n = 0 then return (X, y)
  let Xmin := selectLabel X y s.minLabel
  let labels := kmeans (min Xmin.length nClusters) Xmin
  let clusters := (npUnique labels).map (fun c => labelPositions labels c)
  if clusters.length = 0 then throw .valueError
  if clusters.all (fun c => decide (c.length ≤ 1)) then return (X, y)
  let rows ← clusters.mapM (fun c => takeRows Xmin c)
  let selected := pick rows.length n
  let samples ← sampleInClusters par.ss vol drs d (fun c => do
    let r ← getRow rows c
    let k := min par.nNeighbors r.length
    return { rows := r, indices := knn k r r, k := k }) selected
  return withSamples X y s.minLabel samples

end Verif

import Verif.Model.Merge
import Verif.Model.Mwmote
import Verif.Model.Noise
import Verif.Model.Rejection
import Verif.Model.Weighted

/-!
# CBSO, Assembled_SMOTE and A_SUWO

The oversamplers around the merging loops of `Verif.Model.Merge`. `knn k X Q` is the answer of the neighbour search, `dist` the
distance of two rows, `cu` the draws of the choice of the clusters, `drs i` the draws of the `i`-th call of `sample_simplex`. The
loops get enough rounds (a theorem); `runtimeError` stands for a loop that would go on.
-/

namespace Verif

/-- The clusters of a loop with a bound on its rounds. Used for oversampling/_cbso.py:120-181 and oversampling/_assembled_smote.py:324-366. -/
def endedLoop : Option (List (List Nat)) → Res (List (List Nat))
  | some c => .ok c
  | none => .error .runtimeError

/-- Draw clusters in proportion to their weights and sample in them: oversampling/_cbso.py:197-243, oversampling/_assembled_smote.py:298-322,
oversampling/_a_suwo.py:386-410. -/
def drawClusters (ss : SSParams) (vol : List Row → ℚ) (cu : Nat → ℚ) (drs : Nat → Draws) (d n : Nat) (weights : List ℚ)
    (task : Nat → Res ClusterTask) : Res (List Row) := do
  let cw ← normalize weights
  let selected ← npChoice cw.length n cw cu
  sampleInClusters ss vol drs d task selected

/-! ## CBSO -/

/-- `T_h`, oversampling/_cbso.py:132-137: the mean distance to the second row of the answer, times `C_p`. -/
def cbsoThreshold (cp : ℚ) (dist : Row → Row → ℚ) (knn : Nat → List Row → List Row → List (List Nat)) (A : List Row) : Res ℚ := do
  let ds ← (A.zip (knn 2 A A)).mapM (fun p => do
    let j ← getRow p.2 1
    let q ← getRow A j
    return dist p.1 q)
  return ds.sum / ds.length * cp

/-- `do_clustering`, oversampling/_cbso.py:120-181. -/
def cbsoClusters (cp : ℚ) (dist : Row → Row → ℚ) (knn : Nat → List Row → List Row → List (List Nat)) (A : List Row) :
    Res (List (List Nat)) := do
  let T ← cbsoThreshold cp dist knn A
  let c ← cbsoLoop T A.length (singletons A.length) (DMat.start A.length (fun i j => dist (A.getD i []) (A.getD j [])))
  endedLoop c

/-- `CBSO.sampling_algorithm`, oversampling/_cbso.py:245-288, with `generate_samples_in_clusters` (183-243). More neighbours than
rows are a `ValueError` of the neighbour search (without a metric tensor). -/
def cbsoAlg (par : NbParams) (cp : ℚ) (vol : List Row → ℚ) (cu : Nat → ℚ) (drs : Nat → Draws) (d : Nat) (dist : Row → Row → ℚ)
    (knn : Nat → List Row → List Row → List (List Nat)) (s : Stats) (X : List Row) (y : List Int) :
    Res (List Row × List Int) := do
  let n ← detNToSample (.num par.proportion) (s.count s.majLabel) (s.count s.minLabel)
  if n = 0 then return (X, y)
  let A := selectLabel X y s.minLabel
  if X.length < par.nNeighbors + 1 then throw .valueError
  let counts ← (knn (par.nNeighbors + 1) X A).mapM (fun row => do
    let ls ← takeRows y (row.drop 1)
    return (ls.count s.majLabel : ℚ))
  let w := fixDensity (counts.map XF.fin)
  let clusters ← cbsoClusters cp dist knn A
  let samples ← drawClusters par.ss vol cu drs d n (clusters.map (fun c => (c.map (fun i => w.getD i 0)).sum)) (fun c => do
    let cl ← getRow clusters c
    let rows ← takeRows A cl
    return { rows := rows, indices := circulant rows.length, k := rows.length,
             args := { baseWeights := some (fixDensity (cl.map (fun i => XF.fin (w.getD i 0)))) } })
  return withSamples X y s.minLabel samples

/-! ## Assembled_SMOTE -/

/-- The mask of `determine_border_non_border`, oversampling/_assembled_smote.py:166-175: not all of the rows of the answer (the row
itself is one) are minority rows. -/
def assembledBorder (k : Nat) (knn : Nat → List Row → List Row → List (List Nat)) (X : List Row) (y : List Int) (a : Int)
    (A : List Row) : Res (List Bool) :=
  (knn (min X.length (k + 1)) X A).mapM (fun row => do
    let ls ← takeRows y row
    return ! decide (ls.count a = min X.length (k + 1)))

/-- `Assembled_SMOTE.sampling_algorithm`, oversampling/_assembled_smote.py:324-366, with `determine_border_non_border` (152-181),
`do_the_clustering` (183-262), `determine_indices` (264-282) and `generate_samples_in_clusters` (284-322). `aligned` tells whether the
angle of the principal directions of two lists of rows is above the threshold (`PCA`, 229-240). -/
def assembledAlg (par : NbParams) (pop : Nat) (aligned : List Row → List Row → Bool) (vol : List Row → ℚ) (cu : Nat → ℚ)
    (drs : Nat → Draws) (d : Nat) (dist : Row → Row → ℚ) (knn : Nat → List Row → List Row → List (List Nat)) (s : Stats)
    (X : List Row) (y : List Int) : Res (List Row × List Int) := do
  let n ← detNToSample (.num par.proportion) (s.count s.majLabel) (s.count s.minLabel)
  if n = 0 then return (X, y)
  let A := selectLabel X y s.minLabel
  let mask ← assembledBorder par.nNeighbors knn X y s.minLabel A
  let border := ((A.zip mask).filter (fun p => p.2)).map Prod.fst
  let inner := ((A.zip mask).filter (fun p => ! p.2)).map Prod.fst
  if border.length = 0 then return (X, y)
  let N := border.length
  let rowsOf := fun c : List Nat => c.map (fun i => border.getD i [])
  let c ← assembledLoop pop (fun c c' => aligned (rowsOf c) (rowsOf c')) (N * (N * N + 1) + N * N + 1) (singletons N)
    (DMat.start N (fun i j => dist (border.getD i []) (border.getD j [])))
  let clusters ← endedLoop c
  let vectors ← (clusters.filter (fun c => decide (0 < c.length))).mapM (takeRows border)
  let vectors := if 0 < inner.length then vectors ++ [inner] else vectors
  let samples ← drawClusters par.ss vol cu drs d n (vectors.map (fun v => (v.length : ℚ))) (fun c => do
    let rows ← getRow vectors c
    let k := min (par.nNeighbors + 1) rows.length
    return { rows := rows, indices := knn k rows rows, k := k })
  return withSamples X y s.minLabel samples

/-! ## A_SUWO -/

/-- What `A_SUWO` asks from elsewhere: the neighbour search and the distances, the labels of `AgglomerativeClustering`, and the labels
which `LinearDiscriminantAnalysis`, trained on the majority rows and the other folds of a cluster, predicts for the rows of the cluster.
Used for oversampling/_a_suwo.py:145-157 and oversampling/_a_suwo.py:224-241. -/
structure SuwoEnv where
  knn : Nat → List Row → List Row → List (List Nat)
  dist : Row → Row → ℚ
  agg : Nat → List Row → List Nat
  lda : List Row → List Row → List Int

/-- The positions `remove_noise` deletes, oversampling/_a_suwo.py:145-157: no row of the answer behind the first has the same label. -/
def suwoNoise (env : SuwoEnv) (k : Nat) (X : List Row) (y : List Int) : Res (List Nat) := do
  let flags ← (env.knn (min X.length (k + 1)) X X).zipIdx.mapM (fun p => do
    let ls ← takeRows y (p.1.drop 1)
    let l ← getRow y p.2
    return decide (ls.count l = 0))
  return (List.range flags.length).filter (fun i => flags.getD i false)

/-- `determine_threshold`, oversampling/_a_suwo.py:224-241. -/
def suwoThreshold (env : SuwoEnv) (c : ℚ) (A : List Row) : ℚ :=
  let meds := (A.zip (env.knn A.length A A)).map (fun p => medianOf (p.2.map (fun j => env.dist p.1 (A.getD j []))))
  meds.sum / meds.length * c

/-- `dm_maj`, oversampling/_a_suwo.py:212-220: the distance of every minority row to every majority cluster; `np.min` of nothing
raises `ValueError`. -/
def suwoMajDist (env : SuwoEnv) (A B : List Row) (clusters : List (List Nat)) : Res (List Row) :=
  A.mapM (fun p => clusters.mapM (fun c => do
    let rows ← takeRows B c
    if rows.length = 0 then throw .valueError
    return minL (rows.map (fun q => env.dist q p))))

/-- `fix_distribution` without NaN, oversampling/_a_suwo.py:243-256. -/
def suwoFix (l : List ℚ) : List ℚ := if l.sum = 0 then List.replicate l.length 1 else l

/-- `adaptive_sub_cluster_sizing`, oversampling/_a_suwo.py:258-302, before the last division. -/
def suwoSizing (env : SuwoEnv) (maj : Int) (A B : List Row) (clusters : List (List Nat)) : Res (List ℚ) := do
  let eps ← clusters.mapM (fun c => do
    let rows ← takeRows A c
    if 1 < c.length then
      let preds := env.lda B rows
      return (preds.count maj : ℚ) / (preds.length : ℚ)
    else return (1 : ℚ))
  return suwoFix eps

/-- The reciprocals of the distances to the majority, oversampling/_a_suwo.py:320-331. -/
def suwoClose (env : SuwoEnv) (d : Nat) (A B : List Row) : Res (List ℚ) := do
  let ds ← (A.zip (env.knn 1 B A)).mapM (fun p => do
    let j ← getRow p.2 0
    let q ← getRow B j
    return env.dist p.1 q)
  let ds := if ds.all (fun q => decide (q = 0)) then ds.map (fun _ => (1 : ℚ))
    else ds.map (fun q => if q = 0 then minL (ds.filter (fun r => decide (r ≠ 0))) else q)
  return ds.map (fun q => 1 / (q / d))

/-- `within_cluster_dist` of one cluster, oversampling/_a_suwo.py:334-343: cut off at the mean. -/
def suwoWithin (close : List ℚ) (c : List Nat) : Res (List ℚ) := do
  let g ← takeRows close c
  let th := g.sum / g.length
  let g := g.map (fun q => if th < q then th else q)
  normalize g

/-- `A_SUWO.sampling_algorithm`, oversampling/_a_suwo.py:485-563. `AgglomerativeClustering` raises `ValueError` for fewer than two rows. -/
def suwoAlg (par : NbParams) (nClusMaj : Nat) (cThres : ℚ) (env : SuwoEnv) (vol : List Row → ℚ) (cu : Nat → ℚ) (drs : Nat → Draws)
    (d : Nat) (s : Stats) (X0 : List Row) (y0 : List Int) : Res (List Row × List Int) := do
  let n ← detNToSample (.num par.proportion) (s.count s.majLabel) (s.count s.minLabel)
  if n = 0 then return (X0, y0)
  let noise ← suwoNoise env par.nNeighbors X0 y0
  let X := npDelete X0 noise
  let y := npDelete y0 noise
  let A := selectLabel X y s.minLabel
  let B := selectLabel X y s.majLabel
  if A.length = 0 then return (X0, y0)
  if B.length < 2 then throw .valueError
  let m := min B.length nClusMaj
  let labels := env.agg m B
  let majClusters := (List.range m).map (fun c => (List.range B.length).filter (fun i => decide (labels[i]? = some c)))
  let dm ← suwoMajDist env A B majClusters
  let N := A.length
  let c ← asuwoLoop (suwoThreshold env cThres A) (N * (N * N + 1) + N * N + 1) (singletons N) dm
    (DMat.start N (fun i j => env.dist (A.getD i []) (A.getD j [])))
  let clusters ← endedLoop c
  let sizes ← suwoSizing env s.majLabel A B clusters
  let close ← suwoClose env d A B
  let within ← clusters.mapM (suwoWithin close)
  let samples ← drawClusters par.ss vol cu drs d n sizes (fun c => do
    let cl ← getRow clusters c
    let rows ← takeRows A cl
    let w ← getRow within c
    let w ← normalize (suwoFix w)
    let k := min rows.length par.nNeighbors
    return { rows := rows, indices := env.knn k rows rows, k := k, args := { baseWeights := some w } })
  return (X ++ samples, y ++ List.replicate n s.minLabel)

end Verif

import Verif.Model.Interp

/-!
# Model of `smote_variants/oversampling/_dbsmote.py`

A graph is an adjacency list: entry `u` holds the pairs `(v, graph[u][v])` in the order of the inner dictionary. Infinite
distances are `none`. The clustering, the neighbour answers and the draws are parameters.
-/

namespace Verif

/-- The dictionaries `distance` and `path` of `bellman_ford`. Used for oversampling/_dbsmote.py:23-40 and oversampling/_dbsmote.py:43-56. -/
structure BF where
  dist : Nat → Option ℚ
  par : Nat → Option Nat

/-- `a > b` on distances with `float("Inf")` as `none`. Used for oversampling/_dbsmote.py:43-56 and oversampling/_dbsmote.py:59-75. -/
def gtDist : Option ℚ → Option ℚ → Bool
  | none, none => false
  | none, some _ => true
  | some _, none => false
  | some a, some b => decide (b < a)

/-- `initialize`, oversampling/_dbsmote.py:23-40. -/
def bfInit (source : Nat) : BF := { dist := fun v => if v = source then some 0 else none, par := fun _ => none }

/-- `relax`, oversampling/_dbsmote.py:43-56, for the edge `u → v` of weight `w`. -/
def relax (st : BF) (e : Nat × Nat × ℚ) : BF :=
  if gtDist (st.dist e.2.1) ((st.dist e.1).map (· + e.2.2)) then
    { dist := Function.update st.dist e.2.1 ((st.dist e.1).map (· + e.2.2))
      par := Function.update st.par e.2.1 (some e.1) }
  else st

/-- The edges in the order of the two nested loops `for u_key in graph: for v_key in graph[u_key]`. Used for oversampling/_dbsmote.py:59-75. -/
def graphEdges (g : List (List (Nat × ℚ))) : List (Nat × Nat × ℚ) :=
  g.zipIdx.flatMap (fun r => r.1.map (fun e => (r.2, e.1, e.2)))

/-- `rounds` passes over all edges, oversampling/_dbsmote.py:68-71. -/
def bfRounds (edges : List (Nat × Nat × ℚ)) : Nat → BF → BF
  | 0, st => st
  | r + 1, st => bfRounds edges r (edges.foldl relax st)

/-- `bellman_ford`, oversampling/_dbsmote.py:59-75, with the final assertion. -/
def bellmanFord (g : List (List (Nat × ℚ))) (source : Nat) : Res BF :=
  let st := bfRounds (graphEdges g) (g.length - 1) (bfInit source)
  if (graphEdges g).all (fun e => !gtDist (st.dist e.2.1) ((st.dist e.1).map (· + e.2.2))) then .ok st
  else .error .assertionError

/-- The walk `path = [idx]; while not parents[path[-1]] is None: path.append(parents[path[-1]])`,
oversampling/_dbsmote.py:281-283, at most `fuel` nodes; `none`: not finished. -/
def parentPath (par : Nat → Option Nat) : Nat → Nat → Option (List Nat)
  | 0, _ => none
  | f + 1, i =>
    match par i with
    | none => some [i]
    | some j => (parentPath par f j).map (i :: ·)

/-- `execute_dbscan` loop, oversampling/_dbsmote.py:189-202: `remaining` is `db_iter_limit - step`. -/
def numLabels (labels : List Int) : Nat := (labels.foldr max (-1) + 1).toNat
/-- Used for oversampling/_dbsmote.py:175-204. -/
def dbscanLoop (run : Nat → Res (List Int)) : Nat → Nat → List Int → Res (List Int)
  | 0, _, l => .ok l
  | r + 1, step, l =>
    if numLabels l = 0 then do
      let l' ← run step
      dbscanLoop run r (step + 1) l'
    else .ok l

/-- `execute_dbscan`, oversampling/_dbsmote.py:175-204. `dbscan eps minSamples` is the clustering of the minority rows
(it raises for `min_samples < 1`). -/
def executeDbscan (dbscan : ℚ → Int → Res (List Int)) (eps : ℚ) (minSamples limit : Nat) : Res (List Int) := do
  let run := fun step : Nat => dbscan (eps * (3 / 2) ^ step) ((minSamples : Int) - step)
  let l ← run 0
  dbscanLoop run (limit - 1) 1 l

/-- `np.where(labels == i)[0]`, oversampling/_dbsmote.py:332. -/
def clusterOf (labels : List Int) (i : Nat) : List Nat :=
  (List.range labels.length).filter (fun p => labels[p]? = some (i : Int))

/-- Row `idx` of the neighbourhood graph of a cluster of `n` rows, oversampling/_dbsmote.py:236-240: an edge to `j` if `j` is
among the first `min_samples` neighbours and closer than `eps`. -/
def adjacency (eps : ℚ) (minSamples n : Nat) (ind : List Nat) (dist : List ℚ) : List (Nat × ℚ) :=
  (List.range n).filterMap (fun j =>
    if j ∈ (ind.take (min n (minSamples + 1))).drop 1 ∧ dist.getD (ind.idxOf j) 0 < eps
    then some (j, dist.getD (ind.idxOf j) 0) else none)

/-- Neighbour answers within a cluster: indices and distances of all rows, and the row next to the centroid.
Used for oversampling/_dbsmote.py:221-240 and oversampling/_dbsmote.py:303-344. -/
structure ClusterNN where
  ind : List Row → List (List Nat)
  dist : List Row → List (List ℚ)
  centroid : List Row → Nat

/-- The graph of a cluster, oversampling/_dbsmote.py:221-240. -/
def clusterGraph (eps : ℚ) (minSamples : Nat) (nn : ClusterNN) (cluster : List Row) : List (List (Nat × ℚ)) :=
  (List.zip (nn.ind cluster) (nn.dist cluster)).map (fun p => adjacency eps minSamples cluster.length p.1 p.2)

/-- Draws of `generate_samples`: the cluster, the row in it, the position on a path with `m` edges, the mixing number.
Used for oversampling/_dbsmote.py:270-300 and oversampling/_dbsmote.py:303-344. -/
structure DbDraws where
  cluster : Nat → Nat
  point : Nat → Nat
  vertex : Nat → Nat → Nat
  u : Nat → ℚ

/-- The three cases of oversampling/_dbsmote.py:285-300 for a given path. -/
def samplePath (cluster : List Row) (path : List Nat) (vertex : Nat → Nat) (u : ℚ) : Res Row :=
  let r := if path.length = 2 then 0 else vertex (path.length - 1)
  if path.length = 1 then do
    let p ← getRow path 0
    getRow cluster p
  else do
    let p ← getRow path r
    let q ← getRow path (r + 1)
    let a ← getRow cluster p
    let b ← getRow cluster q
    return sampleBetweenPoints a b u

/-- A clustering loop that does not end. Used for oversampling/_dbsmote.py:270-300. -/
def pathOrHang : Option (List Nat) → Res (List Nat)
  | none => .error .recursionError
  | some p => .ok p

/-- Sample `i` of `generate_samples`, oversampling/_dbsmote.py:270-300. The walk along the parents gets as many nodes as the
cluster has rows; running out of them stands for a walk that never ends (`recursionError`). -/
def dbSampleRow (dr : DbDraws) (clusters : List (List Row)) (paths : List BF) (i : Nat) : Res Row := do
  let cluster ← getRow clusters (dr.cluster i)
  let bf ← getRow paths (dr.cluster i)
  let path ← pathOrHang (parentPath bf.par cluster.length (dr.point i))
  samplePath cluster path (dr.vertex i) (dr.u i)

/-- `StandardScaler.transform` of one row. Used for oversampling/_dbsmote.py:303-344. -/
def scaleRow (mean scale r : Row) : Row := List.zipWith (· / ·) (List.zipWith (· - ·) r mean) scale
/-- `StandardScaler.inverse_transform` of one row. Used for oversampling/_dbsmote.py:303-344. -/
def unscaleRow (mean scale r : Row) : Row := List.zipWith (· + ·) (List.zipWith (· * ·) r scale) mean

/-- Parameters of `DBSMOTE` (oversampling/_dbsmote.py:115-158). -/
structure DbParams where
  proportion : ℚ
  eps : ℚ
  minSamples : Nat
  iterLimit : Nat

/-- `DBSMOTE.sampling_algorithm`, oversampling/_dbsmote.py:303-344. `fitScaler` is `StandardScaler().fit`, giving the means
and the scales of the columns. -/
def dbsmoteAlg (par : DbParams) (fitScaler : List Row → Row × Row) (dbscan : List Row → ℚ → Int → Res (List Int))
    (nn : ClusterNN) (dr : DbDraws) (s : Stats) (X : List Row) (y : List Int) : Res (List Row × List Int) := do
  let n ← detNToSample (.num par.proportion) (s.count s.majLabel) (s.count s.minLabel)
  if n = 0 then return (X, y)
  let ms := fitScaler X
  let Xmin := selectLabel (X.map (scaleRow ms.1 ms.2)) y s.minLabel
  let labels ← executeDbscan (dbscan Xmin) par.eps par.minSamples par.iterLimit
  if numLabels labels = 0 then return (X, y)
  let clusters ← ((List.range (numLabels labels)).map (clusterOf labels)).mapM (takeRows Xmin)
  let paths ← clusters.mapM (fun c => bellmanFord (clusterGraph par.eps par.minSamples nn c) (nn.centroid c))
  let samples ← (List.range n).mapM (dbSampleRow dr clusters paths)
  return withSamples X y s.minLabel (samples.map (unscaleRow ms.1 ms.2))

end Verif

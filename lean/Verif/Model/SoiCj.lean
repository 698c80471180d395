import Verif.Model.Clusters
import Verif.Model.Mwmote
import Verif.Model.Rejection

/-!
# SOI_CJ

Python's sets are mutable objects: the list of clusters is a list of references (`refs`) to a table of contents (`objs`), so that two
positions may share a set. A set is the list of its elements. `knn` is the answer of the neighbour search, `dist` the distance of two
rows, `ball p q` the rows in the ball around the middle of `p` and `q` which passes through `p`, `order` the order in which a set is
listed, `std` the standard deviations of the columns, `pick i m n` the `i`-th call of `choice(m, n)`, `unif i` the uniform draws and
`drs i` the draws for the `i`-th cluster.
-/

namespace Verif

/-- What `SOI_CJ` asks from elsewhere. Used for oversampling/_soi_cj.py:153-174 and oversampling/_soi_cj.py:208-263. -/
structure SoiEnv where
  knn : Nat → List Row → List Row → List (List Nat)
  dist : Row → Row → ℚ
  ball : Row → Row → List Nat
  order : List Nat → List Nat
  std : List Row → Row
  pick : Nat → Nat → Nat → List Nat
  unif : Nat → Nat → Nat → ℚ
  drs : Nat → Draws
  cu : Nat → ℚ

/-- `init_clusters`, oversampling/_soi_cj.py:186-206, for one answer: the positions before the first row which is not a minority row.
`np.argmax` of an answer without such a row is 0. -/
def soiStart (y : List Int) (a : Int) (row : List Nat) : List Nat :=
  let i := row.findIdx (fun j => decide (y.getD j 0 ≠ a))
  (row.take (if i < row.length then i else 0)).dedup

/-- The decision of `update_clusters`, oversampling/_soi_cj.py:153-174: the rows of the two clusters furthest apart, and whether more than
half of the rows in the ball between them are minority rows. -/
def soiJoin (env : SoiEnv) (X : List Row) (y : List Int) (a : Int) (ci cj : List Nat) : Bool :=
  let pairs := (env.order ci).flatMap (fun i => (env.order cj).map (fun j => (i, j)))
  let ds := pairs.map (fun p => env.dist (X.getD p.1 []) (X.getD p.2 []))
  let far := pairs.getD (ds.idxOf (maxL ds)) (0, 0)
  let ind := env.ball (X.getD far.1 []) (X.getD far.2 [])
  decide (((ind.map (fun j => y.getD j 0)).count a : ℚ) > (ind.length : ℚ) / 2)

/-- The clusters during the loop, and `is_intersection`. Used for oversampling/_soi_cj.py:243-258 and oversampling/_soi_cj.py:241-258. -/
structure SoiState where
  refs : List Nat
  objs : List (List Nat)
  hit : Bool
  deriving DecidableEq, Repr

/-- The content of a position. Used for oversampling/_soi_cj.py:241-258. -/
def SoiState.at (s : SoiState) (p : Nat) : List Nat := s.objs.getD (s.refs.getD p s.objs.length) []

/-- The body of the inner loop, oversampling/_soi_cj.py:243-258, with `update_clusters` (174-184) and `rearrange_clusters` (112-132):
`cur` is the set of the outer loop, `cj` the set at position `jdx` of the slice. The results are stored at the positions `idx` and `jdx`
of the *whole* list. -/
def soiEvent (join : List Nat → List Nat → Bool) (idx cur jdx cj : Nat) (s : SoiState) : SoiState :=
  let ci := s.objs.getD cur []
  let cc := s.objs.getD cj []
  let inter := ci.filter (fun e => decide (e ∈ cc))
  if inter.length = 0 then s
  else if join ci cc then
    { refs := (s.refs.set idx cur).set jdx s.objs.length,
      objs := (s.objs.set cur (ci ++ cc.filter (fun e => decide (e ∉ ci)))) ++ [[]], hit := true }
  else if cc.length < ci.length then
    { refs := (s.refs.set idx cur).set jdx cj, objs := s.objs.set cj (cc.filter (fun e => decide (e ∉ inter))), hit := true }
  else
    { refs := (s.refs.set idx cur).set jdx cj, objs := s.objs.set cur (ci.filter (fun e => decide (e ∉ inter))), hit := true }

/-- The inner loop, oversampling/_soi_cj.py:241-258, over the rest of the slice from position `jdx` on. -/
def soiInner (join : List Nat → List Nat → Bool) (idx cur : Nat) : Nat → List Nat → SoiState → SoiState
  | _, [], s => s
  | jdx, cj :: rest, s => soiInner join idx cur (jdx + 1) rest (soiEvent join idx cur jdx cj s)

/-- The outer loop, oversampling/_soi_cj.py:240-258, from position `idx` on, for `m` positions. The slice is taken when the inner loop
starts. -/
def soiOuter (join : List Nat → List Nat → Bool) : Nat → Nat → SoiState → SoiState
  | 0, _, s => s
  | m + 1, idx, s => soiOuter join m (idx + 1) (soiInner join idx (s.refs.getD idx 0) 0 (s.refs.drop (idx + 1)) s)

/-- One round of `while is_intersection`, oversampling/_soi_cj.py:239-260. -/
def soiRound (join : List Nat → List Nat → Bool) (s : SoiState) : SoiState :=
  let s' := soiOuter join s.refs.length 0 { s with hit := false }
  { s' with refs := s'.refs.filter (fun r => decide (0 < (s'.objs.getD r []).length)) }

/-- `while is_intersection`, oversampling/_soi_cj.py:237-263, for at most `fuel` rounds. -/
def soiLoop (join : List Nat → List Nat → Bool) : Nat → SoiState → Option SoiState
  | 0, _ => none
  | fuel + 1, s =>
    let s' := soiRound join s
    if s'.hit then soiLoop join fuel s' else some s'

/-- `clustering`, oversampling/_soi_cj.py:208-263; `runtimeError` stands for a loop that goes on after `fuel` rounds. -/
def soiClusters (env : SoiEnv) (fuel : Nat) (X : List Row) (y : List Int) (a : Int) : Res (List (List Nat)) :=
  let A := selectLabel X y a
  let start := (env.knn A.length X A).map (soiStart y a)
  match soiLoop (soiJoin env X y a) fuel { refs := List.range start.length, objs := start, hit := true } with
  | none => .error .runtimeError
  | some s => .ok (s.refs.map (fun r => s.objs.getD r []))

/-- The loop over the drawn clusters, oversampling/_soi_cj.py:302-313 and 391-408: one call for every distinct cluster with its count;
`np.vstack` starts with an array without rows. -/
def eachCluster (gen : Nat → Nat → Nat → Res (List Row)) (selected : List Nat) : Res (List Row) := do
  let parts ← (npUniqueCounts selected).zipIdx.mapM (fun p => gen p.1.1 p.1.2 p.2)
  return parts.flatten

/-- One row of `sample_within_cluster_interpolation`, oversampling/_soi_cj.py:283-285: every coordinate has a number of its own. -/
def soiBetween (u : Nat → ℚ) (p q : Row) : Row :=
  (p.zip q).zipIdx.map (fun t => t.1.1 + (t.1.2 - t.1.1) * u t.2)

/-- `sample_within_cluster_interpolation`, oversampling/_soi_cj.py:265-287. -/
def soiInterpolate (env : SoiEnv) (X : List Row) (cluster : List Nat) (n i : Nat) : Res (List Row) := do
  let combs := combinations (List.range cluster.length) 2
  (env.pick i combs.length n).zipIdx.mapM (fun t => do
    let c ← getRow combs t.1
    let p ← edgeOf c
    let p0 ← getRow cluster p.1
    let p1 ← getRow cluster p.2
    let r0 ← getRow X p0
    let r1 ← getRow X p1
    return soiBetween (env.unif i t.2) r0 r1)

/-- `sample_within_cluster_jittering`, oversampling/_soi_cj.py:337-370, with the standard deviations of `cluster_stds` (315-335): the
component-wise smaller ones of the minority rows and of the cluster. -/
def soiJitter (env : SoiEnv) (ss : SSParams) (vol : List Row → ℚ) (d : Nat) (X A : List Row) (cluster : List Nat) (n i : Nat) :
    Res (List Row) := do
  let rows ← takeRows X cluster
  let sigmas := List.zipWith min (env.std A) (env.std rows)
  sampleSimplex { ss with gaussian := .sigmas sigmas } vol (env.drs i) d rows (env.knn rows.length rows rows) rows.length n {}

/-- `method`. Used for oversampling/_soi_cj.py:410-467. -/
inductive SoiMethod
  | interpolation | jittering
  deriving DecidableEq, Repr

/-- `SOI_CJ.sampling_algorithm`, oversampling/_soi_cj.py:410-467. -/
def soiAlg (par : NbParams) (method : SoiMethod) (env : SoiEnv) (vol : List Row → ℚ) (fuel d : Nat) (s : Stats) (X : List Row)
    (y : List Int) : Res (List Row × List Int) := do
  let n ← detNToSample (.num par.proportion) (s.count s.majLabel) (s.count s.minLabel)
  if n = 0 then return (X, y)
  let clusters ← soiClusters env fuel X y s.minLabel
  let filtered := (clusters.filter (fun c => decide (2 < c.length))).map env.order
  if filtered.length = 0 then return (X, y)
  let weights ← normalize (filtered.map (fun c => (c.length : ℚ)))
  let selected ← npChoice filtered.length n weights env.cu
  let samples ← eachCluster (fun c n i => do
    let cluster ← getRow filtered c
    match method with
    | .interpolation => soiInterpolate env X cluster n i
    | .jittering => soiJitter env par.ss vol d X (selectLabel X y s.minLabel) cluster n i) selected
  return withSamples X y s.minLabel samples

end Verif

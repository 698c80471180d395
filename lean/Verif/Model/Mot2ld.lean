import Verif.Model.Mwmote
import Verif.Model.Noise
import Verif.Model.Selected
import Mathlib.Data.List.Sort

/-!
# MOT2LD

The external calls: `tsne` is `TSNE(...).fit_transform`, `query k X Q` the indices of the neighbour search, `dist` the distance,
`radius r X x` the number of rows of `X` within `r` of `x`, `peaks` is `find_peaks_cwt`, `setOrder` the order in which `list` enumerates a
set.
-/

namespace Verif

/-- Used for oversampling/_mot2ld.py:270-273 and oversampling/_mot2ld.py:179-237. -/
structure MotEnv where
  tsne : List Row → List Row
  query : Nat → List Row → List Row → List (List Nat)
  dist : Row → Row → ℚ
  radius : ℚ → List Row → Row → Nat
  peaks : List ℚ → List Nat
  setOrder : List Nat → List Nat

/-- Used for oversampling/_mot2ld.py:446-503. -/
structure MotParams where
  proportion : ℚ
  k : Nat
  /-- `none` is `"auto"`. -/
  dCut : Option ℚ
  ss : SSParams

/-- `d_cut`, oversampling/_mot2ld.py:270-273. -/
def motCut (env : MotEnv) (dCut : Option ℚ) (T A : List Row) (indices : List (List Nat)) : Res ℚ :=
  match dCut with
  | some r => .ok r
  | none => do
    let ds ← (A.zip indices).mapM (fun p => do
      let j ← getRow p.2 1
      let q ← getRow T j
      return env.dist p.1 q)
    return maxL ds

/-- `density_peak_clustering`, oversampling/_mot2ld.py:162-177: the list `delta`. -/
def motDelta (rho : List Nat) (indMin : List (List Nat)) (distMin : List (List ℚ)) : Res (List ℚ) :=
  rho.zipIdx.mapM (fun p => do
    let row ← getRow indMin p.2
    let dens ← row.mapM (getRow rho)
    match dens.findIdx? (fun v => decide (p.1 < v)) with
    | some q => do
      let ds ← getRow distMin p.2
      getRow ds q
    | none => return maxL distMin.flatten)

/-- `determine_cluster_centers`, oversampling/_mot2ld.py:179-237. -/
def motCentres (env : MotEnv) (A : List Row) (rho : List Nat) (delta : List ℚ) : Res (List Row) := do
  let idx := (List.range rho.length).insertionSort (fun i j => rho.getD i 0 ≤ rho.getD j 0)
  let ds ← takeRows delta idx
  if ds.length < 3 then throw .valueError
  let pk := env.peaks ds
  if pk.length = 0 then throw .valueError
  let at' ← takeRows idx pk
  takeRows A at'

/-- `do_clustering`, oversampling/_mot2ld.py:335-387, with `determine_neighborhoods` (239-278) and `determine_clusters` (280-309): the
clusters, the probabilities, and the positions of the noisy rows among the minority rows. -/
def motClustering (env : MotEnv) (k : Nat) (dCut : Option ℚ) (minLabel : Int) (T : List Row) (y : List Int) (A : List Row) :
    Res (List (List Nat) × List ℚ × List Nat) := do
  let indices := env.query (min A.length (k + 1)) T A
  let indMin := env.query A.length A A
  let distMin := (A.zip indMin).map (fun p => p.2.map (fun j => env.dist p.1 (A.getD j [])))
  let cut ← motCut env dCut T A indices
  let rho := A.map (env.radius cut T)
  let delta ← motDelta rho indMin distMin
  let centres ← motCentres env A rho delta
  let cnt ← indices.mapM (fun row => do
    let ls ← takeRows y (row.drop 1)
    return ls.count minLabel)
  let noise := (List.range A.length).filter (fun i => decide (rho.getD i 0 = 1 ∨ cnt.getD i 0 = 0))
  let labels ← (env.query 1 centres A).mapM (fun row => getRow row 0)
  let prob := (List.range A.length).map (fun i => if i ∈ noise then 0 else (cnt.getD i 0 : ℚ) / (rho.getD i 0 : ℚ))
  if prob.sum = 0 then throw .valueError
  let prob := prob.map (fun q => q / prob.sum)
  let clusters := (List.range (labels.foldr max 0 + 1)).map (fun c =>
    env.setOrder ((List.range A.length).filter (fun i => decide (labels.getD i 0 = c ∧ i ∉ noise))))
  if clusters.all (fun c => decide (c.length = 0)) then throw .valueError
  let prob := (List.range A.length).map (fun i => if (clusters.getD (labels.getD i 0) []).length = 0 then 0 else prob.getD i 0)
  let prob := prob.map (fun q => q / prob.sum)
  return (clusters, prob, noise)

/-- `generate_samples_in_clusters`, oversampling/_mot2ld.py:408-444, with `determine_cluster_probabilities` (389-406). -/
def motSamples (ss : SSParams) (vol : List Row → ℚ) (cu : Nat → ℚ) (drs : Nat → Draws) (d n : Nat) (A : List Row)
    (clusters : List (List Nat)) (prob : List ℚ) : Res (List Row) := do
  let cw ← normalize (clusters.map (fun c => (c.map (fun i => prob.getD i 0)).sum))
  let selected ← npChoice cw.length n cw cu
  sampleInClusters ss vol drs d (fun c => do
    let cl ← getRow clusters c
    let rows ← takeRows A cl
    let within ← normalize (cl.map (fun i => prob.getD i 0))
    return { rows := rows, indices := circulant rows.length, k := rows.length, args := { baseWeights := some within } }) selected

/-- `MOT2LD.sampling_algorithm`, oversampling/_mot2ld.py:446-503. `noise` holds positions among the minority rows, and these are
deleted from the whole data set. -/
def motAlg (par : MotParams) (env : MotEnv) (vol : List Row → ℚ) (cu : Nat → ℚ) (drs : Nat → Draws) (d : Nat)
    (s : Stats) (X : List Row) (y : List Int) : Res (List Row × List Int) := do
  let n ← detNToSample (.num par.proportion) (s.count s.majLabel) (s.count s.minLabel)
  if n = 0 then return (X, y)
  let T := env.tsne X
  match motClustering env par.k par.dCut s.minLabel T y (selectLabel T y s.minLabel) with
  | .error .valueError => return (X, y)
  | .error e => throw e
  | .ok r => do
    let samples ← motSamples par.ss vol cu drs d n (selectLabel X y s.minLabel) r.1 r.2.1
    return withSamples (npDelete X r.2.2) (npDelete y r.2.2) s.minLabel samples

end Verif

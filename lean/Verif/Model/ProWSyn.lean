import Verif.Model.Smote
import Verif.Model.Noise

/-!
# Model of `smote_variants/oversampling/_prowsyn.py`
-/

namespace Verif

/-- `np.where(y == label)[0]`. Used for oversampling/_prowsyn.py:222-266. -/
def labelPositions (y : List Int) (label : Int) : List Nat :=
  (List.range y.length).filter (fun i => y[i]? = some label)

/-- The loop of `determine_clusters_proximity_levels`, oversampling/_prowsyn.py:191-211: `left` iterations remain, the next
one has number `idx`. `query P` is the answer of the neighbour search for the majority rows among the rows `X[P]`. Returns
the level sets, their numbers and the rest of `P`. -/
def proximityLoop (query : List Nat → List (List Nat)) : Nat → Nat → List Nat → Res (List (List Nat) × List Nat × List Nat)
  | 0, _, P => .ok ([], [], P)
  | left + 1, idx, P =>
    if P.length = 0 then .ok ([], [], P)
    else do
      let Pi := npUnique (query P).flatten
      let level ← takeRows P Pi
      let r ← proximityLoop query left (idx + 1) (npDelete P Pi)
      return (level :: r.1, (idx + 1) :: r.2.1, r.2.2)

/-- `determine_clusters_proximity_levels`, oversampling/_prowsyn.py:171-220: what is left after `L` rounds forms one more
set, with the number of the last round (a non-empty rest means that all `L` rounds ran, so `idx + 1 = L`). -/
def proximityLevels (query : List Nat → List (List Nat)) (L : Nat) (P : List Nat) : Res (List (List Nat) × List Nat) := do
  let r ← proximityLoop query L 0 P
  if r.2.2.length > 0 then return (r.1 ++ [r.2.2], r.2.1 ++ [L]) else return (r.1, r.2.1)

/-- `scipy.linalg.circulant(np.arange(n))`: entry `(i, j)` is `(i - j) mod n`. Used for oversampling/_prowsyn.py:126-154. -/
def circulantRange (n : Nat) : List (List Nat) :=
  (List.range n).map (fun i => (List.range n).map (fun j => (i + n - j) % n))

/-- `generate_samples_in_clusters`, oversampling/_prowsyn.py:126-154. `clusterU` are the uniform draws of the cluster choice,
`dr i` the draws of the i-th call of `sample_simplex`. -/
def samplesInClusters (ss : SSParams) (vol : List Row → ℚ) (clusterU : Nat → ℚ) (dr : Nat → Draws) (d : Nat)
    (X : List Row) (Ps : List (List Nat)) (weights : List ℚ) (n : Nat) : Res (List Row) := do
  let sel ← npChoice Ps.length n weights clusterU
  let parts ← (npUniqueCounts sel).zipIdx.mapM (fun c => do
    let P ← getRow Ps c.1.1
    let rows ← takeRows X P
    sampleSimplex ss vol (dr c.2) d rows (circulantRange rows.length) rows.length c.1.2 {})
  return parts.flatten

/-- Parameters of `ProWSyn` (oversampling/_prowsyn.py:53-108); `decay level` stands for `exp(-theta * (level - 1))`. -/
structure ProParams where
  proportion : ℚ
  nNeighbors : Nat
  L : Nat
  decay : Nat → ℚ
  ss : SSParams

/-- `ProWSyn.sampling_algorithm`, oversampling/_prowsyn.py:222-266. `knn k rows Q` lists the `k` rows of `rows` next to each
row of `Q`. -/
def prowsynAlg (par : ProParams) (vol : List Row → ℚ) (clusterU : Nat → ℚ) (dr : Nat → Draws) (d : Nat)
    (knn : Nat → List Row → List Row → List (List Nat)) (s : Stats) (X : List Row) (y : List Int) :
    Res (List Row × List Int) := do
  let n ← detNToSample (.num par.proportion) (s.count s.majLabel) (s.count s.minLabel)
  if n = 0 then return (X, y)
  let Xmaj := selectLabel X y s.majLabel
  let query := fun P : List Nat => knn (min P.length par.nNeighbors) (P.map (fun i => X.getD i [])) Xmaj
  let pl ← proximityLevels query par.L (labelPositions y s.minLabel)
  let w := List.zipWith (fun (P : List Nat) l => if P.length = 0 then 0 else par.decay l) pl.1 pl.2
  let p ← normalize w
  let samples ← samplesInClusters par.ss vol clusterU dr d X pl.1 p n
  return (X ++ samples, y ++ List.replicate samples.length s.minLabel)

end Verif

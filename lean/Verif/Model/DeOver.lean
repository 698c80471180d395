import Verif.Model.Smote
import Verif.Model.Interp
import Verif.Model.Noise
import Verif.Model.Regions

/-!
# Model of `smote_variants/oversampling/_de_oversampling.py`

The neighbour table, the clustering and the generator are parameters.
-/

namespace Verif

/-- What DE_oversampling calls. `pick t m`: the minority row drawn out of `m` for the `t`-th new row; `pair t m`: the positions of the two
neighbours drawn without replacement out of `m`; `u t`: the factor; `coord t d`: `rand_s`; `v t k`: the number drawn for the coordinate
`k`; `kmeans n rows`: `labels_` and `cluster_centers_`.
Used for oversampling/_de_oversampling.py:147-172 and oversampling/_de_oversampling.py:187-227. -/
structure DeEnv where
  knn : Nat → List Row → List (List Nat)
  pick : Nat → Nat → Nat
  pair : Nat → Nat → Nat × Nat
  u : Nat → ℚ
  coord : Nat → Nat → Nat
  v : Nat → Nat → ℚ
  kmeans : Nat → List Row → List Nat × List Row

/-- Parameters of `DE_oversampling` (oversampling/_de_oversampling.py:65-114). -/
structure DeParams where
  proportion : ℚ
  nNeighbors : Nat
  crossoverRate : ℚ
  threshold : ℚ
  nClusters : Nat

/-- One round of `generate_samples`, oversampling/_de_oversampling.py:147-172. `choice(…, 2, replace=False)` raises `ValueError` with fewer than
two neighbours. -/
def deSample (env : DeEnv) (cr : ℚ) (d : Nat) (A : List Row) (ind : List (List Nat)) (t : Nat) : Res Row := do
  let i := env.pick t A.length
  let p ← getRow A i
  let row ← getRow ind i
  let nb := row.drop 1
  if nb.length < 2 then .error .valueError else do
  let pr := env.pair t nb.length
  let j1 ← getRow nb pr.1
  let j2 ← getRow nb pr.2
  let q1 ← getRow A j1
  let q2 ← getRow A j2
  return (List.range d).map (fun k =>
    let mutated := p.getD k 0 + (q1.getD k 0 - q2.getD k 0) * env.u t
    if cr ≤ env.v t k ∧ k ≠ env.coord t d then p.getD k 0 else mutated)

/-- `np.inner`. Used for oversampling/_de_oversampling.py:219-224. -/
def deInner (p q : Row) : ℚ := (List.zipWith (· * ·) p q).sum

/-- The condition of oversampling/_de_oversampling.py:219-224, without square roots: the threshold is not negative, hence
`num / (|p| |q|) > t` says that `num` is positive and its square larger than `t² |p|² |q|²`. -/
def deSimilar (t : ℚ) (p q : Row) : Bool :=
  let den2 := deInner p p * deInner q q
  decide (den2 = 0) || (decide (0 < deInner p q) && decide (t * t * den2 < deInner p q * deInner p q))

/-- `cleansing`, oversampling/_de_oversampling.py:187-227. The distances to the centre are compared through their squares. -/
def deCleansing (env : DeEnv) (par : DeParams) (X : List Row) (y : List Int) : Res (List Nat) := do
  let km := env.kmeans (min X.length par.nClusters) X
  let members := fun (l : Nat) => (List.range km.1.length).filter (fun i => km.1.getD i 0 == l)
  let oneLabel := (npUnique km.1).filter (fun l => (npUnique ((members l).map (fun i => y.getD i 0))).length == 1)
  let rem ← oneLabel.mapM (fun l => do
    let mean ← getRow km.2 l
    let c := (members l).getD (argminIdx ((members l).map (fun i =>
      ((List.zipWith (· - ·) (X.getD i []) mean).map (fun t => t * t)).sum))) 0
    return (members l).filter (fun i => i != c && deSimilar par.threshold (X.getD i []) (X.getD c [])))
  return rem.flatten

/-- `DE_oversampling.sampling_algorithm`, oversampling/_de_oversampling.py:229-269. -/
def deAlg (env : DeEnv) (par : DeParams) (d : Nat) (s : Stats) (X : List Row) (y : List Int) : Res (List Row × List Int) := do
  let n ← detNToSample (.num par.proportion) (s.count s.majLabel) (s.count s.minLabel)
  if n = 0 then return (X, y)
  let A := selectLabel X y s.minLabel
  let ind := env.knn (min A.length (par.nNeighbors + 1)) A
  let samples ← (List.range n).mapM (deSample env par.crossoverRate d A ind)
  let X2 := X ++ samples
  let y2 := y ++ List.replicate samples.length s.minLabel
  let rem ← deCleansing env par X2 y2
  return (npDelete X2 rem, npDelete y2 rem)

end Verif

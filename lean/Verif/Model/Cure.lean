import Verif.Model.Clusters
import Verif.Model.Dbsmote
import Verif.Model.Merge
import Verif.Model.Polynom

/-!
# CURE_SMOTE

`dist p q` is the distance of two scaled rows, `small i l` the answer of `choice(l)` in round `i`, `pick m n` the answer of
`choice(m, n)`, `fitScaler X` the minima and ranges of the `MinMaxScaler`.
-/

namespace Verif

/-- Used for oversampling/_cure_smote.py:231-267. -/
structure CureParams where
  proportion : ℚ
  nClusters : Nat
  noiseTh : Nat
  ss : SSParams

/-- `np.delete` of row and column `r`, oversampling/_cure_smote.py:159-160. -/
def DMat.delete (m : DMat) (r : Nat) : DMat := { n := m.n - 1, d := fun i j => m.d (skipIdx r i) (skipIdx r j) }

/-- `np.where(cluster_sizes == np.min(cluster_sizes))[0]`, oversampling/_cure_smote.py:153-155. -/
def smallestClusters (clusters : List (List Nat)) : List Nat :=
  (List.range clusters.length).filter (fun i => clusters.all (fun c => decide ((clusters.getD i []).length ≤ c.length)))

/-- The loop of `CURE_SMOTE.do_the_clustering`, oversampling/_cure_smote.py:145-180; `it` rounds have been made. In a matrix of
one entry the minimum is infinity, found at the position `(0, 0)`. -/
def cureLoop (nClusters : Nat) (small : Nat → List Nat → Nat) :
    Nat → Nat → List (List Nat) → DMat → Res (Option (List (List Nat)))
  | 0, _, _, _ => .ok none
  | f + 1, it, clusters, m =>
    if clusters.length ≤ nClusters then .ok (some clusters)
    else do
      let r := small it (smallestClusters clusters)
      let drop := decide ((it + 1) % nClusters = 0)
      let clusters' := if drop then clusters.eraseIdx r else clusters
      let m' := if drop then m.delete r else m
      let v ← m'.min
      let p ← m'.firstAt v
      cureLoop nClusters small f (it + 1) (mergeClusters clusters' p.1 p.2) (m'.merge p.1 p.2)

/-- `CURE_SMOTE.do_the_clustering`, oversampling/_cure_smote.py:123-189. The rounds are bounded by the number of rows (that this is
enough is a theorem). -/
def cureClusters (nClusters noiseTh : Nat) (small : Nat → List Nat → Nat) (dist : Row → Row → ℚ) (Xmin : List Row) :
    Res (List (List Nat)) := do
  let clusters ← cureLoop nClusters small (Xmin.length + 1) 0 (singletons Xmin.length)
    (DMat.start Xmin.length (fun i j => dist (Xmin.getD i []) (Xmin.getD j [])))
  match clusters with
  | none => throw .recursionError
  | some cl => return cl.filter (fun c => !decide (c.length < noiseTh))

/-- `CURE_SMOTE.sampling_algorithm`, oversampling/_cure_smote.py:231-267, with `generate_samples_in_clusters` (191-229). -/
def cureSmoteAlg (par : CureParams) (fitScaler : List Row → Row × Row) (small : Nat → List Nat → Nat) (dist : Row → Row → ℚ)
    (vol : List Row → ℚ) (pick : Nat → Nat → List Nat) (drs : Nat → Draws) (d : Nat) (s : Stats) (X : List Row) (y : List Int) :
    Res (List Row × List Int) := do
  let n ← detNToSample (.num par.proportion) (s.count s.majLabel) (s.count s.minLabel)
  if n = 0 then return (X, y)
  let sc := fitScaler X
  let Xmin := selectLabel (X.map (scaleRow sc.1 sc.2)) y s.minLabel
  let clusters ← cureClusters par.nClusters par.noiseTh small dist Xmin
  if clusters.length = 0 then return (X, y)
  let samples ← sampleInClusters par.ss vol drs d (fun c => do
    let cluster ← getRow clusters c
    let rows ← takeRows Xmin cluster
    return { rows := [meanRow d rows], indices := [0 :: List.range rows.length], k := rows.length + 1,
             args := { Xv := some rows } }) (pick clusters.length n)
  return withSamples X y s.minLabel (samples.map (unscaleRow sc.1 sc.2))

end Verif

import Verif.Model.Clusters

/-!
# MWMOTE

`knn k X Q` is the answer of the neighbour search, `dist q p` stands for `np.linalg.norm(q - p) / d` (a square root, hence a
parameter), `kmeans n rows` for the labels of the clustering.
-/

namespace Verif

/-- Used for oversampling/_mwmote.py:495-563. -/
structure MwParams where
  proportion : ℚ
  k1 : Nat
  k2 : Nat
  k3 : Nat
  m : Nat
  cfTh : ℚ
  cmax : ℚ
  ss : SSParams

/-- `filter_minorities`, oversampling/_mwmote.py:164-189. -/
def mwFiltered (k1 : Nat) (knn : Nat → List Row → List Row → List (List Nat)) (X : List Row) (y : List Int) (minL : Int) :
    Res (List Nat) := do
  let ind1 := knn (min X.length (k1 + 1)) X X
  let minority := labelPositions y minL
  let keep ← minority.mapM (fun i => do
    let row ← getRow ind1 i
    let ls ← takeRows y (row.drop 1)
    return decide (0 < ls.count minL))
  return ((minority.zip keep).filter (fun p => p.2)).map Prod.fst

/-- `determine_border_majority`, oversampling/_mwmote.py:191-215. -/
def mwBorder (k2 : Nat) (knn : Nat → List Row → List Row → List (List Nat)) (X Xmaj : List Row) (filtered : List Nat) :
    Res (List Nat) := do
  let Q ← takeRows X filtered
  return npUnique (knn (min Xmaj.length (k2 + 1)) Xmaj Q).flatten

/-- `determine_informative_minority`, oversampling/_mwmote.py:217-242. -/
def mwInformative (k3 : Nat) (knn : Nat → List Row → List Row → List (List Nat)) (Xmin Xmaj : List Row) (border : List Nat) :
    Res (List Nat) := do
  let Q ← takeRows Xmaj border
  return npUnique (knn (min k3 Xmin.length) Xmin Q).flatten

/-- `closeness_factor`, oversampling/_mwmote.py:244-266, for `cf_th ≠ 0`. -/
def mwCloseness (dist : Row → Row → ℚ) (cfTh cmax : ℚ) (q p : Row) : ℚ :=
  min (1 / max (1 / 10) (dist q p)) cfTh / cfTh * cmax

/-- `determine_information_weights` and lines 341-342, oversampling/_mwmote.py:268-344, for the border rows `Bs` and the
informative rows `Ps`. `none` stands for an array of NaN: `cf_th = 0` makes every factor `0/0`, a zero sum in a row of the
factors makes that row, hence every column sum, NaN, and so does a zero total. -/
def mwSelection (dist : Row → Row → ℚ) (cfTh cmax : ℚ) (Bs Ps : List Row) : Option (List ℚ) :=
  let cf := Bs.map (fun q => Ps.map (mwCloseness dist cfTh cmax q))
  if cfTh = 0 ∨ cf.any (fun r => decide (r.sum = 0)) = true then none
  else
    let w := (List.range Ps.length).map (fun j => (cf.map (fun r => (r.getD j 0) ^ 2 / r.sum)).sum)
    if w.sum = 0 then none else some (w.map (fun x => x / w.sum))

/-- The sums of `determine_cluster_probs`, oversampling/_mwmote.py:361-363. The informative positions are valid positions in
`labels`. -/
def mwClusterWeights (informative : List Nat) (probs : List ℚ) (labels : List Int) : List ℚ :=
  (List.range (numLabels labels)).map (fun (c : Nat) =>
    (((informative.zip probs).filter (fun p => decide (labels[p.1]? = some (c : Int)))).map Prod.snd).sum)

/-- `determine_within_prob`, oversampling/_mwmote.py:367-392; `normalize` raises for NaN. -/
def mwWithin (cluster informative : List Nat) (probs : List ℚ) : Res (List ℚ) :=
  normalize (cluster.map (fun c => if c ∈ informative then probs.getD (informative.idxOf c) 0 else 0))

/-- `scipy.linalg.circulant(np.arange(m))`: entry `(i, j)` is `(i - j) mod m`. Used for oversampling/_mwmote.py:495-563. -/
def circulant (m : Nat) : List (List Nat) :=
  (List.range m).map (fun i => (List.range m).map (fun j => (i + m - j) % m))

/-- `MWMOTE.sampling_algorithm`, oversampling/_mwmote.py:495-563, with `determine_selection_probabilities` (305-344),
`determine_cluster_probs` (346-365), `sample_clusters` (394-420) and `generate_samples_in_clusters` (422-493).
`np.unique(X_min, axis=1)` removes duplicate columns, so its length is the number of minority rows. The NaN probabilities make
`choice` raise `ValueError`. -/
def mwmoteAlg (par : MwParams) (vol : List Row → ℚ) (cu : Nat → ℚ) (drs : Nat → Draws) (d : Nat)
    (kmeans : Nat → List Row → List Int) (dist : Row → Row → ℚ) (knn : Nat → List Row → List Row → List (List Nat))
    (s : Stats) (X : List Row) (y : List Int) : Res (List Row × List Int) := do
  let n ← detNToSample (.num par.proportion) (s.count s.majLabel) (s.count s.minLabel)
  if n = 0 then return (X, y)
  let Xmin := selectLabel X y s.minLabel
  let filtered ← mwFiltered par.k1 knn X y s.minLabel
  if filtered.length = 0 then return (X, y)
  let Xmaj := selectLabel X y s.majLabel
  let border ← mwBorder par.k2 knn X Xmaj filtered
  let informative ← mwInformative par.k3 knn Xmin Xmaj border
  let Bs ← takeRows Xmaj border
  let Ps ← takeRows Xmin informative
  match mwSelection dist par.cfTh par.cmax Bs Ps with
  | none => throw .valueError
  | some probs =>
    let labels := kmeans (min Xmin.length par.m) Xmin
    let cw ← normalize (mwClusterWeights informative probs labels)
    let selected ← npChoice cw.length n cw cu
    let samples ← sampleInClusters par.ss vol drs d (fun c => do
      let r ← takeRows Xmin (labelPositions labels c)
      let within ← mwWithin (labelPositions labels c) informative probs
      return { rows := r, indices := circulant r.length, k := r.length, args := { baseWeights := some within } }) selected
    return withSamples X y s.minLabel samples

end Verif

import Verif.Model.Smote
import Verif.Model.Interp
import Verif.Model.Noise
import Verif.Model.Rejection
import Verif.Model.GSmote

/-!
# Model of `smote_variants/oversampling/_v_synth.py`

The principal component analysis, the Voronoi tessellation and the generator are parameters.
-/

namespace Verif

/-- What `PCA(n_components).fit_transform` and the fitted object give: the reduced rows, `explained_variance_ratio_`, `inverse_transform`.
Used for oversampling/_v_synth.py:211-226. -/
structure VsPca where
  rows : List Row
  ratios : List ℚ
  inv : Row → Row

/-- `scipy.spatial.Voronoi`: `ridge_points`, `ridge_vertices` (-1 stands for a vertex at infinity) and `vertices`.
Used for oversampling/_v_synth.py:264-267 and oversampling/_v_synth.py:169-191. -/
structure Voronoi where
  ridgePoints : List (Nat × Nat)
  ridgeVertices : List (List Int)
  vertices : List Row

/-- What V_SYNTH calls. `coin i j`: the entries of `randint(0, 1, size=dim)`; `pick t m`: the face chosen out of `m` for the `t`-th row;
`w t j`: the weights drawn for it; `u t`: the number drawn by `sample_between_points`.
Used for oversampling/_v_synth.py:169-191 and oversampling/_v_synth.py:228-284. -/
structure VsEnv where
  pca : List Row → Nat → VsPca
  voronoi : List Row → Res Voronoi
  coin : Nat → Nat → Nat
  pick : Nat → Nat → Nat
  w : Nat → Nat → ℚ
  u : Nat → ℚ

/-- Parameters of `V_SYNTH` (oversampling/_v_synth.py:57-80). -/
structure VsParams where
  proportion : ℚ
  nComponents : Nat

/-- `add_bounding_box`, oversampling/_v_synth.py:96-122: the rows added. -/
def vsBox (coin : Nat → Nat → Nat) (d : Nat) (X : List Row) : List Row :=
  let mins := (List.range d).map (fun j => minL (X.map (fun r => r.getD j 0)))
  let maxs := (List.range d).map (fun j => maxL (X.map (fun r => r.getD j 0)))
  let mins := mins.map (fun m => m - 1 / 10 * |m|)
  let maxs := maxs.map (fun m => m + 1 / 10 * |m|)
  (List.range (min 100 d)).map (fun i => (List.range d).map (fun j => if coin i j = 0 then mins.getD j 0 else maxs.getD j 0))

/-- Squared Euclidean distance; `pairwise_distances` is compared with 0.001 (oversampling/_v_synth.py:136-141), its square with 0.000001. -/
def vsSq (p q : Row) : ℚ := ((List.zipWith (· - ·) p q).map (fun t => t * t)).sum

/-- `to_remove`, oversampling/_v_synth.py:138-142 (with repetitions). -/
def vsClose (Z : List Row) : List Nat :=
  (List.range Z.length).flatMap (fun i => (List.range' (i + 1) (Z.length - (i + 1))).flatMap (fun j =>
    if vsSq (Z.getD i []) (Z.getD j []) < 1 / 1000000 then [i] else []))

/-- The loop of `dimensionality_reduction`, oversampling/_v_synth.py:211-226. The condition is `n > 1`: the mask has `n` entries that are true at
the start of each round. `last` is the analysis made last; without one the `return` raises `UnboundLocalError`. The number of rounds is
bounded by the fuel. -/
def vsReduce (pca : Nat → VsPca) : Nat → Nat → Option VsPca → Res (VsPca × Nat)
  | 0, _, _ => .error .recursionError
  | fuel + 1, n, last =>
    if 1 < n then
      let p := pca n
      let m := (p.ratios.filter (fun r => decide (1 / 100 < r))).length
      if m = n then .ok (p, n) else vsReduce pca fuel m (some p)
    else match last with
      | none => .error .nameError
      | some p => .ok (p, n)

/-- `voronoi.vertices[i]`: negative numbers count from the end. Used for oversampling/_v_synth.py:169-191. -/
def vsVertex (V : Voronoi) (i : Int) : Res Row :=
  if i < 0 then (if V.vertices.length < i.natAbs then .error .indexError else getRow V.vertices (V.vertices.length - i.natAbs))
  else getRow V.vertices i.toNat

/-- `candidate_face_generators`, oversampling/_v_synth.py:264-267. The labels are those before the removal. -/
def vsCandidates (V : Voronoi) (y : List Int) : List Nat :=
  (List.range V.ridgePoints.length).filter (fun r =>
    let p := V.ridgePoints.getD r (0, 0)
    decide (p.1 < y.length) && decide (p.2 < y.length) && decide (y.getD p.1 0 ≠ y.getD p.2 0))

/-- One round of `generate_samples`, oversampling/_v_synth.py:169-191. -/
def vsSample (env : VsEnv) (m : Nat) (V : Voronoi) (pts : List Row) (labels : List Int) (a : Int) (cands : List Nat) (t : Nat) : Res Row := do
  let face ← getRow cands (env.pick t cands.length)
  let idx ← getRow V.ridgeVertices face
  let fv ← idx.mapM (vsVertex V)
  let w ← normalizeDraw ((List.range fv.length).map (env.w t))
  let onFace := rowSum m (List.zipWith Row.smul w fv)
  let p ← getRow V.ridgePoints face
  let l ← getRow labels p.1
  let h ← if l = a then getRow pts p.1 else getRow pts p.2
  return sampleBetweenPoints onFace h (env.u t)

/-- `V_SYNTH.sampling_algorithm`, oversampling/_v_synth.py:228-284. The dimension of the reduced rows is the number of components of the
analysis made last, which is the number of its ratios. -/
def vsAlg (env : VsEnv) (par : VsParams) (d : Nat) (s : Stats) (X : List Row) (y : List Int) : Res (List Row × List Int) := do
  let n ← detNToSample (.num par.proportion) (s.count s.majLabel) (s.count s.minLabel)
  if n = 0 then return (X, y)
  let box := vsBox env.coin d X
  let Xbb := X ++ box
  let nc := min d par.nComponents
  let r ← vsReduce (env.pca Xbb) (nc + 1) nc none
  if r.2 = 1 then return (X, y)
  let labels := y ++ List.replicate box.length (-1)
  let pts := npDelete r.1.rows (vsClose r.1.rows)
  let labels := npDelete labels (vsClose r.1.rows)
  let V ← env.voronoi pts
  let cands := vsCandidates V y
  if cands.length = 0 then return (X, y)
  let samples ← (List.range n).mapM (vsSample env r.1.ratios.length V pts labels s.minLabel cands)
  return (X ++ samples.map r.1.inv, y ++ List.replicate samples.length s.minLabel)

end Verif

import Verif.Model.Base

/-!
# Model of `smote_variants/base/_simplexsampling.py`

Arrays of simplices are lists of index lists `base :: neighbours`. Randomness is given as streams:
`choiceU i` is the uniform draw used for the i-th selection, `simplexU i j` the draw for vertex j of
the i-th selected simplex, `normalU i j` the normal draw for coordinate j of sample i.
-/

namespace Verif

/-- `itertools.combinations(l, r)` in its order. Used for base/_simplexsampling.py:48-67. -/
def combinations {α : Type} : List α → Nat → List (List α)
  | _, 0 => [[]]
  | [], _ + 1 => []
  | x :: xs, r + 1 => (combinations xs r).map (x :: ·) ++ combinations xs (r + 1)

/-- `base_idx_neighbor_idx_simplices`, base/_simplexsampling.py:48-67. `n_dim = 0` makes
`itertools.combinations(_, -1)` raise `ValueError`. Without any combination the arrays stacked in line 65 have shapes `(0,)` and
`(0, n_base)`: `np.vstack` raises `ValueError` unless `n_base` is zero. -/
def baseIdxNeighborIdxSimplices (nBase nNeighbors nDim : Nat) : Res (List (List Nat)) :=
  if nDim = 0 then .error .valueError
  else
    let combs := combinations (List.range' 1 (nNeighbors - 1)) (nDim - 1)
    if combs = [] ∧ nBase ≠ 0 then .error .valueError
    else .ok ((List.range nBase).flatMap (fun b => combs.map (fun c => b :: c)))

/-- One row of `all_neighbor_simplices_real_idx`: the position list `base :: ps` becomes
`base :: indices[base][ps]` (`array_array_index`, base/_simplexsampling.py:28-45 and 84-91). -/
def realIdxRow (indices : List (List Nat)) : List Nat → Res (List Nat)
  | [] => .error .indexError
  | b :: ps => do
    let nb ← getRow indices b
    let vs ← takeRows nb ps
    return b :: vs

/-- `all_neighbor_simplices_real_idx`, base/_simplexsampling.py:70-93; `k = indices.shape[1]`. -/
def allNeighborSimplicesRealIdx (nDim : Nat) (indices : List (List Nat)) (k : Nat) :
    Res (List (List Nat)) := do
  let all ← baseIdxNeighborIdxSimplices indices.length k nDim
  all.mapM (realIdxRow indices)

/-- The three `simplex_sampling` values and everything else. Used for base/_simplexsampling.py:339-363 and base/_simplexsampling.py:383-401. -/
inductive SimplexSampling
  | random | deterministic | volume | unknown
  deriving DecidableEq, Repr

/-- The two `within_simplex_sampling` values and everything else. Used for base/_simplexsampling.py:339-363. -/
inductive WithinSampling
  | random | deterministic | unknown
  deriving DecidableEq, Repr

/-- `gaussian_component`: empty, `{"sigma": s}` or `{"sigmas": ss}`.
Used for base/_simplexsampling.py:339-363 and base/_simplexsampling.py:534-562. -/
inductive Gaussian
  | none
  | sigma (s : ℚ)
  | sigmas (ss : List ℚ)
  deriving DecidableEq, Repr

/-- Attributes of `SimplexSamplingMixin`, base/_simplexsampling.py:339-363. -/
structure SSParams where
  nDim : Nat
  simplexSampling : SimplexSampling
  within : WithinSampling
  gaussian : Gaussian
  deriving DecidableEq, Repr

/-- All random draws consumed by one call of `sample_simplex`. Used for base/_simplexsampling.py:650-722. -/
structure Draws where
  choiceU : Nat → ℚ
  simplexU : Nat → Nat → ℚ
  normalU : Nat → Nat → ℚ

/-- What numpy guarantees for the draws: `random_sample` values lie in `[0, 1)`.
Used for base/_simplexsampling.py:203-244 and base/_simplexsampling.py:470-532. -/
structure Draws.OK (dr : Draws) : Prop where
  choice : ∀ i, 0 ≤ dr.choiceU i ∧ dr.choiceU i < 1
  simplex : ∀ i j, 0 ≤ dr.simplexU i j ∧ dr.simplexU i j < 1

/-- `determine_simplex_distribution`, base/_simplexsampling.py:383-401. `vol` stands for
`simplex_volumes` of one simplex given by its vertices (lines 96-126; it needs square roots and
determinants, so it is a parameter). -/
def simplexDistribution (mode : SimplexSampling) (vol : List Row → ℚ) (X : List Row)
    (simplices : List (List Nat)) : Res (List ℚ) :=
  match mode with
  | .random | .deterministic => .ok (List.replicate simplices.length (1 / (simplices.length : ℚ)))
  | .volume => simplices.mapM (fun s => do let vs ← takeRows X s; return vol vs)
  | .unknown => .error .valueError

/-- Shift the neighbour part of a simplex by `n` (the joint array `vstack([X, X_vertices])`).
Used for base/_simplexsampling.py:439-468 and base/_simplexsampling.py:227-238. -/
def shiftNeighbors (n : Nat) : List Nat → List Nat
  | [] => []
  | b :: vs => b :: vs.map (· + n)

/-- `determine_weights`, base/_simplexsampling.py:439-468. In the joint case the neighbours are
shifted by `indices.shape[0]`. -/
def determineWeights (mode : SimplexSampling) (vol : List Row → ℚ) (X : List Row)
    (baseWeights : Option (List ℚ)) (Xv : Option (List Row)) (allS : List (List Nat))
    (nIndices : Nat) : Res (List ℚ) :=
  match baseWeights with
  | none =>
    match Xv with
    | none => simplexDistribution mode vol X allS
    | some V => simplexDistribution mode vol (X ++ V) (allS.map (shiftNeighbors nIndices))
  | some bw =>
    -- np.repeat(base_weights, int(n_simplices / n_records)); no record: division by zero
    if bw.length = 0 then .error .valueError
    else .ok (bw.flatMap (fun w => List.replicate (allS.length / bw.length) w))

/-- The node weights of `all_simplices_node_weights`, base/_simplexsampling.py:423-435. -/
def nodeWeights (simplexWeights : Option (List (List ℚ))) (nIndices k nDim : Nat)
    (nSimplices : Nat) : Res (List ℚ) :=
  match simplexWeights with
  | none => .ok (List.replicate nSimplices 1)
  | some sw => do
    let nidx ← baseIdxNeighborIdxSimplices nIndices k nDim
    nidx.mapM (fun s => match s with
      | [] => .error .indexError
      | b :: ps => do
        let row ← getRow sw b
        let ws ← takeRows row ps
        return ws.prod)

/-- `RandomState.choice(len(p), p=p)` for one uniform draw: `cdf = cumsum(p); cdf /= cdf[-1];
cdf.searchsorted(u, side='right')`, i.e. the first position whose cumulated weight exceeds `u`. Used for base/_simplexsampling.py:470-532. -/
def choiceIdx (p : List ℚ) (u : ℚ) : Nat :=
  let c := cumsum p
  (c.map (· / c.getLastD 1)).findIdx (fun x => decide (u < x))

/-- `RandomState.choice(choices, n, p=p)` with numpy's validation: wrong size, a negative entry or a
sum different from one raise `ValueError` (numpy's tolerance on the sum is not modelled). Used for base/_simplexsampling.py:470-532. -/
def npChoice (nChoices n : Nat) (p : List ℚ) (u : Nat → ℚ) : Res (List Nat) :=
  if p.length ≠ nChoices then .error .valueError
  else if p.any (fun x => decide (x < 0)) then .error .valueError
  else if p.sum ≠ 1 then .error .valueError
  else .ok ((List.range n).map (fun i => choiceIdx p (u i)))

/-- `vector_choice` for one row of probabilities, base/_simplexsampling.py:184-200:
`argmax(u < cumsum(p))`, which is 0 when no entry is true. -/
def vectorChoiceRow (p : List ℚ) (u : ℚ) : Nat :=
  let i := (cumsum p).findIdx (fun x => decide (u < x))
  if i < p.length then i else 0

/-- `counts_to_vector`, base/_simplexsampling.py:282-293 (negative counts: `np.repeat` raises). -/
def countsToVector (counts : List Int) : Res (List Nat) :=
  if counts.any (fun c => decide (c < 0)) then .error .valueError
  else .ok (counts.zipIdx.flatMap (fun (c, i) => List.replicate c.toNat i))

/-- `tmp[idx] = tmp[idx] - 1`: every listed position is decremented once, duplicates included. Used for base/_simplexsampling.py:309-327. -/
def decrementAt (idx : List Nat) (tmp : List Int) : List Int :=
  tmp.zipIdx.map (fun (c, i) => if i ∈ idx then c - 1 else c)

/-- Write `tmp` back into the non-zero positions: `sample_counts[non_zero_mask] = tmp`. Used for base/_simplexsampling.py:309-327. -/
def scatterNonZero : List Int → List Int → List Int
  | [], _ => []
  | c :: cs, tmp =>
    if c > 0 then
      match tmp with
      | t :: ts => t :: scatterNonZero cs ts
      | [] => c :: scatterNonZero cs []
    else c :: scatterNonZero cs tmp

/-- `np.floor(np.linspace(0, m, r, endpoint=False)).astype(int)`. Used for base/_simplexsampling.py:309-327. -/
def spacedFloors (m r : Nat) : List Nat :=
  (List.range r).map (fun (i : Nat) => (⌊((i : ℚ) * ((m : ℚ) / (r : ℚ)))⌋).toNat)

/-- The counts of `deterministic_sample`, base/_simplexsampling.py:309-327, from the products
`q_i = n_to_sample * p_i`. A negative number of points passed to `linspace` raises `ValueError`. -/
def deterministicCounts (n : Nat) (q : List ℚ) : Res (List Int) :=
  let sc : List Int := q.map (fun x => ⌈x⌉)
  let toRemove : Int := sc.sum - n
  if toRemove = 0 then .ok sc
  else if toRemove < 0 then .error .valueError
  else
    let tmp := sc.filter (fun c => decide (c > 0))
    let idx := spacedFloors tmp.length toRemove.toNat
    if idx.any (fun i => decide (tmp.length ≤ i)) then .error .indexError
    else
      let sc' := scatterNonZero sc (decrementAt idx tmp)
      if sc'.sum = n then .ok sc' else .error .assertionError

/-- `deterministic_sample(np.arange(len(p)), n_to_sample, p)`, base/_simplexsampling.py:296-331. -/
def deterministicSample (n : Nat) (p : List ℚ) : Res (List Nat) := do
  let c ← deterministicCounts n (p.map (fun x => (n : ℚ) * x))
  countsToVector c

/-- Division of all weights by their sum; a zero sum gives NaNs, which `choice` rejects with
`ValueError` (base/_simplexsampling.py:521-528). -/
def normalize (w : List ℚ) : Res (List ℚ) :=
  if w.sum = 0 then .error .valueError else .ok (w.map (· / w.sum))

/-- `SimplexSamplingMixin.simplices`, base/_simplexsampling.py:470-532. `k = indices.shape[1]`. -/
def simplicesSel (mode : SimplexSampling) (vol : List Row → ℚ) (choiceU : Nat → ℚ)
    (X : List Row) (n : Nat) (baseWeights : Option (List ℚ)) (indices : List (List Nat)) (k : Nat)
    (Xv : Option (List Row)) (simplexWeights : Option (List (List ℚ))) (nDim : Nat) :
    Res (List (List Nat)) := do
  let all ← allNeighborSimplicesRealIdx nDim indices k
  let nw ← nodeWeights simplexWeights indices.length k nDim all.length
  let w ← determineWeights mode vol X baseWeights Xv all indices.length
  if w.length ≠ nw.length then throw .valueError
  let p ← normalize (List.zipWith (· * ·) w nw)
  let sel ← if mode = .deterministic then deterministicSample n p
            else npChoice all.length n p choiceU
  takeRows all sel

/-- The vertices of one simplex as selected by the four branches of
`random_samples_from_simplices`, base/_simplexsampling.py:227-238 and `reweight_simplex_vertices`,
129-163. The in-place shift and un-shift of `simplices` is the addition of `X.length`. -/
def simplexVertices (X : List Row) (Xv : Option (List Row)) (vw : Option (List ℚ)) (s : List Nat) :
    Res (List Row) :=
  match Xv, vw, s with
  | none, none, s => takeRows X s
  | some V, none, s => takeRows (X ++ V) (shiftNeighbors X.length s)
  | _, some _, [] => .error .indexError
  | Xv, some vw, b :: ns => do
    let base ← getRow X b
    let nbs ← takeRows (Xv.getD X) ns
    let ws ← takeRows vw ns
    return base :: List.zipWith (fun nb w => Row.add (Row.smul w (Row.sub nb base)) base) nbs ws

/-- `weights / np.sum(weights)` for one simplex; all-zero draws give NaN. Used for base/_simplexsampling.py:203-244. -/
def normalizeDraw (u : List ℚ) : Res (List ℚ) :=
  if u.sum = 0 then .error .nan else .ok (u.map (· / u.sum))

/-- `random_samples_from_simplices`, base/_simplexsampling.py:203-244. -/
def randomSamplesFromSimplices (d : Nat) (X : List Row) (simplices : List (List Nat))
    (Xv : Option (List Row)) (vw : Option (List ℚ)) (u : Nat → Nat → ℚ) : Res (List Row) :=
  simplices.zipIdx.mapM (fun (s, i) => do
    let w ← normalizeDraw ((List.range s.length).map (u i))
    let vs ← simplexVertices X Xv vw s
    return rowSum d (List.zipWith Row.smul w vs))

/-- The weight of a neighbour: 1 without `vertex_weights`, base/_simplexsampling.py:270-273. -/
def vertexWeight (vw : Option (List ℚ)) (i : Nat) : Res ℚ :=
  match vw with
  | none => .ok 1
  | some ws => getRow ws i

/-- `add_samples`, base/_simplexsampling.py:247-279: for each split point `s = j/(count+1)` the rows
`base + (neighbour - base) * weight * s` of all pairs having this count. -/
def addSamples (pairs : List ((Nat × Nat) × Nat)) (count : Nat) (X V : List Row)
    (vw : Option (List ℚ)) : Res (List Row) := do
  let filtered := (pairs.filter (fun pc => pc.2 == count)).map Prod.fst
  let rows ← filtered.mapM (fun p => do
    let base ← getRow X p.1
    let nb ← getRow V p.2
    let w ← vertexWeight vw p.2
    return (base, Row.smul w (Row.sub nb base)))
  return (List.range' 1 count).flatMap (fun (j : Nat) =>
    rows.map (fun bd => Row.add bd.1 (Row.smul (1 / ((count : ℚ) + 1) * (j : ℚ)) bd.2)))

/-- `simplices[:, 0]`, `simplices[:, 1]` of one simplex. Used for base/_simplexsampling.py:564-606. -/
def edgeOf : List Nat → Res (Nat × Nat)
  | b :: n :: _ => .ok (b, n)
  | _ => .error .indexError

/-- `deterministic_samples_dim_2`, base/_simplexsampling.py:564-606. `same` says whether the caller
passed the very same array object as `X` and `X_vertices`. -/
def deterministicSamplesDim2 (X : List Row) (simplices : List (List Nat)) (Xv : Option (List Row))
    (same : Bool) (vw : Option (List ℚ)) : Res (List Row) := do
  let pairs ← simplices.mapM edgeOf
  let sorted := Xv.isNone || same
  let pairs := if sorted then pairs.map (fun p => (min p.1 p.2, max p.1 p.2)) else pairs
  let V := if sorted then X else Xv.getD X
  let uc := (npUniqueCounts (pairs.map (fun p => toLex p))).map (fun vc => (ofLex vc.1, vc.2))
  let maxCount := (uc.map Prod.snd).foldr max 0
  let present := (List.range' 1 maxCount).filter (fun c => (uc.map Prod.snd).contains c)
  let parts ← present.mapM (fun c => addSamples uc c X V vw)
  return parts.flatten

/-- `deterministic_samples_from_simplices`, base/_simplexsampling.py:621-648 with
`deterministic_samples_dim_1`, 608-619. -/
def deterministicSamples (X : List Row) (simplices : List (List Nat)) (Xv : Option (List Row))
    (same : Bool) (vw : Option (List ℚ)) (nDim : Nat) : Res (List Row) :=
  if nDim = 2 then deterministicSamplesDim2 X simplices Xv same vw
  else if nDim = 1 then
    simplices.mapM (fun s => match s with
      | b :: _ => getRow X b
      | [] => .error .indexError)
  else .error .valueError

/-- `add_gaussian_noise`, base/_simplexsampling.py:534-562. -/
def addGaussianNoise (g : Gaussian) (normalU : Nat → Nat → ℚ) (samples : List Row) : List Row :=
  match g with
  | .none => samples
  | .sigma s => samples.zipIdx.map (fun (r, i) =>
      r.zipIdx.map (fun (x, j) => x + normalU i j * s))
  | .sigmas ss => samples.zipIdx.map (fun (r, i) =>
      List.zipWith (· + ·) r (ss.zipIdx.map (fun (s, j) => normalU i j * s)))

/-- Optional arguments of `sample_simplex`. Used for base/_simplexsampling.py:650-722. -/
structure SSArgs where
  baseWeights : Option (List ℚ) := none
  vertexWeights : Option (List ℚ) := none
  Xv : Option (List Row) := none
  sameVertices : Bool := false
  simplexWeights : Option (List (List ℚ)) := none

/-- `SimplexSamplingMixin.sample_simplex`, base/_simplexsampling.py:650-722. `d = X.shape[1]`,
`k = indices.shape[1]`. -/
def sampleSimplex (ss : SSParams) (vol : List Row → ℚ) (dr : Draws) (d : Nat) (X : List Row)
    (indices : List (List Nat)) (k n : Nat) (a : SSArgs) : Res (List Row) := do
  if n = 0 then return []
  let nDim := min ss.nDim k
  let sel ← simplicesSel ss.simplexSampling vol dr.choiceU X n a.baseWeights indices k a.Xv
    a.simplexWeights nDim
  let samples ← match ss.within with
    | .random => randomSamplesFromSimplices d X sel a.Xv a.vertexWeights dr.simplexU
    | .deterministic => deterministicSamples X sel a.Xv a.sameVertices a.vertexWeights nDim
    | .unknown => .error .valueError
  return addGaussianNoise ss.gaussian dr.normalU samples

end Verif

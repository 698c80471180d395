import Verif.Model.Rounded

/-!
# Selection of simplices with rounding

`base/_simplexsampling.py` with a rounding after every operation, and `RandomState.choice` of numpy in the same way. The check of `choice` on
the sum of the probabilities has its own summation (`ksum`, compensated) and its tolerance (`tol`).
-/

namespace Verif

/-- `np.cumsum` after the first entry. Used for base/_simplexsampling.py:470-532. -/
def flCumsumFrom (fl : ℚ → ℚ) : ℚ → List ℚ → List ℚ
  | _, [] => []
  | acc, x :: xs => fl (acc + x) :: flCumsumFrom fl (fl (acc + x)) xs

/-- `np.cumsum`. Used for base/_simplexsampling.py:470-532. -/
def flCumsum (fl : ℚ → ℚ) : List ℚ → List ℚ
  | [] => []
  | x :: xs => x :: flCumsumFrom fl x xs

/-- `RandomState.choice(len(p), p=p)` for one uniform draw: `cdf = cumsum(p); cdf /= cdf[-1]; cdf.searchsorted(u, side='right')`.
Used for base/_simplexsampling.py:470-532. -/
def flChoiceIdx (fl : ℚ → ℚ) (p : List ℚ) (u : ℚ) : Nat :=
  let c := flCumsum fl p
  (c.map (fun x => fl (x / c.getLastD 1))).findIdx (fun x => decide (u < x))

/-- `RandomState.choice(choices, n, p=p)` with numpy's validation. Used for base/_simplexsampling.py:470-532. -/
def flNpChoice (fl : ℚ → ℚ) (ksum : List ℚ → ℚ) (tol : ℚ) (nChoices n : Nat) (p : List ℚ) (u : Nat → ℚ) : Res (List Nat) :=
  if p.length ≠ nChoices then .error .valueError
  else if p.any (fun x => decide (x < 0)) then .error .valueError
  else if tol < |fl (ksum p - 1)| then .error .valueError
  else .ok ((List.range n).map (fun i => flChoiceIdx fl p (u i)))

/-- `np.floor(np.linspace(0, m, r, endpoint=False)).astype(int)`: the step is rounded, and so is each multiple of it.
Used for base/_simplexsampling.py:309-327. -/
def flSpacedFloors (fl : ℚ → ℚ) (m r : Nat) : List Nat :=
  (List.range r).map (fun (i : Nat) => ⌊fl ((i : ℚ) * fl ((m : ℚ) / (r : ℚ)))⌋.toNat)

/-- The counts of `deterministic_sample`, base/_simplexsampling.py:309-327. -/
def flDeterministicCounts (fl : ℚ → ℚ) (n : Nat) (q : List ℚ) : Res (List Int) :=
  let sc : List Int := q.map (fun x => ⌈x⌉)
  let toRemove : Int := sc.sum - n
  if toRemove = 0 then .ok sc
  else if toRemove < 0 then .error .valueError
  else
    let tmp := sc.filter (fun c => decide (c > 0))
    let idx := flSpacedFloors fl tmp.length toRemove.toNat
    if idx.any (fun i => decide (tmp.length ≤ i)) then .error .indexError
    else
      let sc' := scatterNonZero sc (decrementAt idx tmp)
      if sc'.sum = n then .ok sc' else .error .assertionError

/-- `deterministic_sample(np.arange(len(p)), n_to_sample, p)`, base/_simplexsampling.py:296-331. -/
def flDeterministicSample (fl : ℚ → ℚ) (n : Nat) (p : List ℚ) : Res (List Nat) := do
  let c ← flDeterministicCounts fl n (p.map (fun x => fl ((n : ℚ) * x)))
  countsToVector c

/-- `determine_simplex_distribution`, base/_simplexsampling.py:383-401; the volumes are given. -/
def flSimplexDistribution (fl : ℚ → ℚ) (mode : SimplexSampling) (vol : List Row → ℚ) (X : List Row)
    (simplices : List (List Nat)) : Res (List ℚ) :=
  match mode with
  | .random | .deterministic => .ok (List.replicate simplices.length (fl (1 / (simplices.length : ℚ))))
  | .volume => simplices.mapM (fun s => do let vs ← takeRows X s; return vol vs)
  | .unknown => .error .valueError

/-- `determine_weights`, base/_simplexsampling.py:439-468. -/
def flDetermineWeights (fl : ℚ → ℚ) (mode : SimplexSampling) (vol : List Row → ℚ) (X : List Row)
    (baseWeights : Option (List ℚ)) (Xv : Option (List Row)) (allS : List (List Nat))
    (nIndices : Nat) : Res (List ℚ) :=
  match baseWeights with
  | none =>
    match Xv with
    | none => flSimplexDistribution fl mode vol X allS
    | some V => flSimplexDistribution fl mode vol (X ++ V) (allS.map (shiftNeighbors nIndices))
  | some bw =>
    if bw.length = 0 then .error .valueError
    else .ok (bw.flatMap (fun w => List.replicate (allS.length / bw.length) w))

/-- The node weights of `all_simplices_node_weights`, base/_simplexsampling.py:423-435. -/
def flNodeWeights (fl : ℚ → ℚ) (simplexWeights : Option (List (List ℚ))) (nIndices k nDim : Nat)
    (nSimplices : Nat) : Res (List ℚ) :=
  match simplexWeights with
  | none => .ok (List.replicate nSimplices 1)
  | some sw => do
    let nidx ← baseIdxNeighborIdxSimplices nIndices k nDim
    nidx.mapM (fun s => match s with
      | [] => .error .indexError
      | b :: ps => do
        let row ← getRow sw b
        let ws ← takeRows row ps
        return ws.foldl (fun a b => fl (a * b)) 1)

/-- `weights / np.sum(weights)`; a zero sum gives NaNs, which `choice` rejects with `ValueError` (base/_simplexsampling.py:521-528). -/
def flNormalizeWeights (A : MachineArith) (w : List ℚ) : Res (List ℚ) :=
  if A.sum w = 0 then .error .valueError else .ok (w.map (fun x => A.fl (x / A.sum w)))

/-- `SimplexSamplingMixin.simplices`, base/_simplexsampling.py:470-532. -/
def flSimplicesSel (A : MachineArith) (ksum : List ℚ → ℚ) (tol : ℚ) (mode : SimplexSampling) (vol : List Row → ℚ) (choiceU : Nat → ℚ)
    (X : List Row) (n : Nat) (baseWeights : Option (List ℚ)) (indices : List (List Nat)) (k : Nat)
    (Xv : Option (List Row)) (simplexWeights : Option (List (List ℚ))) (nDim : Nat) :
    Res (List (List Nat)) := do
  let all ← allNeighborSimplicesRealIdx nDim indices k
  let nw ← flNodeWeights A.fl simplexWeights indices.length k nDim all.length
  let w ← flDetermineWeights A.fl mode vol X baseWeights Xv all indices.length
  if w.length ≠ nw.length then throw .valueError
  let p ← flNormalizeWeights A (List.zipWith (fun a b => A.fl (a * b)) w nw)
  let sel ← if mode = .deterministic then flDeterministicSample A.fl n p
            else flNpChoice A.fl ksum tol all.length n p choiceU
  takeRows all sel

/-- `SMOTE.sampling_algorithm`, oversampling/_smote.py:104-139, as `flSmoteAlg`, with the rounded selection of the simplices. -/
def flSmoteFullAlg (A : MachineArith) (ksum : List ℚ → ℚ) (tol : ℚ) (par : SmoteParams) (vol : List Row → ℚ) (dr : Draws) (d : Nat)
    (knn : Nat → List Row → List (List Nat)) (s : Stats) (X : List Row) (y : List Int) : Res (List Row × List Int) := do
  let n ← flDetN A.fl par.proportion (s.count s.majLabel) (s.count s.minLabel)
  if n = 0 then return (X, y)
  let Xmin := selectLabel X y s.minLabel
  let k := min Xmin.length (par.nNeighbors + 1)
  let sel ← flSimplicesSel A ksum tol par.ss.simplexSampling vol dr.choiceU Xmin n none (knn k Xmin) k none none (min par.ss.nDim k)
  let samples ← flRandomSamples A d Xmin sel none dr.simplexU
  return (X ++ samples, y ++ List.replicate n s.minLabel)

end Verif

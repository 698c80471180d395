import Verif.Model.Interp
import Verif.Model.Simplex
import Verif.Model.Checks
import Verif.Model.Rejection

/-!
# SMOBD

`optics m rows` are the core distances and the reachabilities of `OPTICS`, or its exception. Distances are finite or infinite; NaN arises
only as the product of infinity and zero. `radius rows` are the numbers of rows within `max_eps` of every row.
-/

namespace Verif

/-- `np.mean` of distances of which some may be infinite. Used for oversampling/_smobd.py:152-157. -/
def xfMean (l : List XF) : XF :=
  if XF.posInf ∈ l then .posInf else .fin ((l.map XF.toNum).sum / (l.length : ℚ))

/-- The product of a distance and a number. Used for oversampling/_smobd.py:152-157. -/
def xfScale (t : ℚ) : XF → XF
  | .fin q => .fin (q * t)
  | .posInf => if t = 0 then .nan else if t < 0 then .negInf else .posInf
  | _ => .nan

/-- oversampling/_smobd.py:152-157. -/
def smobdNoise (t : ℚ) (core reach : List XF) : List Bool :=
  List.zipWith (fun c r => (xfScale t (xfMean core)).lt c && (xfScale t (xfMean reach)).lt r) core reach

/-- oversampling/_smobd.py:183: infinite core distances become the largest finite one times 1.1. -/
def coreFinite (core : List XF) : List ℚ :=
  let top := maxL ((core.filter (fun c => decide (c ≠ .posInf))).map XF.toNum)
  core.map (fun c => if c = .posInf then top * (11 / 10) else c.toNum)

/-- oversampling/_smobd.py:185-191, before `fix_density`. -/
def smobdDensity (eta1 : ℚ) (noise : List Bool) (core : List ℚ) (counts : List Nat) : List ℚ :=
  let f1 := core.map (fun c => c / max (maxL core) (1 / 100000000))
  let cs := counts.map (fun c : Nat => (c : ℚ))
  let f2 := cs.map (fun c => c / max (maxL cs) (1 / 100000000))
  let density := List.zipWith (fun a b => a * eta1 + b * (1 - eta1)) f1 f2
  List.zipWith (fun q n => if n then 0 else q) density noise

/-- `determine_indices_and_density`, oversampling/_smobd.py:131-195. -/
def smobdPrepare (eta1 t : ℚ) (minSamples : Nat) (optics : Nat → List Row → Res (List XF × List XF)) (radius : List Row → List Nat)
    (knn : Nat → List Row → List (List Nat)) (A : List Row) : Res (List (List Nat) × List ℚ) := do
  let o ← optics (min (A.length - 1) minSamples) A
  let noise := smobdNoise t o.1 o.2
  let indices := knn (min A.length (minSamples + 1)) A
  let counts := radius A
  if (∀ c ∈ o.1, c = .posInf) ∨ (∀ c ∈ counts, c = 0) then throw .valueError
  return (indices, fixDensity ((smobdDensity eta1 noise (coreFinite o.1) counts).map XF.fin))

/-- `SMOBD.sampling_algorithm`, oversampling/_smobd.py:197-239: `baseU` drives the choice of the base rows, `ix i m` is the choice of
neighbour from `m`, `gap i j` the factor of coordinate `j`. -/
def smobdAlg (proportion eta1 t : ℚ) (minSamples : Nat) (optics : Nat → List Row → Res (List XF × List XF)) (radius : List Row → List Nat)
    (baseU : Nat → ℚ) (ix : Nat → Nat → Nat) (gap : Nat → Nat → ℚ) (knn : Nat → List Row → List (List Nat)) (s : Stats)
    (X : List Row) (y : List Int) : Res (List Row × List Int) := do
  let n ← detNToSample (.num proportion) (s.count s.majLabel) (s.count s.minLabel)
  if n = 0 then return (X, y)
  let A := selectLabel X y s.minLabel
  match smobdPrepare eta1 t minSamples optics radius knn A with
  | .error .valueError => return (X, y)
  | .error e => .error e
  | .ok (indices, density) => do
    let bases ← npChoice A.length n density baseU
    let k := min A.length (minSamples + 1)
    if k < 2 then throw .valueError
    let samples ← bases.zipIdx.mapM (fun p => do
      let base ← getRow A p.1
      let row ← getRow indices p.1
      let q ← getRow row (1 + ix p.2 (k - 1))
      let nb ← getRow A q
      return mixRow base nb (gap p.2))
    return withSamples X y s.minLabel samples

end Verif

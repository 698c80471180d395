import Verif.Model.Ccr
import Verif.Model.Simplex

/-!
# `polynom_fit_SMOTE` and its four topologies

The fitted polynomials of the topology `poly_k` (`np.polyfit`) are a parameter.
-/

namespace Verif

/-- `np.mean(X_min, axis=0)`. Used for oversampling/_polynom_fit_smote.py:105-114. -/
def meanRow (d : Nat) (rows : List Row) : Row := Row.smul (1 / (rows.length : ℚ)) (rowSum d rows)

/-- `np.max([1, int(np.rint(n_to_sample / X_min.shape[0]))])`, oversampling/_polynom_fit_smote.py:107, 117 and 476. -/
def samplesPerRow (n m : Nat) : Nat := max 1 (npRoundHalfEven ((n : ℚ) / m)).toNat

/-- The points dividing a segment into `k + 1` equal parts.
Used for oversampling/_polynom_fit_smote.py:105-114 and oversampling/_polynom_fit_smote.py:115-126. -/
def splitPoints (k : Nat) (p q : Row) : List Row :=
  (List.range k).map (fun (j : Nat) => mixRow p q (fun _ => ((j : ℚ) + 1) / ((k : ℚ) + 1)))

/-- Topology `star`, oversampling/_polynom_fit_smote.py:105-114. -/
def starSamples (d n : Nat) (Xmin : List Row) : List Row :=
  Xmin.flatMap (fun p => splitPoints (samplesPerRow n Xmin.length) p (meanRow d Xmin))

/-- Topology `bus`, oversampling/_polynom_fit_smote.py:115-126. -/
def busSamples (n : Nat) (Xmin : List Row) : List Row :=
  (List.zip Xmin Xmin.tail).flatMap (fun pq => splitPoints (samplesPerRow n Xmin.length) pq.1 pq.2)

/-- Topology `poly_k`, oversampling/_polynom_fit_smote.py:127-148: `poly Xmin dim` is the fitted polynomial, `u dim i` the
random numbers. -/
def polySamples (poly : List Row → Nat → ℚ → ℚ) (u : Nat → Nat → ℚ) (d n : Nat) (Xmin : List Row) : List Row :=
  (List.range n).map (fun i => (List.range d).map (fun dim => poly Xmin dim (u dim i * Xmin.length)))

/-- The topologies of `polynom_fit_SMOTE`. Used for oversampling/_polynom_fit_smote.py:84-153 and oversampling/_polynom_fit_smote.py:227-238. -/
inductive Topology
  | star | bus
  | poly (fit : List Row → Nat → ℚ → ℚ) (u : Nat → Nat → ℚ)

/-- The samples of a topology. Used for oversampling/_polynom_fit_smote.py:84-153. -/
def Topology.samples (t : Topology) (d n : Nat) (Xmin : List Row) : List Row :=
  match t with
  | .star => starSamples d n Xmin
  | .bus => busSamples n Xmin
  | .poly fit u => polySamples fit u d n Xmin

/-- `polynom_fit_SMOTE.sampling_algorithm`, oversampling/_polynom_fit_smote.py:84-153. -/
def polynomAlg (proportion : ℚ) (t : Topology) (d : Nat) (s : Stats) (X : List Row) (y : List Int) :
    Res (List Row × List Int) := do
  let n ← detNToSample (.num proportion) (s.count s.majLabel) (s.count s.minLabel)
  if n = 0 then return (X, y)
  return withSamples X y s.minLabel (t.samples d n (selectLabel X y s.minLabel))

/-- `polynom_fit_SMOTE_star`, `_bus` and `_poly` call `sample` of a `polynom_fit_SMOTE` in their `sampling_algorithm`
(oversampling/_polynom_fit_smote.py:227-238, 301-312, 382-393). -/
def polynomClass (proportion : ℚ) (t : Topology) (d : Nat) (X : List Row) (y : List Int) : Res (List Row × List Int) :=
  sample defaultChecks d (fun _ => sample defaultChecks d (polynomAlg proportion t d)) X y

/-- `polynom_fit_SMOTE_mesh.sampling_algorithm`, oversampling/_polynom_fit_smote.py:456-513. `nb j i` is the j-th random
partner of minority row `i`. -/
def meshAlg (proportion : ℚ) (ss : SSParams) (vol : List Row → ℚ) (dr : Draws) (nb : Nat → Nat → Nat) (d : Nat) (s : Stats)
    (X : List Row) (y : List Int) : Res (List Row × List Int) := do
  let n ← detNToSample (.num proportion) (s.count s.majLabel) (s.count s.minLabel)
  if n = 0 then return (X, y)
  let Xmin := selectLabel X y s.minLabel
  let k := samplesPerRow n Xmin.length
  let indices := (List.range Xmin.length).map (fun i => i :: (List.range k).map (fun j => nb j i))
  let samples ← sampleSimplex ss vol dr d Xmin indices (k + 1) n {}
  return withSamples X y s.minLabel samples

end Verif

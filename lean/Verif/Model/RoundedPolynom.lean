import Verif.Model.Polynom
import Verif.Model.Rounded

/-!
# The topologies `star` and `bus` of polynom_fit_SMOTE with rounding
-/

namespace Verif

/-- `np.mean(X_min, axis=0)`, oversampling/_polynom_fit_smote.py:110: the sum of each column, divided by the number of rows. -/
def flMeanRow (A : MachineArith) (d : Nat) (rows : List Row) : Row :=
  (List.range d).map (fun c => A.fl (A.sum (rows.map (fun r => r.getD c 0)) / (rows.length : ℚ)))

/-- `np.max([1, int(np.rint(n_to_sample / X_min.shape[0]))])`, oversampling/_polynom_fit_smote.py:107 and 117: the quotient is rounded first. -/
def flSamplesPerRow (fl : ℚ → ℚ) (n m : Nat) : Nat := max 1 (npRoundHalfEven (fl ((n : ℚ) / m))).toNat

/-- The points dividing a segment, oversampling/_polynom_fit_smote.py:108-114 and 118-126. -/
def flSplitPoints (fl : ℚ → ℚ) (k : Nat) (p q : Row) : List Row :=
  (List.range k).map (fun (j : Nat) => flMixRow fl p q (fun _ => fl (((j : ℚ) + 1) / ((k : ℚ) + 1))))

/-- Topology `star`, oversampling/_polynom_fit_smote.py:105-114. -/
def flStarSamples (A : MachineArith) (d n : Nat) (Xmin : List Row) : List Row :=
  Xmin.flatMap (fun p => flSplitPoints A.fl (flSamplesPerRow A.fl n Xmin.length) p (flMeanRow A d Xmin))

/-- Topology `bus`, oversampling/_polynom_fit_smote.py:115-126. -/
def flBusSamples (fl : ℚ → ℚ) (n : Nat) (Xmin : List Row) : List Row :=
  (List.zip Xmin Xmin.tail).flatMap (fun pq => flSplitPoints fl (flSamplesPerRow fl n Xmin.length) pq.1 pq.2)

/-- `polynom_fit_SMOTE.sampling_algorithm` for the two topologies, oversampling/_polynom_fit_smote.py:84-126 and 150-153. -/
def flPolynomAlg (A : MachineArith) (proportion : ℚ) (star : Bool) (d : Nat) (s : Stats) (X : List Row) (y : List Int) :
    Res (List Row × List Int) := do
  let n ← flDetN A.fl proportion (s.count s.majLabel) (s.count s.minLabel)
  if n = 0 then return (X, y)
  let Xmin := selectLabel X y s.minLabel
  return withSamples X y s.minLabel (if star then flStarSamples A d n Xmin else flBusSamples A.fl n Xmin)

/-- `polynom_fit_SMOTE_star` and `_bus`, oversampling/_polynom_fit_smote.py:227-238 and 301-312. -/
def flPolynomClass (A : MachineArith) (proportion : ℚ) (star : Bool) (d : Nat) (X : List Row) (y : List Int) : Res (List Row × List Int) :=
  sample defaultChecks d (fun _ => sample defaultChecks d (flPolynomAlg A proportion star d)) X y

end Verif

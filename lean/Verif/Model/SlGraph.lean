import Verif.Model.Interp
import Verif.Model.Borderline

/-!
# SL_graph_SMOTE

Only the sign of the skewness is used: it is that of the third central moment, and a deviation of zero gives a NaN, which is not below
zero, like the moment. So the branch is computed exactly.
-/

namespace Verif

/-- The third central moment (times the number of values), the numerator of `scipy.stats.skew`. Used for oversampling/_sl_graph_smote.py:113-171. -/
def skewSign (vs : List ℚ) : ℚ :=
  let m := vs.sum / (vs.length : ℚ)
  (vs.map (fun v => (v - m) ^ 3)).sum

/-- `np.sum(y[indices], axis=1)`, oversampling/_sl_graph_smote.py:142. -/
def labelSums (y : List Int) (indices : List (List Nat)) : Res (List ℚ) :=
  indices.mapM (fun row => do
    let ls ← row.mapM (getRow y)
    return ((ls.sum : Int) : ℚ))

/-- `SL_graph_SMOTE.sampling_algorithm`, oversampling/_sl_graph_smote.py:113-171. `Borderline_SMOTE1` is constructed without
`k_neighbors`, so with 5, oversampling/_borderline_smote.py:93. -/
def slGraphAlg (proportion : ℚ) (nNeighbors : Nat) (ss : SSParams) (vol : List Row → ℚ) (slDr : SlDraws) (dr : Draws) (d : Nat)
    (knn : Nat → List Row → List Row → List (List Nat)) (s : Stats) (X : List Row) (y : List Int) : Res (List Row × List Int) := do
  let n ← detNToSample (.num proportion) (s.count s.majLabel) (s.count s.minLabel)
  if n = 0 then return (X, y)
  let k := min X.length nNeighbors
  let sums ← labelSums y (knn k X (selectLabel X y s.minLabel))
  if skewSign sums < 0 then
    sample defaultChecks d (safeLevelAlg proportion nNeighbors slDr (fun k X => knn k X X)) X y
  else
    sample defaultChecks d (borderline1Alg { proportion := proportion, nNeighbors := nNeighbors, kNeighbors := 5, ss := ss }
      vol dr d knn) X y

end Verif

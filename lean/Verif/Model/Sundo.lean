import Verif.Model.GSmote
import Verif.Model.Noise
import Verif.Model.Selected
import Mathlib.Data.List.Sort

/-!
# SUNDO

`std` is `np.std(X_min, axis=0)`, `normal t k j` the normal draw for coordinate `j` of trial `k` of row `t`, `toMaj` the distance of a row
from its nearest majority row, `distm` the matrix of the distances of the normalized majority rows.
-/

namespace Verif

/-- One row of `generate_samples`, oversampling/_sundo.py:120-133: the trial farthest from the majority class, the first one in a tie. -/
def sundoRow (d : Nat) (std : Row) (toMaj : Row → ℚ) (bases : Nat → Nat → Nat) (normal : Nat → Nat → Nat → ℚ) (A : List Row) (t : Nat) :
    Res Row := do
  let base ← getRow A (bases t A.length)
  let trials := (List.range 3).map (fun k => Row.add base (List.zipWith (· * ·) ((List.range d).map (normal t k)) std))
  let k ← firstMax (trials.map toMaj)
  getRow trials k

/-- `determine_removal`, oversampling/_sundo.py:150-175. The diagonal is set to infinity before the comparison, so `i ≠ j`.
`sort(axis=1)` sorts each of the two rows of the `2 × p` array of pairs, not the two ends of each pair. -/
def sundoRemoval (D : List (List ℚ)) (N : Nat) : Res (List Nat) := do
  let flat := D.flatten.insertionSort (· ≤ ·)
  let threshold ← getRow flat (min (D.length + 2 * N) (D.length ^ 2 - 1))
  let pairs := (List.range D.length).flatMap (fun i =>
    ((List.range D.length).filter (fun j => decide (i ≠ j ∧ (D.getD i []).getD j 0 < threshold))).map (fun j => (i, j)))
  let firsts := (pairs.map Prod.fst).insertionSort (· ≤ ·)
  return firsts.dedup

/-- `SUNDO.sampling_algorithm`, oversampling/_sundo.py:177-223. `choice` raises for a negative size. -/
def sundoAlg (d : Nat) (std : List Row → Row) (toMaj : List Row → Row → ℚ) (distm : List Row → List (List ℚ)) (bases : Nat → Nat → Nat)
    (normal : Nat → Nat → Nat → ℚ) (s : Stats) (X : List Row) (y : List Int) : Res (List Row × List Int) := do
  let Xmin := selectLabel X y s.minLabel
  let Xmaj := selectLabel X y s.majLabel
  let n1 := Xmin.length
  let n0 := X.length - n1
  let N := rint (1 / 2 * (n0 : ℚ) - 1 / 2 * (n1 : ℚ) + 1 / 2)
  if N = 0 then return (X, y)
  if N < 0 then throw .valueError
  let samples ← (List.range N.toNat).mapM (sundoRow d (std Xmin) (toMaj Xmaj) bases normal Xmin)
  let rem ← sundoRemoval (distm Xmaj) N.toNat
  let cleaned := npDelete Xmaj rem
  let ext := Xmin ++ samples
  return (ext ++ cleaned, List.replicate ext.length s.minLabel ++ List.replicate cleaned.length s.majLabel)

end Verif

import Mathlib.Analysis.Real.Sqrt
import Mathlib.LinearAlgebra.Matrix.Determinant.Basic

/-!
# The volumes of simplices, `smote_variants/base/_simplexsampling.py`

Simplification: real numbers instead of floating point numbers; what needs no root is defined for every ring of numbers.
-/

namespace Verif

open Matrix

/-- `simplex_mod = simplex[:-1] - simplex[-1]`, base/_simplexsampling.py:106. -/
def simplexEdges {K : Type} [CommRing K] {k d : Nat} (vs : Fin (k + 1) → Fin d → K) : Matrix (Fin k) (Fin d) K :=
  of (fun i j => vs i.castSucc j - vs (Fin.last k) j)

/-- `det`, base/_simplexsampling.py:107-108. -/
def gramDet {K : Type} [CommRing K] {k d : Nat} (vs : Fin (k + 1) → Fin d → K) : K :=
  det (simplexEdges vs * (simplexEdges vs).transpose)

/-- `simplex_volume`, base/_simplexsampling.py:96-109. -/
noncomputable def simplexVolume {k d : Nat} (vs : Fin (k + 1) → Fin d → ℝ) : ℝ := Real.sqrt (gramDet vs) / (k.factorial : ℝ)

/-- One entry of `simplex_volumes`, base/_simplexsampling.py:112-126: two vertices are treated apart. -/
noncomputable def simplexVolumeEntry {k d : Nat} (vs : Fin (k + 1) → Fin d → ℝ) : ℝ :=
  if k + 1 = 2 then Real.sqrt (∑ j, (vs 0 j - vs (Fin.last k) j) ^ 2) else simplexVolume vs

end Verif

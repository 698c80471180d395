import Verif.Model.Volume
import Verif.Spec.Sampling

/-!
# Specification: simplices with a volume
-/

namespace Verif

/-- The vertices as points of the `d`-dimensional space. -/
def realPoints (k d : Nat) (vs : List Row) : Fin (k + 1) → Fin d → ℝ := fun i j => (((vs.getD i []).getD j 0 : ℚ) : ℝ)

/-- No combination of the vertices with coefficients of sum zero vanishes, but the one with all coefficients zero: no vertex lies in the
plane through the others. -/
def AffinelyIndependent (d : Nat) (vs : List Row) : Prop :=
  ∀ c : Nat → ℚ, ∑ i ∈ Finset.range vs.length, c i = 0 →
    (∀ j < d, ∑ i ∈ Finset.range vs.length, c i * (vs.getD i []).getD j 0 = 0) → ∀ i < vs.length, c i = 0

/-- Contract of the computed volumes: not negative, and zero exactly if the volume is zero. -/
structure VolumeOK (d : Nat) (vol : List Row → ℚ) : Prop where
  nonneg : ∀ vs, 0 ≤ vol vs
  zero : ∀ (k : Nat) (vs : List Row), vs.length = k + 1 → (∀ r ∈ vs, r.length = d) →
    (vol vs = 0 ↔ simplexVolumeEntry (realPoints k d vs) = 0)

end Verif

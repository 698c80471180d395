import Mathlib.Analysis.SpecialFunctions.Exp
import Mathlib.Analysis.Real.Pi.Bounds
import Mathlib.Analysis.SpecialFunctions.Sqrt

/-!
# The criterion by which PDFOS chooses its bandwidth

Exact real numbers. The matrix of the quadratic forms `(x_i - x_j)ᵀ S⁻¹ (x_i - x_j)` (the `einsum`) is an argument. `(2π) ** (m / 2)` is written as a power
of the root.
-/

namespace Verif

/-- `scipy.special.expit`. Used for oversampling/_pdfos.py:136-149. -/
noncomputable def expit (x : ℝ) : ℝ := 1 / (1 + Real.exp (-x))

/-- One entry of `eq_8_vectorized`, oversampling/_pdfos.py:136-149, for the quadratic form `q` and `m` columns. -/
noncomputable def pdfEq8 (m : Nat) (sigma q : ℝ) : ℝ :=
  ((√2 * sigma) ^ m)⁻¹ * expit (-(1 / (4 * sigma ^ 2)) * q) / √(2 * Real.pi) ^ m -
    2 * ((sigma ^ m)⁻¹ * expit (-(1 / (2 * sigma ^ 2)) * q) / √(2 * Real.pi) ^ m)

/-- `eq_5_0`, oversampling/_pdfos.py:111-122. -/
noncomputable def pdfEq5 (m : Nat) (sigma : ℝ) : ℝ := (sigma ^ m)⁻¹ / √(2 * Real.pi) ^ m

/-- `M`, oversampling/_pdfos.py:151-173; `forms` is the matrix of the quadratic forms, with a row for every row of the data. -/
noncomputable def pdfM (m : Nat) (forms : List (List ℝ)) (sigma : ℝ) : ℝ :=
  (forms.map (fun r => (r.map (pdfEq8 m sigma)).sum)).sum / (forms.length : ℝ) ^ 2 + 2 * pdfEq5 m sigma / forms.length

/-- The loop of `find_best_sigma`, oversampling/_pdfos.py:189-210, on real numbers: the best bandwidth so far and its value, `none` for `np.inf`. -/
noncomputable def pdfBest (err : ℝ → ℝ) : List ℝ → ℝ × Option ℝ → ℝ × Option ℝ
  | [], best => best
  | s :: ss, best => pdfBest err ss (if best.2.all (fun e => decide (err s < e)) then (s, some (err s)) else best)

end Verif

import Mathlib.Analysis.SpecialFunctions.Exp
import Mathlib.Analysis.Real.Pi.Bounds
import Mathlib.Analysis.SpecialFunctions.Sqrt

/-!
# The sensitivity of SSO

The two integrals over the box around a row and the measure made of them. A hidden unit is a weight, a centre and a width `(w, u, v)`; `erf` is a
parameter. Exact real numbers.
-/

namespace Verif

/-- The hidden units. Used for oversampling/_sso.py:255-300. -/
abbrev SsoUnit := ℝ × List ℝ × ℝ

/-- One summand of `eq_6_vectorized`, oversampling/_sso.py:151-155. -/
noncomputable def ssoTerm6 (erf : ℝ → ℝ) (Q : ℝ) (x : List ℝ) (n : SsoUnit) : ℝ :=
  √(Real.pi / 2) * n.2.2 * ((x.zip n.2.1).map (fun p => erf ((p.1 - p.2 + Q) / √(2 * n.2.2)) - erf ((p.1 - p.2 - Q) / √(2 * n.2.2)))).prod * n.1

/-- `eq_6_vectorized` for one row, oversampling/_sso.py:137-156. -/
noncomputable def ssoEq6 (erf : ℝ → ℝ) (Q : ℝ) (ns : List SsoUnit) (x : List ℝ) : ℝ :=
  (ns.map (ssoTerm6 erf Q x)).sum / (2 * Q) ^ x.length

/-- One summand of `eq_8_vectorized` with `eq_8_av_bv`, oversampling/_sso.py:202-215, 231-247; `i` belongs to the first axis, `r` to the second one.
The square of the norm is written as the sum of squares. -/
noncomputable def ssoTerm8 (erf : ℝ → ℝ) (Q : ℝ) (x : List ℝ) (i r : SsoUnit) : ℝ :=
  let vi2 := i.2.2 ^ 2
  let vr2 := r.2.2 ^ 2
  let a1 := √(2 * (vi2 * vr2) * (vi2 + vr2))
  (a1 / (vi2 + vr2)) ^ x.length * Real.exp (-(1 / 2) * ((i.2.1.zip r.2.1).map (fun p => (p.1 - p.2) ^ 2)).sum / (vi2 + vr2)) * (i.1 * r.1) *
    ((x.zip (i.2.1.zip r.2.1)).map (fun p =>
      erf (((vi2 + vr2) * (p.1 + Q) - (p.2.1 * vr2 + p.2.2 * vi2)) / a1) - erf (((vi2 + vr2) * (p.1 - Q) - (p.2.1 * vr2 + p.2.2 * vi2)) / a1))).prod

/-- `eq_8_vectorized` for one row, oversampling/_sso.py:217-253. -/
noncomputable def ssoEq8 (erf : ℝ → ℝ) (Q : ℝ) (ns : List SsoUnit) (x : List ℝ) : ℝ :=
  (√Real.pi / (4 * Q)) ^ x.length * (ns.map (fun i => (ns.map (fun r => ssoTerm8 erf Q x i r)).sum)).sum

/-- The sensitivity of a row with the response `f`, oversampling/_sso.py:379-386. -/
noncomputable def ssoSensitivity (erf : ℝ → ℝ) (Q : ℝ) (ns : List SsoUnit) (f : ℝ) (x : List ℝ) : ℝ :=
  f ^ 2 - 2 * f * ssoEq6 erf Q ns x + ssoEq8 erf Q ns x

/-- The response of a hidden unit, oversampling/_sso.py:286-290, for the Euclidean distance. -/
noncomputable def ssoPhi (n : SsoUnit) (x : List ℝ) : ℝ :=
  Real.exp (-((x.zip n.2.1).map (fun p => (p.1 - p.2) ^ 2)).sum / n.2.2 ^ 2)

end Verif

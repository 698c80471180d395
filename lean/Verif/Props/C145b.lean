import Verif.Model.SsoNet
import Mathlib.MeasureTheory.Integral.IntervalIntegral.FundThmCalculus
import Mathlib.Analysis.Calculus.Deriv.MeanValue
import Mathlib.Tactic.FieldSimp
import Mathlib.Tactic.Ring
import Mathlib.Tactic.Positivity
import Mathlib.Algebra.BigOperators.Ring.List

/-!
# C145, continued: what the second average of SSO is
-/

namespace Verif

/-! ## Specification -/

/-- Contract of the error function: its derivative. -/
def IsErf (erf : ℝ → ℝ) : Prop := ∀ z, HasDerivAt erf (2 / √Real.pi * Real.exp (-z ^ 2)) z

/-- The bell curve with centre `u` and standard deviation `v`, of height one. -/
noncomputable def bell (u v t : ℝ) : ℝ := Real.exp (-(t - u) ^ 2 / (2 * v ^ 2))

/-- The mean over the box of half width `Q` around `x` of the product of two radial bell curves with centres `p` and `r`: the product over the attributes. -/
noncomputable def meanProduct (Q : ℝ) (x p r : List ℝ) (v v' : ℝ) : ℝ :=
  ((x.zip (p.zip r)).map (fun k => (∫ t in (k.1 - Q)..(k.1 + Q), bell k.2.1 v t * bell k.2.2 v' t) / (2 * Q))).prod

/-! ## Helpers -/

theorem bell_mul {v v' : ℝ} (hv : 0 < v) (hv' : 0 < v') (p r t : ℝ) :
    bell p v t * bell r v' t = Real.exp (-(((v ^ 2 + v' ^ 2) * t - (p * v' ^ 2 + r * v ^ 2)) / √(2 * (v ^ 2 * v' ^ 2) * (v ^ 2 + v' ^ 2))) ^ 2) *
      Real.exp (-(1 / 2) * (p - r) ^ 2 / (v ^ 2 + v' ^ 2)) := by
  unfold bell
  rw [← Real.exp_add, ← Real.exp_add, div_pow, Real.sq_sqrt (by positivity)]
  congr 1
  have : v ^ 2 + v' ^ 2 ≠ 0 := by positivity
  field_simp
  ring

theorem bell_integral {erf : ℝ → ℝ} (he : IsErf erf) {v v' Q : ℝ} (hv : 0 < v) (hv' : 0 < v') (hQ : 0 < Q) (x p r : ℝ) :
    (∫ t in (x - Q)..(x + Q), bell p v t * bell r v' t) / (2 * Q) =
      √Real.pi / (4 * Q) * (√(2 * (v ^ 2 * v' ^ 2) * (v ^ 2 + v' ^ 2)) / (v ^ 2 + v' ^ 2)) * Real.exp (-(1 / 2) * (p - r) ^ 2 / (v ^ 2 + v' ^ 2)) *
      (erf (((v ^ 2 + v' ^ 2) * (x + Q) - (p * v' ^ 2 + r * v ^ 2)) / √(2 * (v ^ 2 * v' ^ 2) * (v ^ 2 + v' ^ 2))) -
        erf (((v ^ 2 + v' ^ 2) * (x - Q) - (p * v' ^ 2 + r * v ^ 2)) / √(2 * (v ^ 2 * v' ^ 2) * (v ^ 2 + v' ^ 2)))) := by
  have hf : (fun t => bell p v t * bell r v' t) = fun t => Real.exp (-(((v ^ 2 + v' ^ 2) * t - (p * v' ^ 2 + r * v ^ 2)) /
      √(2 * (v ^ 2 * v' ^ 2) * (v ^ 2 + v' ^ 2))) ^ 2) * Real.exp (-(1 / 2) * (p - r) ^ 2 / (v ^ 2 + v' ^ 2)) := funext (bell_mul hv hv' p r)
  rw [hf]
  have hA : 0 < √(2 * (v ^ 2 * v' ^ 2) * (v ^ 2 + v' ^ 2)) := Real.sqrt_pos.2 (by positivity)
  have hS : 0 < v ^ 2 + v' ^ 2 := by positivity
  have hpi : 0 < √Real.pi := Real.sqrt_pos.2 Real.pi_pos
  generalize √(2 * (v ^ 2 * v' ^ 2) * (v ^ 2 + v' ^ 2)) = A at hA ⊢
  generalize Real.exp (-(1 / 2) * (p - r) ^ 2 / (v ^ 2 + v' ^ 2)) = E
  generalize p * v' ^ 2 + r * v ^ 2 = m
  generalize v ^ 2 + v' ^ 2 = S at hS ⊢
  have hd : ∀ t ∈ Set.uIcc (x - Q) (x + Q), HasDerivAt (fun t => √Real.pi / 2 * (A / S) * E * erf ((S * t - m) / A)) (Real.exp (-((S * t - m) / A) ^ 2) * E) t := by
    intro t _
    have h1 : HasDerivAt (fun t : ℝ => (S * t - m) / A) (S / A) t := by
      have := (((hasDerivAt_id t).const_mul S).sub_const m).div_const A
      simpa using this
    have h2 := ((he ((S * t - m) / A)).comp t h1).const_mul (√Real.pi / 2 * (A / S) * E)
    refine h2.congr_deriv ?_
    field_simp
  rw [intervalIntegral.integral_eq_sub_of_hasDerivAt hd (Continuous.intervalIntegrable (by fun_prop) _ _)]
  field_simp
  ring

/-! ## The property -/

/-- **C145.** The second average is the mean square of the network over the box around the row, for hidden units that are bell curves with the widths as
standard deviations: the weighted sum, over all pairs of units, of the means of their products. -/
theorem C145_mean {erf : ℝ → ℝ} (he : IsErf erf) {Q : ℝ} (hQ : 0 < Q) {ns : List SsoUnit} {x : List ℝ} (hv : ∀ n ∈ ns, 0 < n.2.2 ∧ n.2.1.length = x.length) :
    ssoEq8 erf Q ns x = (ns.map (fun i => (ns.map (fun r => i.1 * r.1 * meanProduct Q x i.2.1 r.2.1 i.2.2 r.2.2)).sum)).sum := by
  unfold ssoEq8
  rw [← List.sum_map_mul_left]
  congr 1
  apply List.map_congr_left
  intro i hi
  rw [← List.sum_map_mul_left]
  congr 1
  apply List.map_congr_left
  intro r hr
  obtain ⟨hi1, hi2⟩ := hv i hi
  obtain ⟨hr1, hr2⟩ := hv r hr
  unfold ssoTerm8 meanProduct
  simp only
  have hl : (i.2.1.zip r.2.1).length = x.length := by rw [List.length_zip]; omega
  have hs : i.2.1.zip r.2.1 = (x.zip (i.2.1.zip r.2.1)).map Prod.snd := (List.map_snd_zip (by omega)).symm
  have hx : x.length = (x.zip (i.2.1.zip r.2.1)).length := by rw [List.length_zip]; omega
  rw [hx]
  have key : ∀ L : List (ℝ × ℝ × ℝ),
      (√Real.pi / (4 * Q)) ^ L.length * ((√(2 * (i.2.2 ^ 2 * r.2.2 ^ 2) * (i.2.2 ^ 2 + r.2.2 ^ 2)) / (i.2.2 ^ 2 + r.2.2 ^ 2)) ^ L.length *
        Real.exp (-(1 / 2) * ((L.map Prod.snd).map (fun p => (p.1 - p.2) ^ 2)).sum / (i.2.2 ^ 2 + r.2.2 ^ 2)) * (i.1 * r.1) *
        (L.map (fun p => erf (((i.2.2 ^ 2 + r.2.2 ^ 2) * (p.1 + Q) - (p.2.1 * r.2.2 ^ 2 + p.2.2 * i.2.2 ^ 2)) / √(2 * (i.2.2 ^ 2 * r.2.2 ^ 2) * (i.2.2 ^ 2 + r.2.2 ^ 2))) -
          erf (((i.2.2 ^ 2 + r.2.2 ^ 2) * (p.1 - Q) - (p.2.1 * r.2.2 ^ 2 + p.2.2 * i.2.2 ^ 2)) / √(2 * (i.2.2 ^ 2 * r.2.2 ^ 2) * (i.2.2 ^ 2 + r.2.2 ^ 2))))).prod) =
      i.1 * r.1 * (L.map (fun k => (∫ t in (k.1 - Q)..(k.1 + Q), bell k.2.1 i.2.2 t * bell k.2.2 r.2.2 t) / (2 * Q))).prod := by
    intro L
    induction L with
    | nil => simp
    | cons k L ih =>
      rw [List.map_cons (f := fun k : ℝ × ℝ × ℝ => (∫ t in (k.1 - Q)..(k.1 + Q), bell k.2.1 i.2.2 t * bell k.2.2 r.2.2 t) / (2 * Q)), List.prod_cons,
        mul_left_comm (i.1 * r.1), ← ih, bell_integral he hi1 hr1 hQ]
      simp only [List.map_cons, List.prod_cons, List.sum_cons, List.length_cons, pow_succ]
      rw [mul_add (-(1 / 2) : ℝ), add_div, Real.exp_add]
      ring
  have hk := key (x.zip (i.2.1.zip r.2.1))
  rw [← hs] at hk
  exact hk

/-- So the error function meets the contract of `C145_units`. -/
theorem erf_strictMono {erf : ℝ → ℝ} (he : IsErf erf) : StrictMono erf := by
  apply strictMono_of_deriv_pos
  intro z
  rw [(he z).deriv]
  have : 0 < √Real.pi := Real.sqrt_pos.2 Real.pi_pos
  have := Real.exp_pos (-z ^ 2)
  positivity

/-! ## The hypotheses are met -/

/-- Non-vacuity: there is an error function, and a network for rows of two attributes. -/
example : (∃ erf, IsErf erf) ∧ ∀ n ∈ [((1 : ℝ), [(0 : ℝ), 1], (2 : ℝ)), (3, [2, 1], 2)], 0 < n.2.2 ∧ n.2.1.length = [(5 : ℝ), 6].length := by
  refine ⟨⟨fun z => ∫ t in (0 : ℝ)..z, 2 / √Real.pi * Real.exp (-t ^ 2), fun z => ?_⟩, by simp⟩
  have hc : Continuous (fun t : ℝ => 2 / √Real.pi * Real.exp (-t ^ 2)) := by fun_prop
  exact intervalIntegral.integral_hasDerivAt_right (hc.intervalIntegrable _ _) (hc.stronglyMeasurableAtFilter _ _) hc.continuousAt

end Verif

import Verif.Model.SsoNet
import Mathlib.Tactic.FieldSimp
import Mathlib.Tactic.Ring
import Mathlib.Tactic.Positivity
import Mathlib.Tactic.Linarith
import Mathlib.Algebra.BigOperators.Ring.List

/-!
# C145: the sensitivity of SSO and the unit of measurement
-/

namespace Verif

/-! ## Specification -/

/-- A row in another unit of measurement. -/
def inUnit (c : ℝ) (x : List ℝ) : List ℝ := x.map (fun t => c * t)

/-- The network in that unit: centres and widths are lengths, weights are not. -/
def netInUnit (c : ℝ) (ns : List SsoUnit) : List SsoUnit := ns.map (fun n => (n.1, inUnit c n.2.1, c * n.2.2))

/-! ## Helpers -/

theorem inUnit_zip (c : ℝ) (x y : List ℝ) : (inUnit c x).zip (inUnit c y) = (x.zip y).map (fun p => (c * p.1, c * p.2)) := by
  unfold inUnit
  rw [List.zip_map]
  rfl

theorem sqdist_inUnit (c : ℝ) (x y : List ℝ) :
    (((inUnit c x).zip (inUnit c y)).map (fun p => (p.1 - p.2) ^ 2)).sum = c ^ 2 * ((x.zip y).map (fun p => (p.1 - p.2) ^ 2)).sum := by
  rw [inUnit_zip, List.map_map, ← List.sum_map_mul_left]
  congr 1
  apply List.map_congr_left
  intro p _
  simp only [Function.comp]
  ring

theorem term8_inUnit {erf : ℝ → ℝ} {c Q : ℝ} (hc : 0 < c) {i r : SsoUnit} (hi : 0 < i.2.2) (hr : 0 < r.2.2) (x : List ℝ) :
    ssoTerm8 erf (c * Q) (inUnit c x) (i.1, inUnit c i.2.1, c * i.2.2) (r.1, inUnit c r.2.1, c * r.2.2) = c ^ x.length * ssoTerm8 erf Q x i r := by
  unfold ssoTerm8
  simp only
  have hS : 0 < i.2.2 ^ 2 + r.2.2 ^ 2 := by positivity
  have hS' : (c * i.2.2) ^ 2 + (c * r.2.2) ^ 2 = c ^ 2 * (i.2.2 ^ 2 + r.2.2 ^ 2) := by ring
  have ha : √(2 * ((c * i.2.2) ^ 2 * (c * r.2.2) ^ 2) * ((c * i.2.2) ^ 2 + (c * r.2.2) ^ 2)) =
      c ^ 3 * √(2 * (i.2.2 ^ 2 * r.2.2 ^ 2) * (i.2.2 ^ 2 + r.2.2 ^ 2)) := by
    rw [show 2 * ((c * i.2.2) ^ 2 * (c * r.2.2) ^ 2) * ((c * i.2.2) ^ 2 + (c * r.2.2) ^ 2) =
      (c ^ 3) ^ 2 * (2 * (i.2.2 ^ 2 * r.2.2 ^ 2) * (i.2.2 ^ 2 + r.2.2 ^ 2)) by ring, Real.sqrt_mul (by positivity), Real.sqrt_sq (by positivity)]
  have hA : 0 < √(2 * (i.2.2 ^ 2 * r.2.2 ^ 2) * (i.2.2 ^ 2 + r.2.2 ^ 2)) := Real.sqrt_pos.2 (by positivity)
  rw [ha, hS', sqdist_inUnit]
  generalize √(2 * (i.2.2 ^ 2 * r.2.2 ^ 2) * (i.2.2 ^ 2 + r.2.2 ^ 2)) = A at hA ⊢
  generalize ((i.2.1.zip r.2.1).map (fun p => (p.1 - p.2) ^ 2)).sum = D
  generalize hSg : i.2.2 ^ 2 + r.2.2 ^ 2 = S at hS ⊢
  have e1 : c ^ 3 * A / (c ^ 2 * S) = c * (A / S) := by field_simp
  have e2 : -(1 / 2) * (c ^ 2 * D) / (c ^ 2 * S) = -(1 / 2) * D / S := by field_simp
  have hl : (inUnit c x).length = x.length := by simp [inUnit]
  rw [e1, e2, hl, mul_pow, inUnit_zip]
  have hz : (inUnit c x).zip ((i.2.1.zip r.2.1).map (fun p => (c * p.1, c * p.2))) =
      (x.zip (i.2.1.zip r.2.1)).map (fun p => (c * p.1, c * p.2.1, c * p.2.2)) := by
    unfold inUnit
    rw [List.zip_map]
    rfl
  rw [hz, List.map_map]
  have hm : (x.zip (i.2.1.zip r.2.1)).map ((fun p : ℝ × ℝ × ℝ =>
      erf ((c ^ 2 * S * (p.1 + c * Q) - (p.2.1 * (c * r.2.2) ^ 2 + p.2.2 * (c * i.2.2) ^ 2)) / (c ^ 3 * A)) -
      erf ((c ^ 2 * S * (p.1 - c * Q) - (p.2.1 * (c * r.2.2) ^ 2 + p.2.2 * (c * i.2.2) ^ 2)) / (c ^ 3 * A))) ∘ (fun p => (c * p.1, c * p.2.1, c * p.2.2))) =
      (x.zip (i.2.1.zip r.2.1)).map (fun p =>
      erf ((S * (p.1 + Q) - (p.2.1 * r.2.2 ^ 2 + p.2.2 * i.2.2 ^ 2)) / A) - erf ((S * (p.1 - Q) - (p.2.1 * r.2.2 ^ 2 + p.2.2 * i.2.2 ^ 2)) / A)) := by
    apply List.map_congr_left
    intro p _
    simp only [Function.comp]
    congr 2 <;> (field_simp)
  rw [hm]
  ring

/-! ## The property -/

/-- **C145.** The response of a hidden unit and the second integral do not depend on the unit of measurement: with rows, centres, widths and the size of the
box in another unit they are the same. -/
theorem C145_free {erf : ℝ → ℝ} {c Q : ℝ} (hc : 0 < c) (hQ : 0 < Q) {ns : List SsoUnit} (hv : ∀ n ∈ ns, 0 < n.2.2) (x : List ℝ) :
    ssoEq8 erf (c * Q) (netInUnit c ns) (inUnit c x) = ssoEq8 erf Q ns x ∧
    (netInUnit c ns).map (fun n => ssoPhi n (inUnit c x)) = ns.map (fun n => ssoPhi n x) := by
  constructor
  · have hs : ((netInUnit c ns).map (fun i => ((netInUnit c ns).map (fun r => ssoTerm8 erf (c * Q) (inUnit c x) i r)).sum)).sum =
        c ^ x.length * (ns.map (fun i => (ns.map (fun r => ssoTerm8 erf Q x i r)).sum)).sum := by
      unfold netInUnit
      rw [List.map_map, ← List.sum_map_mul_left]
      congr 1
      apply List.map_congr_left
      intro i hi
      simp only [Function.comp]
      rw [List.map_map, ← List.sum_map_mul_left]
      congr 1
      apply List.map_congr_left
      intro r hr
      exact term8_inUnit hc (hv i hi) (hv r hr) x
    unfold ssoEq8
    rw [hs, show (inUnit c x).length = x.length by simp [inUnit], ← mul_assoc, ← mul_pow]
    congr 2
    field_simp
  · unfold netInUnit
    rw [List.map_map]
    apply List.map_congr_left
    intro n hn
    have := hv n hn
    simp only [Function.comp, ssoPhi]
    rw [sqdist_inUnit]
    congr 1
    field_simp

/-- **The first integral does.** For one attribute and two units of which the one at the row itself has a weight: in any other unit of measurement the first
integral is another one, and so is the sensitivity, unless the response is zero. -/
theorem C145_units {erf : ℝ → ℝ} (he : StrictMono erf) {c Q w v v' u x f : ℝ} (hc : 0 < c) (hc1 : c ≠ 1) (hQ : 0 < Q) (hw : w ≠ 0) (hv : 0 < v)
    (hv' : 0 < v') (hf : f ≠ 0) :
    ssoEq6 erf (c * Q) (netInUnit c [(w, [x], v), (0, [u], v')]) (inUnit c [x]) ≠ ssoEq6 erf Q [(w, [x], v), (0, [u], v')] [x] ∧
    ssoSensitivity erf (c * Q) (netInUnit c [(w, [x], v), (0, [u], v')]) f (inUnit c [x]) ≠
      ssoSensitivity erf Q [(w, [x], v), (0, [u], v')] f [x] := by
  have h6 : ssoEq6 erf (c * Q) (netInUnit c [(w, [x], v), (0, [u], v')]) (inUnit c [x]) ≠ ssoEq6 erf Q [(w, [x], v), (0, [u], v')] [x] := by
    unfold ssoEq6 ssoTerm6 netInUnit inUnit
    simp only [List.map_cons, List.map_nil, List.zip_cons_cons, List.zip_nil_right, List.prod_cons, List.prod_nil, List.sum_cons, List.sum_nil,
      List.length_cons, List.length_nil, mul_zero, add_zero, mul_one, sub_self, zero_add, zero_sub, pow_one]
    have hp : (0 : ℝ) < √(Real.pi / 2) := Real.sqrt_pos.2 (by have := Real.pi_pos; positivity)
    have hsv : 0 < √(2 * v) := Real.sqrt_pos.2 (by positivity)
    have hsc : √(2 * (c * v)) = √c * √(2 * v) := by
      rw [show 2 * (c * v) = c * (2 * v) by ring, Real.sqrt_mul hc.le]
    have hsp : 0 < √c := Real.sqrt_pos.2 hc
    have hcc : √c * √c = c := Real.mul_self_sqrt hc.le
    have e1 : c * Q / √(2 * (c * v)) = √c * (Q / √(2 * v)) := by
      rw [hsc]
      nth_rewrite 1 [← hcc]
      field_simp
    have e2 : -(c * Q) / √(2 * (c * v)) = -(√c * (Q / √(2 * v))) := by rw [neg_div, e1]
    have e3 : -Q / √(2 * v) = -(Q / √(2 * v)) := neg_div _ _
    rw [e1, e2, e3]
    have ht : 0 < Q / √(2 * v) := by positivity
    generalize Q / √(2 * v) = t at ht ⊢
    intro h
    have h' : erf (√c * t) - erf (-(√c * t)) = erf t - erf (-t) := by
      field_simp at h
      linarith
    rcases lt_or_gt_of_ne hc1 with hlt | hgt
    · have hs1 : √c < 1 := by rw [Real.sqrt_lt' one_pos]; simpa using hlt
      have h1 : √c * t < t := by nlinarith
      have := he h1
      have := he (neg_lt_neg h1)
      linarith
    · have hs1 : 1 < √c := by rw [Real.lt_sqrt zero_le_one]; simpa using hgt
      have h1 : t < √c * t := by nlinarith
      have := he h1
      have := he (neg_lt_neg h1)
      linarith
  refine ⟨h6, fun h => h6 ?_⟩
  unfold ssoSensitivity at h
  rw [(C145_free hc hQ (ns := [(w, [x], v), (0, [u], v')]) (by simp [hv, hv']) [x]).1] at h
  have h2 : 2 * f * ssoEq6 erf (c * Q) (netInUnit c [(w, [x], v), (0, [u], v')]) (inUnit c [x]) = 2 * f * ssoEq6 erf Q [(w, [x], v), (0, [u], v')] [x] := by
    linarith
  exact mul_left_cancel₀ (mul_ne_zero two_ne_zero hf) h2

/-! ## The hypotheses are met -/

/-- Non-vacuity: metres and centimetres, two centres at distance two. -/
example : StrictMono (fun t : ℝ => t) ∧ (0 : ℝ) < 100 ∧ (100 : ℝ) ≠ 1 ∧ (∀ n ∈ [((1 : ℝ), [(0 : ℝ)], (2 : ℝ)), (0, [2], 2)], 0 < n.2.2) ∧
    netInUnit 100 [(1, [0], 2), (0, [2], 2)] = [(1, [0], 200), (0, [200], 200)] := by
  refine ⟨strictMono_id, by norm_num, by norm_num, by simp, ?_⟩
  unfold netInUnit inUnit
  norm_num

end Verif

import Verif.Model.Base
import Verif.Lemmas.SamplerTotal

/-!
# C09 Density repair always yields a probability distribution
-/

namespace Verif

/-- An entry without a usable number. -/
def XF.Broken (x : XF) : Prop := ∀ q, x ≠ .fin q

/-- For every non-empty vector whose finite entries are non-negative the result has the same length,
is non-negative and sums to one. -/
theorem C09_distribution {l : List XF} (hne : l ≠ []) (h0 : ∀ q, XF.fin q ∈ l → 0 ≤ q) :
    (fixDensity l).length = l.length ∧ (∀ x ∈ fixDensity l, 0 ≤ x) ∧ (fixDensity l).sum = 1 := by
  have hnn : ∀ x ∈ l.map XF.toNum, 0 ≤ x := by
    intro x hx
    rw [List.mem_map] at hx
    obtain ⟨a, ha, rfl⟩ := hx
    cases a with
    | fin q => exact h0 q ha
    | posInf => exact le_refl _
    | negInf => exact le_refl _
    | nan => exact le_refl _
  unfold fixDensity
  simp only
  have hlen : 0 < l.length := List.length_pos_iff.2 hne
  split
  · have hs : (List.replicate l.length (1:ℚ)).sum = l.length := by simp
    have hpos : (0:ℚ) < l.length := by exact_mod_cast hlen
    refine ⟨by simp, ?_, ?_⟩
    · intro x hx
      rw [hs, List.mem_map] at hx
      obtain ⟨y, hy, rfl⟩ := hx
      rw [List.eq_of_mem_replicate hy]
      positivity
    · rw [sum_map_div, div_self]; rw [hs]; exact hpos.ne'
  · rename_i hs
    refine ⟨by simp, ?_, ?_⟩
    · intro x hx
      rw [List.mem_map] at hx
      obtain ⟨y, hy, rfl⟩ := hx
      exact div_nonneg (hnn y hy) (List.sum_nonneg hnn)
    · rw [sum_map_div, div_self hs]

/-- If some finite entry is positive: broken entries get zero, and the others keep their ratios. -/
theorem C09_ratios {l : List XF} (h0 : ∀ q, XF.fin q ∈ l → 0 ≤ q) {q : ℚ} (hq : XF.fin q ∈ l)
    (hpos : 0 < q) :
    (∀ (i : Nat) (x : XF), l[i]? = some x → x.Broken → (fixDensity l)[i]? = some 0) ∧
    (∃ s : ℚ, 0 < s ∧ ∀ (i : Nat) (r : ℚ), l[i]? = some (.fin r) → (fixDensity l)[i]? = some (r / s)) := by
  have hnn : ∀ x ∈ l.map XF.toNum, 0 ≤ x := by
    intro x hx
    rw [List.mem_map] at hx
    obtain ⟨a, ha, rfl⟩ := hx
    cases a with
    | fin q => exact h0 q ha
    | posInf => exact le_refl _
    | negInf => exact le_refl _
    | nan => exact le_refl _
  have hs : 0 < (l.map XF.toNum).sum := by
    have hge := List.single_le_sum hnn q (List.mem_map.2 ⟨_, hq, rfl⟩)
    linarith
  have hfix : fixDensity l = (l.map XF.toNum).map (· / (l.map XF.toNum).sum) := by
    unfold fixDensity
    simp only [if_neg hs.ne']
  rw [hfix]
  refine ⟨?_, _, hs, ?_⟩
  · intro i x hx hb
    rw [List.getElem?_map, List.getElem?_map, hx]
    have : x.toNum = 0 := by
      cases x with
      | fin q => exact absurd rfl (hb q)
      | posInf => rfl
      | negInf => rfl
      | nan => rfl
    simp [this]
  · intro i r hr
    rw [List.getElem?_map, List.getElem?_map, hr]
    rfl

/-- If everything vanishes the result is uniform. -/
theorem C09_uniform {l : List XF} (h : ∀ x ∈ l, x = .fin 0 ∨ x.Broken) :
    fixDensity l = List.replicate l.length (1 / (l.length : ℚ)) := by
  have hz : (l.map XF.toNum).sum = 0 := by
    apply List.sum_eq_zero
    intro x hx
    rw [List.mem_map] at hx
    obtain ⟨a, ha, rfl⟩ := hx
    rcases h a ha with rfl | hb
    · rfl
    · cases a with
      | fin q => exact absurd rfl (hb q)
      | posInf => rfl
      | negInf => rfl
      | nan => rfl
  unfold fixDensity
  simp only [hz, if_true]
  simp

/-- Non-vacuity. -/
example : fixDensity [.fin 1, .posInf, .fin 3, .nan] = [1/4, 0, 3/4, 0] ∧
    fixDensity [.nan, .fin 0] = [1/2, 1/2] := by decide +kernel
example : (∀ x ∈ [XF.nan, .fin 0], x = .fin 0 ∨ x.Broken) := by
  intro x hx
  simp at hx
  rcases hx with rfl | rfl
  · right; intro q h; cases h
  · left; rfl

end Verif

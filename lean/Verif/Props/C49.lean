import Verif.Model.Metrics
import Verif.Lemmas.Basic
import Mathlib.Algebra.Order.Field.Rat
import Mathlib.Algebra.BigOperators.Group.List.Lemmas
import Mathlib.Algebra.Order.BigOperators.Group.List
import Mathlib.Tactic.Linarith
import Mathlib.Tactic.NormNum
import Mathlib.Tactic.FieldSimp

/-!
# C49: the scores computed from probabilities
-/

namespace Verif

theorem sq_sum_facts (items : List (ℚ × Int)) (h : ∀ p ∈ items, (0 ≤ p.1 ∧ p.1 ≤ 1) ∧ (p.2 = 0 ∨ p.2 = 1)) :
    0 ≤ (items.map (fun p => (p.1 - (p.2 : ℚ)) ^ 2)).sum ∧
    (items.map (fun p => (p.1 - (p.2 : ℚ)) ^ 2)).sum ≤ (items.length : ℚ) ∧
    ((items.map (fun p => (p.1 - (p.2 : ℚ)) ^ 2)).sum = 0 ↔ ∀ p ∈ items, p.1 = p.2) := by
  induction items with
  | nil => simp
  | cons p items ih =>
    obtain ⟨i1, i2, i3⟩ := ih (fun p hp => h p (by simp [hp]))
    obtain ⟨⟨h0, h1⟩, hl⟩ := h p (by simp)
    have hsq : 0 ≤ (p.1 - (p.2 : ℚ)) ^ 2 ∧ (p.1 - (p.2 : ℚ)) ^ 2 ≤ 1 := by
      refine ⟨sq_nonneg _, ?_⟩
      rcases hl with hl | hl <;> rw [hl] <;> push_cast <;> nlinarith
    refine ⟨?_, ?_, ?_⟩
    · rw [List.map_cons, List.sum_cons]; linarith [hsq.1]
    · rw [List.map_cons, List.sum_cons, List.length_cons]; push_cast; linarith [hsq.2]
    · rw [List.map_cons, List.sum_cons]
      constructor
      · intro hz
        have e1 : (p.1 - (p.2 : ℚ)) ^ 2 = 0 := by linarith [hsq.1]
        have e2 := i3.1 (by linarith [hsq.1])
        intro q hq
        rcases List.mem_cons.1 hq with rfl | hq
        · have := pow_eq_zero_iff (two_ne_zero) |>.1 e1
          linarith
        · exact e2 q hq
      · intro hall
        rw [i3.2 (fun q hq => hall q (by simp [hq])), hall p (by simp)]
        simp

theorem brier_eq (items : List (ℚ × Int)) :
    brier (items.map Prod.snd) (items.map Prod.fst)
      = (items.map (fun p => (p.1 - (p.2 : ℚ)) ^ 2)).sum / (items.length : ℚ) := by
  unfold brier
  rw [List.length_map]
  congr 2
  induction items with
  | nil => rfl
  | cons p items ih => simp [ih]

/-- The Brier score of labels 0/1 and probabilities is the mean squared difference: it lies in `[0, 1]`, is zero exactly for
a perfect prediction, and does not depend on the order of the items. -/
theorem C49_brier (items : List (ℚ × Int)) (hne : items ≠ [])
    (h : ∀ p ∈ items, (0 ≤ p.1 ∧ p.1 ≤ 1) ∧ (p.2 = 0 ∨ p.2 = 1)) :
    brier (items.map Prod.snd) (items.map Prod.fst) * (items.length : ℚ)
      = (items.map (fun p => (p.1 - (p.2 : ℚ)) * (p.1 - (p.2 : ℚ)))).sum ∧
    0 ≤ brier (items.map Prod.snd) (items.map Prod.fst) ∧ brier (items.map Prod.snd) (items.map Prod.fst) ≤ 1 ∧
    (brier (items.map Prod.snd) (items.map Prod.fst) = 0 ↔ ∀ p ∈ items, p.1 = p.2) ∧
    ∀ items' : List (ℚ × Int), items'.Perm items →
      brier (items'.map Prod.snd) (items'.map Prod.fst) = brier (items.map Prod.snd) (items.map Prod.fst) := by
  have hl : (0:ℚ) < items.length := by exact_mod_cast List.length_pos_iff.2 hne
  obtain ⟨h1, h2, h3⟩ := sq_sum_facts items h
  simp only [brier_eq]
  refine ⟨?_, div_nonneg h1 hl.le, (div_le_one hl).2 h2, ?_, ?_⟩
  · rw [div_mul_cancel₀ _ hl.ne']
    simp only [sq]
  · rw [div_eq_zero_iff, h3]
    constructor
    · rintro (h | h)
      · exact h
      · exact absurd h hl.ne'
    · exact Or.inl
  · intro items' hp
    rw [hp.length_eq, (hp.map _).sum_eq]

/-- The score `p_top20` is the share of minority items among the first fifth of the test set (at least one item): `k` is the
largest number with `5 k` at most the number of items, or one. -/
theorem C49_top20 (test : List Int) (l : Int) (hne : test ≠ []) :
    ∃ k, 1 ≤ k ∧ k ≤ test.length ∧ (k = 1 ∨ 5 * k ≤ test.length) ∧ (test.length < 5 * (k + 1)) ∧
      pTop20 test l * k = ((List.range k).countP (fun i => decide (test[i]? = some l)) : ℕ) ∧
      0 ≤ pTop20 test l ∧ pTop20 test l ≤ 1 := by
  have hpos : 0 < test.length := List.length_pos_iff.2 hne
  refine ⟨max (test.length / 5) 1, by omega, by omega, by omega, by omega, ?_⟩
  set k := max (test.length / 5) 1 with hk
  have hkp : (0:ℚ) < k := by exact_mod_cast (by omega : 0 < k)
  have hcnt : ∀ (test : List Int) (k : Nat), k ≤ test.length →
      (test.take k).countP (fun t => decide (t = l)) = (List.range k).countP (fun i => decide (test[i]? = some l)) := by
    intro test k hk
    have : test.take k = (List.range k).map (fun i => test.getD i 0) := by
      apply List.ext_getElem
      · simp; omega
      · intro i h1 h2
        simp at h1
        simp [List.getD_eq_getElem?_getD, List.getElem?_eq_getElem (show i < test.length by omega)]
    rw [this, List.countP_map]
    apply List.countP_congr
    intro i hi
    have := List.mem_range.1 hi
    simp [List.getD_eq_getElem?_getD, List.getElem?_eq_getElem (show i < test.length by omega)]
  have hle : (test.take k).countP (fun t => decide (t = l)) ≤ k := by
    refine le_trans List.countP_le_length ?_
    rw [List.length_take]; omega
  have hpt : pTop20 test l = (((test.take k).countP (fun t => decide (t = l)) : ℕ) : ℚ) / (k : ℚ) := rfl
  rw [hpt, hcnt test k (by omega)] at *
  refine ⟨div_mul_cancel₀ _ hkp.ne', by positivity, (div_le_one hkp).2 ?_⟩
  exact_mod_cast hle

/-- `p_top20` looks at the order of the test set, not at the probabilities: the same items in another order give another score,
and the items with the highest probabilities play no role. -/
theorem C49_top20_unsorted :
    ∃ (items items' : List (ℚ × Int)), items'.Perm items ∧
      -- the most probable item of both lists is a minority item
      (∀ p ∈ items, p.1 ≤ 9/10) ∧ ((9/10 : ℚ), (1 : Int)) ∈ items ∧
      pTop20 (items.map Prod.snd) 1 = 0 ∧ pTop20 (items'.map Prod.snd) 1 = 1 ∧
      brier (items.map Prod.snd) (items.map Prod.fst) = brier (items'.map Prod.snd) (items'.map Prod.fst) :=
  ⟨[(1/10, 0), (2/10, 0), (9/10, 1)], [(9/10, 1), (2/10, 0), (1/10, 0)], by decide +kernel, by decide +kernel, by decide +kernel,
    by decide +kernel, by decide +kernel, by decide +kernel⟩

example : ([(1/10, 0), (1/5, 1), (9/10, 1)] : List (ℚ × Int)) ≠ [] ∧
    (∀ p ∈ ([(1/10, 0), (1/5, 1), (9/10, 1)] : List (ℚ × Int)), (0 ≤ p.1 ∧ p.1 ≤ 1) ∧ (p.2 = 0 ∨ p.2 = 1)) ∧
    brier [0, 1, 1] [1/10, 1/5, 9/10] = 11/50 ∧ pTop20 [0, 0, 1, 1, 1, 0, 1, 1, 0, 1, 1] 1 = 0 := by decide +kernel

end Verif

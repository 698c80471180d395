import Verif.Lemmas.SamplerTotal

/-!
# C08 Weighted choice never selects an entry of zero weight
-/

namespace Verif

/-- `RandomState.choice` as inverse transform: for weights summing to one and a draw in `[0,1)` the
index is in range, its weight is positive, and the draw lies in the interval `[c_{i-1}, c_i)` of the
cumulated weights. -/
theorem C08_choice {p : List ℚ} {u : ℚ} (h1 : p.sum = 1) (hu0 : 0 ≤ u) (hu1 : u < 1) :
    ∃ w, p[choiceIdx p u]? = some w ∧ 0 < w ∧
      (p.take (choiceIdx p u)).sum ≤ u ∧ u < (p.take (choiceIdx p u + 1)).sum :=
  choiceIdx_spec h1 hu0 hu1

/-- The interval determines the index: for non-negative weights, `i` is selected exactly when the draw
falls into its interval. -/
theorem C08_choice_iff {p : List ℚ} {u : ℚ} (h0 : ∀ x ∈ p, 0 ≤ x) (h1 : p.sum = 1) (hu0 : 0 ≤ u)
    (hu1 : u < 1) (i : Nat) :
    choiceIdx p u = i ↔ (p.take i).sum ≤ u ∧ u < (p.take (i + 1)).sum := by
  have mono : ∀ a b : Nat, a ≤ b → (p.take a).sum ≤ (p.take b).sum := by
    intro a b hab
    have : p.take b = p.take a ++ (p.drop a).take (b - a) := by
      have := List.take_add (l := p) (i := a) (j := b - a)
      rwa [show a + (b - a) = b by omega] at this
    rw [this, List.sum_append]
    have : 0 ≤ ((p.drop a).take (b - a)).sum := List.sum_nonneg (fun x hx =>
      h0 x (List.mem_of_mem_drop (List.mem_of_mem_take hx)))
    linarith
  obtain ⟨w, _, _, h2, h3⟩ := choiceIdx_spec h1 hu0 hu1
  constructor
  · rintro rfl; exact ⟨h2, h3⟩
  · rintro ⟨h4, h5⟩
    rcases lt_trichotomy (choiceIdx p u) i with h | h | h
    · have := mono _ _ (show choiceIdx p u + 1 ≤ i by omega); linarith
    · exact h
    · have := mono _ _ (show i + 1 ≤ choiceIdx p u by omega); linarith

/-- The vectorised choice agrees with the interval rule for weights summing to one. -/
theorem C08_vector_choice {p : List ℚ} {u : ℚ} (h1 : p.sum = 1) (hu0 : 0 ≤ u) (hu1 : u < 1) :
    ∃ w, p[vectorChoiceRow p u]? = some w ∧ 0 < w ∧
      (p.take (vectorChoiceRow p u)).sum ≤ u ∧ u < (p.take (vectorChoiceRow p u + 1)).sum := by
  obtain ⟨i, w, h2, h3, h4, h5, h6⟩ := cumsum_go_findIdx 0 u p hu0 (by rw [h1]; linarith)
  have hi : vectorChoiceRow p u = i := by
    unfold vectorChoiceRow
    have hlt := (List.getElem?_eq_some_iff.1 h3).1
    have h2' : (cumsum p).findIdx (fun x => decide (u < x)) = i := h2
    simp only [h2', hlt, if_true]
  rw [hi]
  exact ⟨w, h3, h4, by simpa using h5, by simpa using h6⟩

/-- If the weights do not reach the draw, the vectorised choice silently returns position 0, whatever
its weight. -/
theorem C08_vector_choice_fallback {p : List ℚ} {u : ℚ} (h0 : ∀ x ∈ p, 0 ≤ x) (hs : p.sum ≤ u) :
    vectorChoiceRow p u = 0 := by
  have := cumsum_go_findIdx_none 0 u p h0 (by simpa using hs)
  unfold vectorChoiceRow
  have h2 : (cumsum p).findIdx (fun x => decide (u < x)) = p.length := this
  simp [h2]

/-- The selection of simplices in the sampler only picks simplices of positive weight (both the random
and the deterministic mode). -/
theorem C08_selection_positive {m n : Nat} {p : List ℚ} {u : Nat → ℚ} (hl : p.length = m)
    (h0 : ∀ x ∈ p, 0 ≤ x) (h1 : p.sum = 1) (hu : ∀ i, 0 ≤ u i ∧ u i < 1) :
    (∃ sel, npChoice m n p u = .ok sel ∧ sel.length = n ∧ ∀ i ∈ sel, ∃ x, p[i]? = some x ∧ 0 < x) ∧
    (∃ sel, deterministicSample n p = .ok sel ∧ sel.length = n ∧
      ∀ i ∈ sel, ∃ x, p[i]? = some x ∧ 0 < x) :=
  ⟨npChoice_ok hl h0 h1 hu, deterministicSample_ok h0 h1⟩

/-- Non-vacuity: leading zero weights with the smallest draw, and the fallback. -/
example : [(0:ℚ), 0, 1/2, 1/2].sum = 1 ∧ choiceIdx [0, 0, 1/2, 1/2] 0 = 2 ∧
    vectorChoiceRow [0, 0, 1/2, 1/2] (1/2) = 3 ∧ vectorChoiceRow [0, 1/4] (1/2) = 0 := by decide +kernel

end Verif

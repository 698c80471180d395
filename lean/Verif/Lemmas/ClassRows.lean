import Verif.Lemmas.Basic
import Verif.Spec.Sampling

/-! # `X[y == label]` is the list of rows of the class -/

namespace Verif

theorem selectLabel_eq_classRows {α : Type} (X : List α) (y : List Int) (l : Int) :
    selectLabel X y l = classRows X y l := by
  unfold selectLabel maskRows classRows
  induction X generalizing y with
  | nil => simp
  | cons a X ih =>
    cases y with
    | nil => simp
    | cons b y =>
      simp only [List.map_cons, List.zip_cons_cons, List.filterMap_cons, List.filter_cons]
      by_cases h : b = l
      · simp [h, ih]
      · simp [h, ih]

theorem mem_classRows {α : Type} {X : List α} {y : List Int} {l : Int} {a : α} :
    a ∈ classRows X y l ↔ (a, l) ∈ X.zip y := by
  unfold classRows
  simp only [List.mem_map, List.mem_filter, decide_eq_true_eq]
  constructor
  · rintro ⟨⟨x, c⟩, ⟨h, h1⟩, rfl⟩
    simp only at h1
    subst h1; exact h
  · intro h; exact ⟨(a, l), ⟨h, rfl⟩, rfl⟩

theorem classRows_ne_nil {α : Type} {X : List α} {y : List Int} {l : Int} (h : X.length = y.length)
    (hl : l ∈ y) : classRows X y l ≠ [] := by
  induction X generalizing y with
  | nil => cases y with
    | nil => simp at hl
    | cons b y => simp at h
  | cons a X ih => cases y with
    | nil => simp at h
    | cons b y =>
      unfold classRows
      rw [List.zip_cons_cons, List.filter_cons]
      by_cases hb : b = l
      · simp [hb]
      · have : l ∈ y := by
          rcases List.mem_cons.1 hl with rfl | hl
          · exact absurd rfl hb
          · exact hl
        have := ih (by simpa using h) this
        unfold classRows at this
        simpa [hb] using this

end Verif

import Verif.Model.Under
import Verif.Lemmas.ClassRows
import Mathlib.Algebra.Order.BigOperators.Group.List

/-! # Lemmas on undersampling -/

namespace Verif

theorem foldl_max_le (y : List Int) (m : Nat) :
    m ≤ y.foldl (fun m l => max m (l.toNat + 1)) m ∧
    ∀ l ∈ y, l.toNat + 1 ≤ y.foldl (fun m l => max m (l.toNat + 1)) m := by
  induction y generalizing m with
  | nil => simp
  | cons a y ih =>
    obtain ⟨h1, h2⟩ := ih (max m (a.toNat + 1))
    rw [List.foldl_cons]
    refine ⟨le_trans (le_max_left _ _) h1, fun l hl => ?_⟩
    rcases List.mem_cons.1 hl with rfl | hl
    · exact le_trans (le_max_right _ _) h1
    · exact h2 l hl

theorem foldl_max_le_of {y : List Int} {m b : Nat} (hm : m ≤ b) (h : ∀ l ∈ y, l.toNat + 1 ≤ b) :
    y.foldl (fun m l => max m (l.toNat + 1)) m ≤ b := by
  induction y generalizing m with
  | nil => simpa
  | cons a y ih =>
    rw [List.foldl_cons]
    exact ih (max_le hm (h a (by simp))) (fun l hl => h l (by simp [hl]))

/-- Unpacking the class counts works exactly on 0/1 labels with at least one 1. -/
theorem binCounts2_ok {y : List Int} {a b : Nat} :
    binCounts2 y = .ok (a, b) ↔
      (∀ l ∈ y, l = 0 ∨ l = 1) ∧ (1 : Int) ∈ y ∧ a = y.count 0 ∧ b = y.count 1 := by
  unfold binCounts2 bincount
  by_cases hneg : (y.any (fun l => decide (l < 0))) = true
  · rw [if_pos hneg]
    simp only [error_bind, reduceCtorEq, false_iff]
    rintro ⟨h, _⟩
    rw [List.any_eq_true] at hneg
    obtain ⟨l, hl, hl'⟩ := hneg
    rcases h l hl with rfl | rfl <;> simp at hl'
  · rw [if_neg hneg, ok_bind]
    have hnn : ∀ l ∈ y, 0 ≤ l := by
      intro l hl
      by_contra h
      exact hneg (List.any_eq_true.2 ⟨l, hl, by simpa using h⟩)
    obtain ⟨_, hge⟩ := foldl_max_le y 0
    by_cases hk : y.foldl (fun m l => max m (l.toNat + 1)) 0 = 2
    · rw [hk]
      have : (List.range 2).map (fun (v : Nat) => y.count (v : Int)) = [y.count 0, y.count 1] := by
        simp [List.range_succ]
      rw [this]
      have h1 : (1 : Int) ∈ y := by
        by_contra hno
        have : y.foldl (fun m l => max m (l.toNat + 1)) 0 ≤ 1 := by
          refine foldl_max_le_of (by omega) (fun l hl => ?_)
          have := hge l hl
          have h0 := hnn l hl
          have : l ≠ 1 := fun e => hno (e ▸ hl)
          omega
        omega
      have h01 : ∀ l ∈ y, l = 0 ∨ l = 1 := by
        intro l hl
        have := hge l hl
        have := hnn l hl
        omega
      simp only [pure, Except.pure]
      constructor
      · intro h
        injection h with h
        injection h with h2 h3
        exact ⟨h01, h1, h2.symm, h3.symm⟩
      · rintro ⟨_, _, rfl, rfl⟩; rfl
    · constructor
      · intro h
        exfalso
        set L := (List.range (y.foldl (fun m l => max m (l.toNat + 1)) 0)).map
          (fun (v : Nat) => y.count (v : Int)) with hL
        have hlen : L.length ≠ 2 := by rw [hL]; simpa using hk
        match L, hlen, h with
        | [], _, h => simp [throw, throwThe, MonadExceptOf.throw] at h
        | [_], _, h => simp [throw, throwThe, MonadExceptOf.throw] at h
        | [_, _], hlen, _ => exact hlen rfl
        | _ :: _ :: _ :: _, _, h => simp [throw, throwThe, MonadExceptOf.throw] at h
      · rintro ⟨h01, h1, _⟩
        exfalso
        apply hk
        apply le_antisymm
        · refine foldl_max_le_of (by omega) (fun l hl => ?_)
          rcases h01 l hl with rfl | rfl <;> simp
        · have := hge 1 h1
          simpa using this

theorem classRows_length {α : Type} {X : List α} {y : List Int} (h : X.length = y.length) (l : Int) :
    (classRows X y l).length = y.count l := by
  rw [← selectLabel_eq_classRows, selectLabel_length h]

theorem npMin_spec {l : List ℚ} {m : ℚ} (h : npMin l = .ok m) : m ∈ l ∧ ∀ x ∈ l, m ≤ x := by
  cases l with
  | nil => simp [npMin] at h
  | cons a l =>
    unfold npMin at h
    injection h with h
    subst h
    have : ∀ (l : List ℚ) (a : ℚ), l.foldl min a ∈ a :: l ∧ ∀ x ∈ a :: l, l.foldl min a ≤ x := by
      intro l
      induction l with
      | nil => intro a; simp
      | cons b l ih =>
        intro a
        rw [List.foldl_cons]
        obtain ⟨h1, h2⟩ := ih (min a b)
        constructor
        · rcases List.mem_cons.1 h1 with h1 | h1
          · rw [h1]
            rcases le_total a b with hab | hab
            · rw [min_eq_left hab]; simp
            · rw [min_eq_right hab]; simp
          · simp [h1]
        · intro x hx
          have hm := h2 (min a b) (by simp)
          rcases List.mem_cons.1 hx with rfl | hx
          · exact le_trans hm (min_le_left _ _)
          · rcases List.mem_cons.1 hx with rfl | hx
            · exact le_trans hm (min_le_right _ _)
            · exact h2 x (by simp [hx])
    exact this l a

theorem npMax_spec {l : List ℚ} {m : ℚ} (h : npMax l = .ok m) : m ∈ l ∧ ∀ x ∈ l, x ≤ m := by
  cases l with
  | nil => simp [npMax] at h
  | cons a l =>
    unfold npMax at h
    injection h with h
    subst h
    have : ∀ (l : List ℚ) (a : ℚ), l.foldl max a ∈ a :: l ∧ ∀ x ∈ a :: l, x ≤ l.foldl max a := by
      intro l
      induction l with
      | nil => intro a; simp
      | cons b l ih =>
        intro a
        rw [List.foldl_cons]
        obtain ⟨h1, h2⟩ := ih (max a b)
        constructor
        · rcases List.mem_cons.1 h1 with h1 | h1
          · rw [h1]
            rcases le_total a b with hab | hab
            · rw [max_eq_right hab]; simp
            · rw [max_eq_left hab]; simp
          · simp [h1]
        · intro x hx
          have hm := h2 (max a b) (by simp)
          rcases List.mem_cons.1 hx with rfl | hx
          · exact le_trans (le_max_left _ _) hm
          · rcases List.mem_cons.1 hx with rfl | hx
            · exact le_trans (le_max_right _ _) hm
            · exact h2 x (by simp [hx])
    exact this l a

theorem npMin_exists {l : List ℚ} (h : l ≠ []) : ∃ m, npMin l = .ok m := by
  cases l with
  | nil => exact absurd rfl h
  | cons a l => exact ⟨_, rfl⟩

theorem npMax_exists {l : List ℚ} (h : l ≠ []) : ∃ m, npMax l = .ok m := by
  cases l with
  | nil => exact absurd rfl h
  | cons a l => exact ⟨_, rfl⟩

end Verif

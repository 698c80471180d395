import Verif.Model.Base
import Verif.Lemmas.Basic
import Verif.Lemmas.Unique
import Verif.Spec.Sampling
import Mathlib.Tactic.Linarith

/-! # Lemmas on class statistics -/

namespace Verif

theorem lookup_counts {y u : List Int} {l : Int} (h : l ∈ u) :
    ((u.map (fun v => (v, y.count v))).lookup l) = some (y.count l) := by
  induction u with
  | nil => simp at h
  | cons a u ih =>
    simp only [List.map_cons, List.lookup_cons]
    by_cases hla : l = a
    · subst hla; simp
    · have : (l == a) = false := by simpa using hla
      rw [this]
      simp only []
      exact ih (by simpa [hla] using h)

theorem stats_shape {y : List Int} {s : Stats} (h : classLabelStatistics y = .ok s) :
    ∃ u0 u1 rest, npUnique y = u0 :: u1 :: rest ∧ s.classStats = npUniqueCounts y ∧
      s.minLabel = (if y.count u0 < y.count u1 then u0 else u1) ∧
      s.majLabel = (if y.count u0 < y.count u1 then u1 else u0) := by
  unfold classLabelStatistics at h
  split at h
  · rename_i u0 c0 u1 c1 rest heq
    have h' := heq
    unfold npUniqueCounts at h'
    match hu : npUnique y with
    | [] => rw [hu] at h'; simp at h'
    | [a] => rw [hu] at h'; simp at h'
    | a :: b :: r =>
      rw [hu] at h'
      simp only [List.map_cons, List.cons.injEq, Prod.mk.injEq] at h'
      obtain ⟨⟨e1, e2⟩, ⟨e3, e4⟩, e5⟩ := h'
      simp at h
      subst h
      refine ⟨a, b, r, rfl, heq.symm, ?_, ?_⟩ <;> simp only [← e1, ← e2, ← e3, ← e4]
  · simp at h

theorem stats_min_mem {y : List Int} {s : Stats} (h : classLabelStatistics y = .ok s) :
    s.minLabel ∈ y ∧ s.majLabel ∈ y ∧ s.minLabel ≠ s.majLabel := by
  obtain ⟨u0, u1, r, hu, _, h1, h2⟩ := stats_shape h
  have m0 : u0 ∈ y := mem_npUnique.1 (by rw [hu]; simp)
  have m1 : u1 ∈ y := mem_npUnique.1 (by rw [hu]; simp)
  have hlt : u0 < u1 := by
    have := npUnique_sorted y
    rw [hu] at this
    exact (List.pairwise_cons.1 this).1 u1 (by simp)
  rw [h1, h2]
  split <;> exact ⟨by assumption, by assumption, by omega⟩

theorem stats_count {y : List Int} {s : Stats} (h : classLabelStatistics y = .ok s) {l : Int}
    (hl : l ∈ y) : s.count l = y.count l := by
  obtain ⟨u0, u1, r, hu, hc, _, _⟩ := stats_shape h
  unfold Stats.count
  rw [hc]
  unfold npUniqueCounts
  rw [lookup_counts (mem_npUnique.2 hl)]
  rfl

/-- Two classes: the unique labels are the two, in order. -/
theorem npUnique_two {y : List Int} {a b : Int} (ha : a ∈ y) (hb : b ∈ y)
    (h : ∀ l ∈ y, l = a ∨ l = b) (hlt : a < b) : npUnique y = [a, b] := by
  have hs := npUnique_sorted y
  have hm : ∀ l, l ∈ npUnique y ↔ (l = a ∨ l = b) := by
    intro l
    rw [mem_npUnique]
    constructor
    · exact h l
    · rintro (rfl | rfl) <;> assumption
  match hu : npUnique y with
  | [] => have := (hm a).2 (Or.inl rfl); rw [hu] at this; simp at this
  | [x] =>
    have h1 := (hm a).2 (Or.inl rfl); have h2 := (hm b).2 (Or.inr rfl)
    rw [hu] at h1 h2; simp at h1 h2; omega
  | [x, z] =>
    rw [hu] at hs hm
    have hx := (hm x).1 (by simp); have hz := (hm z).1 (by simp)
    simp at hs
    rcases hx with rfl | rfl <;> rcases hz with rfl | rfl <;> first | rfl | omega
  | x :: z :: w :: r =>
    rw [hu] at hs hm
    have hx := (hm x).1 (by simp); have hz := (hm z).1 (by simp); have hw := (hm w).1 (by simp)
    simp at hs
    omega

theorem stats_of_isMinority {y : List Int} {a b : Int} (h : IsMinority y a b) :
    ∃ s, classLabelStatistics y = .ok s ∧ s.minLabel = a ∧ s.majLabel = b := by
  obtain ⟨ha, hb, hl, hc⟩ := h
  have hne : a ≠ b := by rintro rfl; omega
  unfold classLabelStatistics npUniqueCounts
  rcases lt_or_gt_of_ne hne with hlt | hlt
  · rw [npUnique_two ha hb hl hlt]
    have : y.count a < y.count b := by omega
    exact ⟨_, rfl, by simp [this], by simp [this]⟩
  · rw [npUnique_two hb ha (fun l hy => (hl l hy).symm) hlt]
    have : ¬ y.count b < y.count a := by omega
    exact ⟨_, rfl, by simp [this], by simp [this]⟩

theorem detN_eq_requested {p : ℚ} {nMaj nMin : Nat} :
    detNToSample (.num p) nMaj nMin = .ok (requested p nMaj nMin) := by
  unfold detNToSample requested pyInt
  simp only
  congr 1
  split
  · rename_i h
    have := Int.floor_nonneg.2 h
    omega
  · rename_i h
    push Not at h
    have h1 : ⌈((nMaj : ℚ) - (nMin : ℚ)) * p⌉ ≤ 0 := Int.ceil_le.2 (by simpa using h.le)
    have h2 : ⌊((nMaj : ℚ) - (nMin : ℚ)) * p⌋ ≤ 0 := by
      have := Int.floor_le_ceil (((nMaj : ℚ) - (nMin : ℚ)) * p); omega
    omega

end Verif

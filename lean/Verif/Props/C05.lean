import Verif.Lemmas.Stats

/-!
# C05 The minority class is identified correctly
-/

namespace Verif

/-- With exactly two classes the recorded labels are the rarer class (the larger label on ties) and the
other one, and the recorded counts are the exact multiplicities. -/
theorem C05_two_classes {y : List Int} {a b : Int} (h : IsMinority y a b) :
    ∃ s, classLabelStatistics y = .ok s ∧ s.minLabel = a ∧ s.majLabel = b ∧
      (∀ l ∈ y, s.count l = y.count l) ∧ y.count s.minLabel ≤ y.count s.majLabel := by
  obtain ⟨s, hs, rfl, rfl⟩ := stats_of_isMinority h
  exact ⟨s, hs, rfl, rfl, fun l hl => stats_count hs hl, by have := h.2.2.2; omega⟩

/-- Every two-class vector has such a pair of labels, and only one. -/
theorem C05_minority_exists_unique {y : List Int} {l m : Int} (hlm : l ≠ m) (hl : l ∈ y) (hm : m ∈ y)
    (hy : ∀ x ∈ y, x = l ∨ x = m) : ∃! p : Int × Int, IsMinority y p.1 p.2 := by
  have hex : ∃ p : Int × Int, IsMinority y p.1 p.2 := by
    by_cases h1 : y.count l < y.count m
    · exact ⟨(l, m), hl, hm, hy, Or.inl h1⟩
    · by_cases h2 : y.count m < y.count l
      · exact ⟨(m, l), hm, hl, fun x hx => (hy x hx).symm, Or.inl h2⟩
      · rcases lt_or_gt_of_ne hlm with h | h
        · exact ⟨(m, l), hm, hl, fun x hx => (hy x hx).symm, Or.inr ⟨by simp only; omega, h⟩⟩
        · exact ⟨(l, m), hl, hm, hy, Or.inr ⟨by simp only; omega, h⟩⟩
  obtain ⟨p, hp⟩ := hex
  refine ⟨p, hp, fun q hq => ?_⟩
  obtain ⟨s, hs, h1, h2⟩ := stats_of_isMinority hp
  obtain ⟨t, ht, h3, h4⟩ := stats_of_isMinority hq
  rw [hs] at ht
  injection ht with ht
  subst ht
  exact Prod.ext (h3.symm.trans h1) (h4.symm.trans h2)

/-- Fewer than two classes (also the empty vector): `IndexError`. -/
theorem C05_single_class_raises {y : List Int} (h : ∀ l ∈ y, ∀ m ∈ y, l = m) :
    classLabelStatistics y = .error .indexError := by
  have hu : ∀ l m, l ∈ npUnique y → m ∈ npUnique y → l = m := fun l m hl hm =>
    h l (mem_npUnique.1 hl) m (mem_npUnique.1 hm)
  have hnd := npUnique_nodup y
  unfold classLabelStatistics npUniqueCounts
  match hq : npUnique y with
  | [] => rfl
  | [x] => rfl
  | x :: z :: r =>
    rw [hq] at hu hnd
    have := hu x z (by simp) (by simp)
    subst this
    simp at hnd

/-- With three or more classes the property fails: the recorded minority label can be the most frequent
class, and then every other class is at least as small. -/
theorem C05_three_classes_fails : ∃ (y : List Int) (s : Stats), classLabelStatistics y = .ok s ∧
    ∃ l ∈ y, y.count l < y.count s.minLabel ∧ y.count s.majLabel ≤ y.count s.minLabel := by
  refine ⟨[0, 0, 1, 1, 2], ⟨[(0, 2), (1, 2), (2, 1)], 1, 0⟩, by decide +kernel, 2, by decide, by decide,
    by decide⟩

/-- With three or more classes only the two smallest labels are compared. -/
theorem C05_only_two_smallest {y : List Int} {s : Stats} (h : classLabelStatistics y = .ok s) :
    ∃ u0 u1, (s.minLabel = u0 ∧ s.majLabel = u1 ∨ s.minLabel = u1 ∧ s.majLabel = u0) ∧ u0 < u1 ∧
      ∀ l ∈ y, l = u0 ∨ l = u1 ∨ u1 < l := by
  obtain ⟨u0, u1, r, hu, _, h1, h2⟩ := stats_shape h
  have hs := npUnique_sorted y
  rw [hu] at hs
  have hlt : u0 < u1 := (List.pairwise_cons.1 hs).1 u1 (by simp)
  refine ⟨u0, u1, ?_, hlt, ?_⟩
  · rw [h1, h2]
    split
    · exact Or.inl ⟨rfl, rfl⟩
    · exact Or.inr ⟨rfl, rfl⟩
  · intro l hl
    have := mem_npUnique.2 hl
    rw [hu] at this
    simp only [List.mem_cons] at this
    rcases this with h | h | h
    · exact Or.inl h
    · exact Or.inr (Or.inl h)
    · exact Or.inr (Or.inr ((List.pairwise_cons.1 (List.pairwise_cons.1 hs).2).1 l h))

/-- Non-vacuity, including a tie. -/
example : IsMinority [0, 1, 0, 1, 0] 1 0 ∧ IsMinority [3, 7, 7, 3] 7 3 := by
  refine ⟨⟨by decide, by decide, by decide, Or.inl (by decide)⟩,
    ⟨by decide, by decide, by decide, Or.inr (by decide)⟩⟩
example : classLabelStatistics [3, 7, 7, 3] = .ok ⟨[(3, 2), (7, 2)], 7, 3⟩ := by decide +kernel

end Verif

import Verif.Spec.Balanced
import Verif.Model.Base
import Verif.Lemmas.Stats

/-! # Lemmas about balanced data -/

namespace Verif

theorem balanced_isMinority {y : List Int} (h : Balanced y) : ∃ a b, IsMinority y a b ∧ y.count a = y.count b := by
  obtain ⟨a, b, hne, ha, hb, hl, hc⟩ := h
  rcases lt_or_gt_of_ne hne with hlt | hlt
  · exact ⟨b, a, ⟨hb, ha, fun l h => (hl l h).symm, Or.inr ⟨hc.symm, hlt⟩⟩, hc.symm⟩
  · exact ⟨a, b, ⟨ha, hb, hl, Or.inr ⟨hc, hlt⟩⟩, hc⟩

theorem detN_same (p : ℚ) (n : Nat) : detNToSample (.num p) n n = .ok 0 := by
  unfold detNToSample
  dsimp only
  rw [sub_self, zero_mul]
  rfl

theorem keeps_of_alg {checks : List Check} {d : Nat} {alg : Stats → List Row → List Int → Res (List Row × List Int)}
    (h : ∀ s X y, s.count s.majLabel = s.count s.minLabel → alg s X y = .ok (X, y)) : KeepsBalanced (sample checks d alg) := by
  intro X y _ hy
  obtain ⟨a, b, hmin, hc⟩ := balanced_isMinority hy
  obtain ⟨s, hs, rfl, rfl⟩ := stats_of_isMinority hmin
  unfold sample
  rw [hs, ok_bind, stats_count hs (stats_min_mem hs).1]
  split
  · rfl
  · refine h s X y ?_
    rw [stats_count hs (stats_min_mem hs).1, stats_count hs (stats_min_mem hs).2.1, hc]

end Verif

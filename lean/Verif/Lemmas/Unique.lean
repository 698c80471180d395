import Verif.Lemmas.Basic
import Mathlib.Data.List.Count
import Mathlib.Data.List.Perm.Basic
import Mathlib.Data.List.Dedup
import Mathlib.Algebra.BigOperators.Group.List.Lemmas
import Mathlib.Data.List.Pairwise
import Mathlib.Order.Basic

/-! # Lemmas on `np.unique` -/

namespace Verif

variable {α : Type} [LinearOrder α]

theorem mem_insertU {a b : α} {l : List α} : b ∈ insertU a l ↔ b = a ∨ b ∈ l := by
  induction l with
  | nil => simp [insertU]
  | cons c l ih =>
    unfold insertU
    split
    · simp
    · split
      · rename_i _ h; subst h; simp
      · simp [ih, or_left_comm]

theorem mem_npUnique {b : α} {l : List α} : b ∈ npUnique l ↔ b ∈ l := by
  induction l with
  | nil => simp [npUnique]
  | cons a l ih => simp only [npUnique, List.foldr_cons, mem_insertU, List.mem_cons] at ih ⊢; rw [ih]

theorem insertU_sorted {a : α} {l : List α} (h : l.Pairwise (· < ·)) :
    (insertU a l).Pairwise (· < ·) := by
  induction l with
  | nil => simp [insertU]
  | cons c l ih =>
    rw [List.pairwise_cons] at h
    unfold insertU
    split
    · rename_i hac
      rw [List.pairwise_cons]
      refine ⟨?_, List.pairwise_cons.2 h⟩
      intro b hb
      rcases List.mem_cons.1 hb with rfl | hb
      · exact hac
      · exact lt_trans hac (h.1 b hb)
    · split
      · exact List.pairwise_cons.2 h
      · rename_i h1 h2
        rw [List.pairwise_cons]
        refine ⟨?_, ih h.2⟩
        intro b hb
        rw [mem_insertU] at hb
        rcases hb with rfl | hb
        · exact lt_of_le_of_ne (not_lt.1 h1) (Ne.symm h2)
        · exact h.1 b hb

theorem npUnique_sorted (l : List α) : (npUnique l).Pairwise (· < ·) := by
  induction l with
  | nil => simp [npUnique]
  | cons a l ih => exact insertU_sorted ih

theorem npUnique_nodup (l : List α) : (npUnique l).Nodup :=
  (npUnique_sorted l).imp (fun h => ne_of_lt h)

/-- The multiplicities add up to the length. -/
theorem sum_counts_eq_length {l u : List α} (hnd : u.Nodup) (hmem : ∀ a, a ∈ u ↔ a ∈ l) :
    (u.map (fun v => l.count v)).sum = l.length := by
  have hperm : u.Perm l.dedup := by
    rw [List.perm_ext_iff_of_nodup hnd (List.nodup_dedup l)]
    intro a; rw [hmem, List.mem_dedup]
  rw [(hperm.map (fun v => l.count v)).sum_eq]
  exact List.sum_map_count_dedup_eq_length l

theorem sum_npUnique_counts (l : List α) :
    ((npUnique l).map (fun v => l.count v)).sum = l.length :=
  sum_counts_eq_length (npUnique_nodup l) (fun _ => mem_npUnique)

end Verif

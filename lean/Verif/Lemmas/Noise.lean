import Verif.Model.Noise
import Verif.Spec.Neighbors
import Verif.Lemmas.Stats
import Verif.Lemmas.Basic

/-! # Lemmas on the noise filters -/

namespace Verif

/-- The kept positions. -/
def kept (n : Nat) (rem : List Nat) : List Nat := (List.range n).filter (fun i => ! rem.contains i)

theorem mem_kept {n : Nat} {rem : List Nat} {i : Nat} : i ∈ kept n rem ↔ i < n ∧ i ∉ rem := by
  unfold kept; simp

theorem npDelete_forall {α : Type} (X : List α) (rem : List Nat) :
    List.Forall₂ (fun i r => X[i]? = some r) (kept X.length rem) (npDelete X rem) := by
  have hk : kept X.length rem = (X.zipIdx.filter (fun p => ! rem.contains p.2)).map Prod.snd := by
    unfold kept
    have : List.range X.length = X.zipIdx.map Prod.snd := by
      rw [List.zipIdx_map_snd, List.range_eq_range']
    rw [this, List.filter_map]
    rfl
  unfold npDelete
  rw [hk, List.forall₂_map_left_iff, List.forall₂_map_right_iff, List.forall₂_same]
  intro p hp
  exact List.mem_zipIdx_iff_getElem?.1 (List.mem_of_mem_filter hp)

theorem npDelete_subData {α : Type} {X : List α} {y : List Int} (h : X.length = y.length)
    (rem : List Nat) : SubData X y (npDelete X rem) (npDelete y rem) (kept X.length rem) := by
  refine ⟨List.filter_sublist, npDelete_forall X rem, ?_⟩
  rw [h]
  exact npDelete_forall y rem

theorem removed_kept {α : Type} {X : List α} {rem : List Nat} {i : Nat} :
    Removed X (kept X.length rem) i ↔ i < X.length ∧ i ∈ rem := by
  unfold Removed
  rw [mem_kept]
  constructor
  · rintro ⟨h1, h2⟩; exact ⟨h1, by_contra (fun h => h2 ⟨h1, h⟩)⟩
  · rintro ⟨h1, h2⟩; exact ⟨h1, fun h => h.2 h2⟩

theorem pyMax_ge : ∀ {l : List Nat} {m : Nat}, pyMax l = .ok m → m ∈ l ∧ ∀ x ∈ l, x ≤ m := by
  intro l m h
  cases l with
  | nil => simp [pyMax] at h
  | cons a l =>
    unfold pyMax at h
    injection h with h
    subst h
    have : ∀ (l : List Nat) (a : Nat), l.foldl max a ∈ a :: l ∧ ∀ x ∈ a :: l, x ≤ l.foldl max a := by
      intro l
      induction l with
      | nil => intro a; simp
      | cons b l ih =>
        intro a
        rw [List.foldl_cons]
        obtain ⟨h1, h2⟩ := ih (max a b)
        constructor
        · rcases List.mem_cons.1 h1 with h1 | h1
          · rw [h1]
            rcases le_total a b with hab | hab
            · rw [max_eq_right hab]; simp
            · rw [max_eq_left hab]; simp
          · simp [h1]
        · intro x hx
          have hm := h2 (max a b) (by simp)
          rcases List.mem_cons.1 hx with rfl | hx
          · exact le_trans (le_max_left _ _) hm
          · rcases List.mem_cons.1 hx with rfl | hx
            · exact le_trans (le_max_right _ _) hm
            · exact h2 x (by simp [hx])
    exact this l a

/-- `mode` computes the mode. -/
theorem pyMode_isMode {l : List Int} (hl : l ≠ []) : ∃ v, pyMode l = .ok v ∧ IsMode v l := by
  have hne : npUnique l ≠ [] := by
    intro h
    cases l with
    | nil => exact hl rfl
    | cons a l =>
      have : a ∈ npUnique (a :: l) := mem_npUnique.2 (by simp)
      rw [h] at this
      simp at this
  have hmap : (npUniqueCounts l).map Prod.snd = (npUnique l).map (fun v => l.count v) := by
    simp [npUniqueCounts]
  obtain ⟨m, hm⟩ : ∃ m, pyMax ((npUniqueCounts l).map Prod.snd) = .ok m := by
    rw [hmap]
    cases hu : npUnique l with
    | nil => exact absurd hu hne
    | cons a u => exact ⟨_, rfl⟩
  obtain ⟨h1, h2⟩ := pyMax_ge hm
  rw [hmap] at h1 h2
  have hfind : ∃ v, (npUniqueCounts l).find? (fun p => p.2 == m) = some (v, l.count v) ∧ v ∈ l ∧
      l.count v = m ∧ ∀ w ∈ l, l.count w = m → v ≤ w := by
    have hs := npUnique_sorted l
    have gen : ∀ u : List Int, u.Pairwise (· < ·) → (∃ w ∈ u, l.count w = m) →
        ∃ v, (u.map (fun v => (v, l.count v))).find? (fun p => p.2 == m) = some (v, l.count v) ∧ v ∈ u ∧
          l.count v = m ∧ ∀ w ∈ u, l.count w = m → v ≤ w := by
      intro u
      induction u with
      | nil => rintro _ ⟨w, hw, _⟩; simp at hw
      | cons a u ih =>
        intro hp ⟨w, hw, hwm⟩
        rw [List.pairwise_cons] at hp
        rw [List.map_cons, List.find?_cons]
        by_cases ha : l.count a = m
        · refine ⟨a, by simp [ha], by simp, ha, ?_⟩
          intro w hw _
          rcases List.mem_cons.1 hw with rfl | hw
          · exact le_refl _
          · exact le_of_lt (hp.1 w hw)
        · have hw' : w ∈ u := by
            rcases List.mem_cons.1 hw with rfl | hw
            · exact absurd hwm ha
            · exact hw
          obtain ⟨v, e1, e2, e3, e4⟩ := ih hp.2 ⟨w, hw', hwm⟩
          refine ⟨v, ?_, by simp [e2], e3, ?_⟩
          · have : ((a, l.count a).2 == m) = false := by simpa using ha
            rw [this]; exact e1
          · intro w hw hwm
            rcases List.mem_cons.1 hw with rfl | hw
            · exact absurd hwm ha
            · exact e4 w hw hwm
    obtain ⟨w, hw, hwm⟩ := List.mem_map.1 h1
    obtain ⟨v, e1, e2, e3, e4⟩ := gen _ hs ⟨w, hw, hwm⟩
    exact ⟨v, e1, mem_npUnique.1 e2, e3, fun w hw => e4 w (mem_npUnique.2 hw)⟩
  obtain ⟨v, hf, hv, hvm, hmin⟩ := hfind
  refine ⟨v, ?_, hv, ?_⟩
  · unfold pyMode
    dsimp only
    rw [hm, ok_bind, hf]
    rfl
  · intro w hw
    refine ⟨?_, fun h => hmin w hw (by rw [h, hvm])⟩
    rw [hvm]
    exact h2 _ (List.mem_map.2 ⟨w, mem_npUnique.2 hw, rfl⟩)

theorem IsMode.unique {l : List Int} {v w : Int} (hv : IsMode v l) (hw : IsMode w l) : v = w := by
  have h1 := hv.2 w hw.1
  have h2 := hw.2 v hv.1
  have e : l.count w = l.count v := le_antisymm h1.1 h2.1
  exact le_antisymm (h1.2 e) (h2.2 e.symm)

end Verif

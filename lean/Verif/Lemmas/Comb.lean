import Verif.Lemmas.Basic
import Verif.Spec.Sampling
import Mathlib.Data.Nat.Choose.Basic
import Mathlib.Data.List.Nodup

/-! # Lemmas on the simplex enumeration -/

namespace Verif

theorem mem_combinations {α : Type} {l : List α} {r : Nat} {c : List α} :
    c ∈ combinations l r ↔ c.Sublist l ∧ c.length = r := by
  induction l generalizing r c with
  | nil =>
    cases r with
    | zero => simp [combinations]
    | succ r => simp only [combinations, List.not_mem_nil, List.sublist_nil, false_iff]; rintro ⟨rfl, h⟩; simp at h
  | cons x xs ih =>
    cases r with
    | zero =>
      simp only [combinations, List.mem_singleton, List.length_eq_zero_iff]
      constructor
      · rintro rfl; simp
      · rintro ⟨_, h⟩; exact h
    | succ r =>
      simp only [combinations, List.mem_append, List.mem_map, ih]
      constructor
      · rintro (⟨a, ⟨h1, h2⟩, rfl⟩ | ⟨h1, h2⟩)
        · exact ⟨h1.cons_cons x, by simp [h2]⟩
        · exact ⟨h1.cons x, h2⟩
      · rintro ⟨h1, h2⟩
        cases h1 with
        | cons _ h => exact Or.inr ⟨h, h2⟩
        | cons_cons _ h => exact Or.inl ⟨_, ⟨h, by simpa using h2⟩, rfl⟩

theorem length_combinations {α : Type} (l : List α) (r : Nat) :
    (combinations l r).length = Nat.choose l.length r := by
  induction l generalizing r with
  | nil => cases r <;> simp [combinations]
  | cons x xs ih =>
    cases r with
    | zero => simp [combinations]
    | succ r => simp [combinations, ih, Nat.choose_succ_succ]

theorem nodup_combinations {α : Type} {l : List α} (h : l.Nodup) (r : Nat) :
    (combinations l r).Nodup := by
  induction l generalizing r with
  | nil => cases r <;> simp [combinations]
  | cons x xs ih =>
    cases r with
    | zero => simp [combinations]
    | succ r =>
      rw [List.nodup_cons] at h
      simp only [combinations]
      refine List.Nodup.append ?_ (ih h.2 _) ?_
      · exact (ih h.2 r).map (fun a b hab => by simpa using hab)
      · intro c hc hc'
        rw [List.mem_map] at hc
        obtain ⟨a, _, rfl⟩ := hc
        exact h.1 ((mem_combinations.1 hc').1.subset (by simp))

/-- The list of position simplices, when there is no error. -/
def posSimplices (nBase k nDim : Nat) : List (List Nat) :=
  (List.range nBase).flatMap
    (fun b => (combinations (List.range' 1 (k - 1)) (nDim - 1)).map (fun c => b :: c))

theorem combinations_eq_nil {k r : Nat} : combinations (List.range' 1 (k - 1)) r = [] ↔ k - 1 < r := by
  rw [← List.length_eq_zero_iff, length_combinations, List.length_range', Nat.choose_eq_zero_iff]

theorem baseIdx_eq {nBase k nDim : Nat} (h : 1 ≤ nDim) (hk : nDim - 1 ≤ k - 1 ∨ nBase = 0) :
    baseIdxNeighborIdxSimplices nBase k nDim = .ok (posSimplices nBase k nDim) := by
  unfold baseIdxNeighborIdxSimplices posSimplices
  rw [if_neg (by omega)]
  dsimp only
  rw [if_neg (fun h => by have := combinations_eq_nil.1 h.1; omega)]

theorem baseIdx_ok {nBase k nDim : Nat} {all : List (List Nat)} (h : baseIdxNeighborIdxSimplices nBase k nDim = .ok all) :
    1 ≤ nDim ∧ (nDim - 1 ≤ k - 1 ∨ nBase = 0) ∧ all = posSimplices nBase k nDim := by
  unfold baseIdxNeighborIdxSimplices at h
  split at h
  · cases h
  · dsimp only at h
    split at h
    · cases h
    · rename_i hc
      rw [combinations_eq_nil] at hc
      injection h with h
      exact ⟨by omega, by omega, h.symm⟩

theorem mem_posSimplices {nBase k nDim : Nat} {s : List Nat} :
    s ∈ posSimplices nBase k nDim ↔
      ∃ b c, s = b :: c ∧ b < nBase ∧ c.Sublist (List.range' 1 (k - 1)) ∧ c.length = nDim - 1 := by
  unfold posSimplices
  simp only [List.mem_flatMap, List.mem_range, List.mem_map, mem_combinations]
  constructor
  · rintro ⟨b, hb, c, ⟨h1, h2⟩, rfl⟩; exact ⟨b, c, rfl, hb, h1, h2⟩
  · rintro ⟨b, c, rfl, hb, h1, h2⟩; exact ⟨b, hb, c, ⟨h1, h2⟩, rfl⟩

theorem length_posSimplices (nBase k nDim : Nat) :
    (posSimplices nBase k nDim).length = nBase * Nat.choose (k - 1) (nDim - 1) := by
  unfold posSimplices
  simp [List.length_flatMap, length_combinations]

theorem nodup_posSimplices (nBase k nDim : Nat) : (posSimplices nBase k nDim).Nodup := by
  unfold posSimplices
  rw [List.nodup_flatMap]
  constructor
  · intro b _
    exact (nodup_combinations List.nodup_range' _).map (fun a c h => by simpa using h)
  · refine List.Pairwise.imp ?_ List.nodup_range
    intro a b hab c hc hc'
    simp only [List.mem_map] at hc hc'
    obtain ⟨x, _, rfl⟩ := hc
    obtain ⟨z, _, h⟩ := hc'
    simp at h
    exact hab h.1.symm

theorem forall2_mem_right {α β : Type} {R : α → β → Prop} {l : List α} {m : List β}
    (h : List.Forall₂ R l m) {b : β} (hb : b ∈ m) : ∃ a ∈ l, R a b := by
  induction h with
  | nil => simp at hb
  | cons h _ ih =>
    rcases List.mem_cons.1 hb with rfl | hb
    · exact ⟨_, by simp, h⟩
    · obtain ⟨a, ha, h⟩ := ih hb
      exact ⟨a, by simp [ha], h⟩

theorem realIdxRow_ok {indices : List (List Nat)} {k m nBase nDim : Nat} (ht : TableOK indices k m)
    (hn : nBase = indices.length) {s : List Nat} (hs : s ∈ posSimplices nBase k nDim) :
    ∃ b c vs row, s = b :: c ∧ indices[b]? = some row ∧
      List.Forall₂ (fun i a => row[i]? = some a) c vs ∧ realIdxRow indices s = .ok (b :: vs) ∧
      vs.length = nDim - 1 ∧ c.Sublist (List.range' 1 (k - 1)) := by
  obtain ⟨b, c, rfl, hb, hc, hl⟩ := mem_posSimplices.1 hs
  have hb' : b < indices.length := hn ▸ hb
  have hrow := ht _ (List.getElem_mem hb')
  have hlt : ∀ i ∈ c, i < (indices[b]).length := by
    intro i hi
    have := hc.subset hi
    rw [List.mem_range'_1] at this
    omega
  obtain ⟨vs, hvs⟩ := takeRows_ok_of_lt hlt
  refine ⟨b, c, vs, indices[b], rfl, List.getElem?_eq_getElem hb', takeRows_forall hvs, ?_, ?_, hc⟩
  · unfold realIdxRow
    simp only [getRow_lt hb', ok_bind, hvs]
    rfl
  · rw [takeRows_length hvs, hl]

theorem allNeighbor_unfold {indices : List (List Nat)} {k nDim : Nat} {all : List (List Nat)}
    (h : allNeighborSimplicesRealIdx nDim indices k = .ok all) : 1 ≤ nDim ∧ (nDim - 1 ≤ k - 1 ∨ indices.length = 0) ∧
      (posSimplices indices.length k nDim).mapM (realIdxRow indices) = .ok all := by
  unfold allNeighborSimplicesRealIdx at h
  obtain ⟨pos, hpos, h⟩ := bind_ok.1 h
  obtain ⟨hd, hk, rfl⟩ := baseIdx_ok hpos
  exact ⟨hd, hk, h⟩

/-- More vertices than neighbours: there is no combination, and the call raises. -/
theorem allNeighbor_error {indices : List (List Nat)} {k nDim : Nat} (hi : indices.length ≠ 0) (h : k - 1 < nDim - 1) :
    allNeighborSimplicesRealIdx nDim indices k = .error .valueError := by
  unfold allNeighborSimplicesRealIdx baseIdxNeighborIdxSimplices
  rw [if_neg (by omega)]
  dsimp only
  rw [if_pos ⟨combinations_eq_nil.2 h, hi⟩]
  rfl

/-- Success and shape of `all_neighbor_simplices_real_idx`. -/
theorem allNeighbor_ok {indices : List (List Nat)} {k m nDim : Nat} (ht : TableOK indices k m)
    (hd : 1 ≤ nDim) (hdk : nDim - 1 ≤ k - 1) :
    ∃ all, allNeighborSimplicesRealIdx nDim indices k = .ok all ∧
      all.length = indices.length * Nat.choose (k - 1) (nDim - 1) ∧
      ∀ s ∈ all, ∃ b vs row, s = b :: vs ∧ indices[b]? = some row ∧ (∀ v ∈ vs, v ∈ row) ∧
        vs.length = nDim - 1 := by
  have h1 : ∀ s ∈ posSimplices indices.length k nDim, ∃ t, realIdxRow indices s = .ok t := by
    intro s hs
    obtain ⟨b, c, vs, row, _, _, _, h, _⟩ := realIdxRow_ok ht rfl hs
    exact ⟨_, h⟩
  obtain ⟨all, hall⟩ := mapM_exists_ok h1
  refine ⟨all, ?_, ?_, ?_⟩
  · unfold allNeighborSimplicesRealIdx
    rw [baseIdx_eq hd (Or.inl hdk)]
    simpa using hall
  · rw [mapM_ok_length hall, length_posSimplices]
  · intro s hs
    obtain ⟨t, ht', hts⟩ := mapM_ok_mem hall hs
    obtain ⟨b, c, vs, row, rfl, hrow, hf, hr, hl, _⟩ := realIdxRow_ok ht rfl ht'
    rw [hr] at hts
    simp at hts
    refine ⟨b, vs, row, hts.symm, hrow, ?_, hl⟩
    intro v hv
    obtain ⟨i, _, hi⟩ := forall2_mem_right hf hv
    exact List.mem_of_getElem? hi

end Verif

import Verif.Lemmas.Under

/-!
# C18 Random undersampling balances the classes with distinct original majority rows
-/

namespace Verif

/-- Contract of a draw of `size` positions out of `n` without replacement. -/
def ChoiceOK (choice : Nat → Nat → List Nat) : Prop :=
  ∀ n size, size ≤ n → (choice n size).length = size ∧ (choice n size).Nodup ∧ ∀ i ∈ choice n size, i < n

/-- For 0/1 labels with label 1 present and not more frequent than 0: the result is a selection of pairwise
different positions of the majority rows, as many as there are minority rows, followed by all minority rows;
the labels are 0 for the former and 1 for the latter. -/
theorem C18_balanced {choice : Nat → Nat → List Nat} (hch : ChoiceOK choice) {X : List Row} {y : List Int}
    (hxy : X.length = y.length) (h01 : ∀ l ∈ y, l = 0 ∨ l = 1) (h1 : (1 : Int) ∈ y)
    (hle : y.count 1 ≤ y.count 0) :
    ∃ (positions : List Nat) (kept : List Row),
      randomUndersample choice X y =
        .ok (kept ++ classRows X y 1, List.replicate (y.count 1) 0 ++ List.replicate (y.count 1) 1) ∧
      positions.Nodup ∧ List.Forall₂ (fun i r => (classRows X y 0)[i]? = some r) positions kept ∧
      kept.length = y.count 1 := by
  obtain ⟨hl, hnd, hb⟩ := hch _ _ hle
  have hlen := classRows_length (α := Row) hxy
  obtain ⟨kept, hk⟩ := takeRows_ok_of_lt (X := classRows X y 0) (idx := choice (y.count 0) (y.count 1))
    (by rw [hlen]; exact hb)
  refine ⟨_, kept, ?_, hnd, takeRows_forall hk, by rw [takeRows_length hk, hl]⟩
  unfold randomUndersample
  rw [binCounts2_ok.2 ⟨h01, h1, rfl, rfl⟩, ok_bind]
  dsimp only
  rw [if_neg (by omega), selectLabel_eq_classRows, selectLabel_eq_classRows, hk]
  simp only [ok_bind, stackMajMin, hlen, takeRows_length hk, hl]
  rfl

/-- The resulting classes have equal size. -/
theorem C18_equal_sizes {choice : Nat → Nat → List Nat} (hch : ChoiceOK choice) {X : List Row} {y : List Int}
    (hxy : X.length = y.length) (h01 : ∀ l ∈ y, l = 0 ∨ l = 1) (h1 : (1 : Int) ∈ y)
    (hle : y.count 1 ≤ y.count 0) {X' : List Row} {y' : List Int}
    (h : randomUndersample choice X y = .ok (X', y')) :
    X'.length = y'.length ∧ y'.count 0 = y'.count 1 ∧ y'.count 1 = y.count 1 ∧
      (∀ it ∈ X'.zip y', it ∈ X.zip y) := by
  obtain ⟨pos, kept, e, _, hf, hkl⟩ := C18_balanced hch hxy h01 h1 hle
  rw [e] at h
  injection h with h
  injection h with h2 h3
  subst h2 h3
  have hlen := classRows_length (α := Row) hxy
  refine ⟨by simp [hlen, hkl], by simp [List.count_replicate], by simp [List.count_replicate], ?_⟩
  rw [List.zip_append (by simp [hkl])]
  rintro ⟨r, l⟩ hit
  rcases List.mem_append.1 hit with hit | hit
  · have hm := List.of_mem_zip hit
    have e2 := List.eq_of_mem_replicate hm.2
    subst e2
    obtain ⟨i, _, hi⟩ := forall₂_mem_right hf hm.1
    exact mem_classRows.1 (List.mem_of_getElem? hi)
  · have hm := List.of_mem_zip hit
    have e2 := List.eq_of_mem_replicate hm.2
    subst e2
    exact mem_classRows.1 hm.1

/-- Every other input is rejected with `ValueError`: labels other than 0/1, no label 1, or more ones than
zeros. -/
theorem C18_rejects {choice : Nat → Nat → List Nat} {X : List Row} {y : List Int}
    (h : ¬ ((∀ l ∈ y, l = 0 ∨ l = 1) ∧ (1 : Int) ∈ y ∧ y.count 1 ≤ y.count 0)) :
    randomUndersample choice X y = .error .valueError := by
  unfold randomUndersample
  cases hb : binCounts2 y with
  | error e =>
    have : e = .valueError := by
      unfold binCounts2 bincount at hb
      split at hb
      · injection hb with hb; exact hb.symm
      · rw [ok_bind] at hb
        split at hb
        · cases hb
        · injection hb with hb; exact hb.symm
    rw [this]; rfl
  | ok c =>
    obtain ⟨a, b⟩ := c
    obtain ⟨h01, h1, ha, hb'⟩ := binCounts2_ok.1 hb
    have : a < b := by
      by_contra hc
      exact h ⟨h01, h1, by omega⟩
    rw [ok_bind]
    dsimp only
    rw [if_pos this]
    rfl

/-- A generator meeting the contract. -/
example : ChoiceOK (fun n size => (List.range n).take size) := by
  intro n size h
  refine ⟨by simp; omega, ?_, ?_⟩
  · exact (List.nodup_range).sublist (List.take_sublist _ _)
  · intro i hi; exact List.mem_range.1 (List.mem_of_mem_take hi)
example : randomUndersample (fun n size => ((List.range n).reverse).take size)
    [[1], [2], [3], [4], [5]] [0, 1, 0, 0, 1] = .ok ([[4], [3], [2], [5]], [0, 0, 1, 1]) := by decide +kernel
example : randomUndersample (fun n size => (List.range n).take size)
    [[1], [2], [3]] [0, 1, 1] = .error .valueError := by decide +kernel

end Verif

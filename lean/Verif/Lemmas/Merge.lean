import Verif.Model.Merge
import Verif.Lemmas.Basic
import Mathlib.Data.List.Perm.Basic
import Mathlib.Data.List.Perm.Lattice
import Mathlib.Tactic.Linarith

/-! # Lemmas on the merging loops -/

namespace Verif

theorem mem_pairsOf {n : Nat} {p : Nat × Nat} : p ∈ pairsOf n ↔ p.1 < n ∧ p.2 < n := by
  unfold pairsOf
  simp only [List.mem_flatMap, List.mem_map, List.mem_range]
  constructor
  · rintro ⟨i, hi, j, hj, rfl⟩; exact ⟨hi, hj⟩
  · rintro ⟨h1, h2⟩; exact ⟨p.1, h1, p.2, h2, rfl⟩

theorem pairsOf_length (n : Nat) : (pairsOf n).length = n * n := by
  unfold pairsOf
  simp [List.length_flatMap]

theorem minD_some {a b : Option ℚ} {x : ℚ} (h : minD a b = some x) :
    (a = some x ∨ b = some x) ∧ (∀ y, a = some y → x ≤ y) ∧ (∀ y, b = some y → x ≤ y) := by
  cases a with
  | none => simp only [minD] at h; subst h; exact ⟨Or.inr rfl, by simp, by simp⟩
  | some a => cases b with
    | none => simp only [minD] at h; rw [h]; exact ⟨Or.inl rfl, by simp, by simp⟩
    | some b =>
      simp only [minD, Option.some.injEq] at h
      subst h
      refine ⟨?_, by simp, by simp⟩
      rcases le_total a b with hab | hab
      · left; rw [min_eq_left hab]
      · right; rw [min_eq_right hab]

theorem minD_none {a b : Option ℚ} (h : minD a b = none) : a = none ∧ b = none := by
  cases a <;> cases b <;> simp [minD] at h ⊢

theorem foldr_minD {β : Type} (f : β → Option ℚ) (l : List β) :
    (∀ x, l.foldr (fun p acc => minD (f p) acc) none = some x →
      (∃ p ∈ l, f p = some x) ∧ ∀ p ∈ l, ∀ y, f p = some y → x ≤ y) ∧
    (l.foldr (fun p acc => minD (f p) acc) none = none → ∀ p ∈ l, f p = none) := by
  induction l with
  | nil => simp
  | cons a l ih =>
    simp only [List.foldr_cons]
    constructor
    · intro x hx
      obtain ⟨h1, h2, h3⟩ := minD_some hx
      constructor
      · rcases h1 with h1 | h1
        · exact ⟨a, by simp, h1⟩
        · obtain ⟨⟨p, hp, hpx⟩, _⟩ := ih.1 x h1
          exact ⟨p, by simp [hp], hpx⟩
      · intro p hp y hy
        rcases List.mem_cons.1 hp with rfl | hp
        · exact h2 y hy
        · cases hf : l.foldr (fun p acc => minD (f p) acc) none with
          | none => rw [ih.2 hf p hp] at hy; simp at hy
          | some z => exact (h3 z hf).trans ((ih.1 z hf).2 p hp y hy)
    · intro h p hp
      obtain ⟨h1, h2⟩ := minD_none h
      rcases List.mem_cons.1 hp with rfl | hp
      · exact h1
      · exact ih.2 h2 p hp

theorem DMat.min_ok {m : DMat} (h : 0 < m.n) : ∃ v, m.min = .ok v := by
  unfold DMat.min; rw [if_neg (by omega)]; exact ⟨_, rfl⟩

theorem DMat.min_some {m : DMat} {x : ℚ} (h : m.min = .ok (some x)) :
    (∃ i j, i < m.n ∧ j < m.n ∧ m.d i j = some x) ∧ ∀ i j, i < m.n → j < m.n → ∀ y, m.d i j = some y → x ≤ y := by
  unfold DMat.min at h
  split at h
  · simp at h
  · injection h with h
    obtain ⟨⟨p, hp, hpx⟩, h2⟩ := (foldr_minD (fun p : Nat × Nat => m.d p.1 p.2) _).1 x h
    rw [mem_pairsOf] at hp
    exact ⟨⟨p.1, p.2, hp.1, hp.2, hpx⟩, fun i j hi hj y hy => h2 (i, j) (mem_pairsOf.2 ⟨hi, hj⟩) y hy⟩

theorem DMat.min_none {m : DMat} (h : m.min = .ok none) : ∀ i j, i < m.n → j < m.n → m.d i j = none := by
  unfold DMat.min at h
  split at h
  · simp at h
  · injection h with h
    exact fun i j hi hj => (foldr_minD (fun p : Nat × Nat => m.d p.1 p.2) _).2 h (i, j) (mem_pairsOf.2 ⟨hi, hj⟩)

theorem DMat.firstAt_ok {m : DMat} {v : Option ℚ} (h : ∃ i j, i < m.n ∧ j < m.n ∧ m.d i j = v) :
    ∃ p, m.firstAt v = .ok p := by
  obtain ⟨i, j, hi, hj, hv⟩ := h
  unfold DMat.firstAt
  cases hf : (pairsOf m.n).find? (fun p => decide (m.d p.1 p.2 = v)) with
  | some p => exact ⟨p, rfl⟩
  | none =>
    rw [List.find?_eq_none] at hf
    have := hf (i, j) (mem_pairsOf.2 ⟨hi, hj⟩)
    simp [hv] at this

theorem DMat.firstAt_spec {m : DMat} {v : Option ℚ} {p : Nat × Nat} (h : m.firstAt v = .ok p) :
    p.1 < m.n ∧ p.2 < m.n ∧ m.d p.1 p.2 = v := by
  unfold DMat.firstAt at h
  cases hf : (pairsOf m.n).find? (fun p => decide (m.d p.1 p.2 = v)) with
  | none => rw [hf] at h; simp at h
  | some q =>
    rw [hf] at h
    injection h with h
    subst h
    have h1 := List.mem_of_find?_eq_some hf
    have h2 := List.find?_some hf
    rw [mem_pairsOf] at h1
    exact ⟨h1.1, h1.2, by simpa using h2⟩

/-- The diagonal is infinite. -/
def DMat.DiagInf (m : DMat) : Prop := ∀ i, m.d i i = none

theorem DMat.merge_diag (m : DMat) (a b : Nat) : (m.merge a b).DiagInf := by intro i; simp [DMat.merge, infDiag]
theorem DMat.start_diag (n : Nat) (D : Nat → Nat → ℚ) : (DMat.start n D).DiagInf := by intro i; simp [DMat.start, infDiag]
theorem DMat.forbid_diag {m : DMat} (h : m.DiagInf) (a b : Nat) : (m.forbid a b).DiagInf := by
  intro i; simp only [DMat.forbid]; split
  · rfl
  · exact h i

/-- The number of finite entries. -/
def DMat.finite (m : DMat) : Nat := (pairsOf m.n).countP (fun p => (m.d p.1 p.2).isSome)

theorem DMat.finite_le (m : DMat) : m.finite ≤ m.n * m.n := by
  unfold DMat.finite
  rw [← pairsOf_length]
  exact List.countP_le_length

theorem countP_lt_of {α : Type} {p q : α → Bool} {l : List α} (himp : ∀ x ∈ l, q x = true → p x = true) {a : α} (ha : a ∈ l)
    (hp : p a = true) (hq : q a = false) : l.countP q < l.countP p := by
  induction l with
  | nil => simp at ha
  | cons b l ih =>
    rw [List.countP_cons, List.countP_cons]
    have hle : l.countP q ≤ l.countP p := List.countP_mono_left (fun x hx h => himp x (by simp [hx]) h)
    rcases List.mem_cons.1 ha with rfl | ha
    · simp [hp, hq]; omega
    · have := ih (fun x hx h => himp x (by simp [hx]) h) ha
      have hb := himp b (by simp)
      by_cases h1 : q b = true
      · simp [h1, hb h1]; omega
      · simp [h1]; omega

theorem DMat.forbid_finite {m : DMat} {a b : Nat} (ha : a < m.n) (hb : b < m.n) {x : ℚ} (h : m.d a b = some x) :
    (m.forbid a b).finite < m.finite := by
  unfold DMat.finite
  apply countP_lt_of (a := (a, b))
  · rintro ⟨i, j⟩ _ hq
    simp only [DMat.forbid] at hq ⊢
    split at hq
    · simp at hq
    · exact hq
  · exact mem_pairsOf.2 ⟨ha, hb⟩
  · simp [h]
  · simp [DMat.forbid]

/-- Merging rearranges the points. -/
theorem mergeClusters_perm {clusters : List (List Nat)} {a b : Nat} (ha : a < clusters.length) (hb : b < clusters.length)
    (hab : a ≠ b) : (mergeClusters clusters a b).flatten.Perm clusters.flatten := by
  unfold mergeClusters
  have hA : clusters.getD a [] = clusters[a] := by simp [List.getD_eq_getElem?_getD, ha]
  have hB : clusters.getD b [] = clusters[b] := by simp [List.getD_eq_getElem?_getD, hb]
  rw [hA, hB]
  set l' := clusters.set a (clusters[a] ++ clusters[b]) with hl'
  have hb' : b < l'.length := by simp [hl', hb]
  have hlb : l'[b] = clusters[b] := by simp [hl', hab]
  have h1 : l'.flatten.Perm (clusters[b] ++ (l'.eraseIdx b).flatten) := by
    have := (List.getElem_cons_eraseIdx_perm hb').symm.flatten
    rwa [List.flatten_cons, hlb] at this
  have h2 : l'.flatten.Perm (clusters[b] ++ clusters.flatten) := by
    have ha' : a < l'.length := by simp [hl', ha]
    have e1 := (List.getElem_cons_eraseIdx_perm ha').symm.flatten
    have e2 := (List.getElem_cons_eraseIdx_perm ha).symm.flatten
    have hla : l'[a] = clusters[a] ++ clusters[b] := by simp [hl']
    have her : l'.eraseIdx a = clusters.eraseIdx a := by simp [hl', List.eraseIdx_set_eq]
    rw [List.flatten_cons, hla, her] at e1
    rw [List.flatten_cons] at e2
    refine e1.trans ?_
    refine ((List.perm_append_comm.append_right _).trans ?_)
    rw [List.append_assoc]
    exact (List.perm_append_left_iff _).2 e2.symm
  exact (List.perm_append_left_iff clusters[b]).1 (h1.symm.trans h2)

theorem mergeClusters_length {clusters : List (List Nat)} {a b : Nat} (hb : b < clusters.length) :
    (mergeClusters clusters a b).length = clusters.length - 1 := by
  unfold mergeClusters
  rw [List.length_eraseIdx_of_lt (by simpa using hb), List.length_set]

theorem mergeClusters_getD {clusters : List (List Nat)} {a b i : Nat} (ha : a < clusters.length) :
    (mergeClusters clusters a b).getD i [] =
      if skipIdx b i = a then clusters.getD a [] ++ clusters.getD b [] else clusters.getD (skipIdx b i) [] := by
  unfold mergeClusters
  rw [List.getD_eq_getElem?_getD, List.getElem?_eraseIdx]
  unfold skipIdx
  by_cases h : i < b
  · simp only [h, if_true]
    rw [List.getElem?_set]
    by_cases h2 : a = i
    · subst h2; simp [ha]
    · simp [h2, Ne.symm h2, List.getD_eq_getElem?_getD]
  · simp only [h, if_false]
    rw [List.getElem?_set]
    by_cases h2 : a = i + 1
    · subst h2; simp [ha]
    · simp [h2, Ne.symm h2, List.getD_eq_getElem?_getD]

theorem singletons_flatten (n : Nat) : (singletons n).flatten = List.range n := by
  unfold singletons
  rw [← List.flatMap_def]
  simp

theorem skipIdx_lt {b i n : Nat} (hb : b < n) (hi : i < n - 1) : skipIdx b i < n := by
  unfold skipIdx; split <;> omega

theorem skipIdx_ne (b i : Nat) : skipIdx b i ≠ b := by unfold skipIdx; split <;> omega

theorem skipIdx_inj {b i j : Nat} (h : skipIdx b i = skipIdx b j) : i = j := by
  unfold skipIdx at h; split at h <;> split at h <;> omega

/-- The invariant common to the three loops. -/
structure MInv (N : Nat) (clusters : List (List Nat)) (m : DMat) : Prop where
  perm : clusters.flatten.Perm (List.range N)
  size : clusters.length = m.n
  nonempty : ∀ c ∈ clusters, c ≠ []
  diag : m.DiagInf

theorem MInv.start (N : Nat) (D : Nat → Nat → ℚ) : MInv N (singletons N) (DMat.start N D) where
  perm := by rw [singletons_flatten]
  size := by simp [singletons, DMat.start]
  nonempty := by
    intro c hc
    unfold singletons at hc
    rw [List.mem_map] at hc
    obtain ⟨i, _, rfl⟩ := hc
    simp
  diag := DMat.start_diag N D

theorem MInv.merge {N : Nat} {clusters : List (List Nat)} {m : DMat} (h : MInv N clusters m) {a b : Nat} (ha : a < m.n)
    (hb : b < m.n) (hab : a ≠ b) : MInv N (mergeClusters clusters a b) (m.merge a b) where
  perm := (mergeClusters_perm (by rw [h.size]; exact ha) (by rw [h.size]; exact hb) hab).trans h.perm
  size := by rw [mergeClusters_length (by rw [h.size]; exact hb), h.size]; rfl
  nonempty := by
    intro c hc
    unfold mergeClusters at hc
    have hc := List.mem_of_mem_eraseIdx hc
    rcases List.mem_or_eq_of_mem_set hc with hc | rfl
    · exact h.nonempty c hc
    · have ha' : a < clusters.length := by rw [h.size]; exact ha
      have := h.nonempty clusters[a] (List.getElem_mem ha')
      simp [List.getD_eq_getElem?_getD, ha', this]
  diag := DMat.merge_diag m a b

theorem MInv.forbid {N : Nat} {clusters : List (List Nat)} {m : DMat} (h : MInv N clusters m) (a b : Nat) :
    MInv N clusters (m.forbid a b) :=
  ⟨h.perm, h.size, h.nonempty, DMat.forbid_diag h.diag a b⟩

theorem MInv.size_le {N : Nat} {clusters : List (List Nat)} {m : DMat} (h : MInv N clusters m) : m.n ≤ N := by
  have h1 := h.perm.length_eq
  rw [List.length_range] at h1
  rw [← h.size, ← h1, List.length_flatten]
  have hne := h.nonempty
  clear h h1
  induction clusters with
  | nil => simp
  | cons c cs ih =>
    simp only [List.length_cons, List.map_cons, List.sum_cons]
    have := ih (fun c hc => hne c (by simp [hc]))
    have := List.length_pos_iff.2 (hne c (by simp))
    omega

/-- What the loops have left to do: every round either merges or forbids a pair. -/
def DMat.measure (N : Nat) (m : DMat) : Nat := m.n * (N * N + 1) + m.finite

theorem DMat.merge_measure {N : Nat} {m : DMat} (h : m.n ≤ N) (hpos : 0 < m.n) (a b : Nat) :
    (m.merge a b).measure N < m.measure N := by
  unfold DMat.measure
  have h1 := (m.merge a b).finite_le
  have h2 : (m.merge a b).n = m.n - 1 := rfl
  rw [h2] at h1 ⊢
  obtain ⟨k, hk⟩ : ∃ k, m.n = k + 1 := ⟨m.n - 1, by omega⟩
  rw [hk] at h1 ⊢
  simp only [Nat.add_sub_cancel] at h1 ⊢
  have : k * k ≤ N * N := Nat.mul_le_mul (by omega) (by omega)
  nlinarith

theorem DMat.forbid_measure {N : Nat} {m : DMat} {a b : Nat} (ha : a < m.n) (hb : b < m.n) {x : ℚ} (h : m.d a b = some x) :
    (m.forbid a b).measure N < m.measure N := by
  unfold DMat.measure
  have := DMat.forbid_finite ha hb h
  show m.n * _ + _ < _
  omega

theorem gtD_none (T : ℚ) : gtD none (some T) = true := rfl
theorem gtD_some {x T : ℚ} : gtD (some x) (some T) = decide (T < x) := rfl

end Verif

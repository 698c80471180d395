import Verif.Spec.Selection
import Verif.Lemmas.Unique
import Mathlib.Tactic.FieldSimp
import Mathlib.Algebra.Order.Field.Rat

/-! # Lemmas on model selection -/

namespace Verif

variable {α : Type} [LinearOrder α]

theorem maxSkip_none {l : List (Option ℚ)} : maxSkip l = none ↔ ∀ x ∈ l, x = none := by
  induction l with
  | nil => simp [maxSkip]
  | cons a l ih =>
    cases a with
    | none => simp [maxSkip, ih]
    | some a =>
      unfold maxSkip
      cases maxSkip l <;> simp

theorem maxSkip_some {l : List (Option ℚ)} {m : ℚ} (h : maxSkip l = some m) :
    some m ∈ l ∧ ∀ a, some a ∈ l → a ≤ m := by
  induction l generalizing m with
  | nil => simp [maxSkip] at h
  | cons a l ih =>
    cases a with
    | none =>
      unfold maxSkip at h
      obtain ⟨h1, h2⟩ := ih h
      exact ⟨List.mem_cons_of_mem _ h1, fun a ha => h2 a (by simpa using ha)⟩
    | some a =>
      unfold maxSkip at h
      cases hm : maxSkip l with
      | none =>
        rw [hm] at h
        injection h with h
        subst h
        refine ⟨List.mem_cons_self .., ?_⟩
        intro b hb
        rcases List.mem_cons.1 hb with hb | hb
        · injection hb with hb; exact hb.le
        · have := maxSkip_none.1 hm _ hb; simp at this
      | some b =>
        rw [hm] at h
        injection h with h
        obtain ⟨h1, h2⟩ := ih hm
        refine ⟨?_, ?_⟩
        · rcases max_choice a b with hc | hc
          · rw [hc] at h; rw [← h]; exact List.mem_cons_self ..
          · rw [hc] at h; rw [← h]; exact List.mem_cons_of_mem _ h1
        · intro c hc
          rcases List.mem_cons.1 hc with hc | hc
          · injection hc with hc; rw [hc, ← h]; exact le_max_left _ _
          · rw [← h]; exact le_trans (h2 c hc) (le_max_right _ _)

theorem mem_maxRows {l : List (ResRow α)} {r : ResRow α} (h : r ∈ maxRows l) :
    r ∈ l ∧ ∃ m, r.score = some m ∧ ∀ s ∈ l, ∀ a, s.score = some a → a ≤ m := by
  unfold maxRows at h
  rw [List.mem_filter] at h
  obtain ⟨hr, h⟩ := h
  refine ⟨hr, ?_⟩
  cases hm : maxSkip (l.map (·.score)) with
  | none => rw [hm] at h; cases hs : r.score <;> rw [hs] at h <;> simp [eqNan] at h
  | some m =>
    rw [hm] at h
    cases hs : r.score with
    | none => rw [hs] at h; simp [eqNan] at h
    | some a =>
      rw [hs] at h
      simp only [eqNan, beq_iff_eq] at h
      refine ⟨a, rfl, ?_⟩
      intro s hs' b hb
      rw [h]
      exact (maxSkip_some hm).2 b (List.mem_map.2 ⟨s, hs', hb⟩)

theorem maxRows_eq_nil {l : List (ResRow α)} : maxRows l = [] ↔ ∀ r ∈ l, r.score = none := by
  constructor
  · intro h r hr
    cases hm : maxSkip (l.map (·.score)) with
    | none => exact maxSkip_none.1 hm _ (List.mem_map.2 ⟨r, hr, rfl⟩)
    | some m =>
      exfalso
      obtain ⟨s, hs, hse⟩ := List.mem_map.1 (maxSkip_some hm).1
      have : s ∈ maxRows l := by
        unfold maxRows
        rw [List.mem_filter, hm, hse]
        exact ⟨hs, by simp [eqNan]⟩
      rw [h] at this
      simp at this
  · intro h
    unfold maxRows
    rw [List.filter_eq_nil_iff]
    intro r hr
    rw [h r hr]
    simp [eqNan]

theorem key_eq {r s : ResRow α} : r.key = s.key ↔ SameCandidate r s := by
  unfold ResRow.key SameCandidate
  simp only [List.cons.injEq, and_true]
  tauto

theorem mem_groupBy {ρ : Type} {key : ρ → List α} {rows : List ρ} {g : List ρ} :
    g ∈ groupBy key rows ↔ ∃ r ∈ rows, g = rows.filter (fun s => key s = key r) := by
  unfold groupBy
  rw [List.mem_map]
  constructor
  · rintro ⟨k, hk, rfl⟩
    rw [mem_npUnique, List.mem_map] at hk
    obtain ⟨r, hr, rfl⟩ := hk
    exact ⟨r, hr, rfl⟩
  · rintro ⟨r, hr, rfl⟩
    exact ⟨key r, by rw [mem_npUnique]; exact List.mem_map.2 ⟨r, hr, rfl⟩, rfl⟩

/-- The aggregated rows: one of the candidate's own rows with the candidate's mean as score. -/
theorem mem_parseResults {rows avg : List (ResRow α)} (h : parseResults rows = .ok avg) {a : ResRow α} :
    a ∈ avg ↔ ∃ r ∈ rows, ∃ w ∈ rows, SameCandidate w r ∧
      (rows.filter (fun s => s.key = r.key)).head? = some w ∧
      a = { w with score := meanSkip ((rows.filter (fun s => s.key = r.key)).map (·.score)) } := by
  unfold parseResults at h
  split at h
  · cases h
  · injection h with h
    rw [← h, List.mem_filterMap]
    constructor
    · rintro ⟨g, hg, ha⟩
      obtain ⟨r, hr, rfl⟩ := mem_groupBy.1 hg
      cases hf : rows.filter (fun s => s.key = r.key) with
      | nil => rw [hf] at ha; cases ha
      | cons w ws =>
        rw [hf] at ha
        have hw : w ∈ rows.filter (fun s => s.key = r.key) := by rw [hf]; exact List.mem_cons_self ..
        rw [List.mem_filter] at hw
        refine ⟨r, hr, w, hw.1, key_eq.1 (by simpa using hw.2), by rw [hf]; rfl, ?_⟩
        rw [hf]
        injection ha with ha
        exact ha.symm
    · rintro ⟨r, hr, w, hw, hsame, hhead, rfl⟩
      refine ⟨_, mem_groupBy.2 ⟨r, hr, rfl⟩, ?_⟩
      cases hf : rows.filter (fun s => s.key = r.key) with
      | nil => rw [hf] at hhead; cases hhead
      | cons v vs =>
        rw [hf] at hhead
        injection hhead with hhead
        subst hhead
        rfl

theorem candidateScores_eq (rows : List (ResRow α)) (r : ResRow α) :
    ((rows.filter (fun s => s.key = r.key)).map (·.score)).filterMap id = candidateScores rows r := by
  unfold candidateScores
  rw [List.filterMap_map]
  have : (fun s : ResRow α => decide (s.key = r.key)) = (fun s => decide (SameCandidate s r)) := by
    funext s
    exact decide_eq_decide.2 key_eq
  rw [this]
  rfl

theorem meanSkip_some {rows : List (ResRow α)} {r : ResRow α} {m : ℚ} :
    meanSkip ((rows.filter (fun s => s.key = r.key)).map (·.score)) = some m ↔ IsCandidateMean rows r m := by
  unfold meanSkip IsCandidateMean
  rw [candidateScores_eq]
  split
  · rename_i h; simp [h]
  · rename_i h
    have hl : ((candidateScores rows r).length : ℚ) ≠ 0 := by
      rw [Nat.cast_ne_zero, Ne, List.length_eq_zero_iff]; exact h
    constructor
    · intro he
      injection he with he
      exact ⟨h, by rw [← he]; field_simp⟩
    · rintro ⟨-, he⟩
      congr 1
      rw [← he]
      field_simp

theorem isCandidateMean_congr {rows : List (ResRow α)} {r s : ResRow α} (h : SameCandidate r s) {m : ℚ} :
    IsCandidateMean rows r m ↔ IsCandidateMean rows s m := by
  rw [← meanSkip_some, ← meanSkip_some, key_eq.2 h]

theorem mem_of_pivotBest {g : List (ResRow α)} {r : ResRow α} (h : pivotBest g = some r) :
    (r ∈ g ∧ ∃ m, r.score = some m ∧ ∀ s ∈ g, ∀ a, s.score = some a → a ≤ m) ∨
    (r.score = none ∧ ∀ s ∈ g, s.score = none) := by
  unfold pivotBest at h
  cases hm : maxRows g with
  | cons b bs =>
    rw [hm] at h
    injection h with h
    subst h
    exact Or.inl (mem_maxRows (by rw [hm]; exact List.mem_cons_self ..))
  | nil =>
    rw [hm] at h
    cases g with
    | nil => cases h
    | cons a g =>
      injection h with h
      subst h
      exact Or.inr ⟨rfl, maxRows_eq_nil.1 hm⟩

theorem pivotBest_isSome {g : List (ResRow α)} {r : ResRow α} (h : r ∈ g) : ∃ b, pivotBest g = some b := by
  unfold pivotBest
  cases maxRows g with
  | cons b bs => exact ⟨b, rfl⟩
  | nil =>
    cases g with
    | nil => simp at h
    | cons a g => exact ⟨_, rfl⟩

/-- The table of the best rows of the pairs has the same maximum as the table it comes from. -/
theorem best_of_best {avg : List (ResRow α)} {b : ResRow α}
    (h : b ∈ maxRows ((groupBy ResRow.key2 avg).filterMap pivotBest)) :
    b ∈ avg ∧ ∃ m, b.score = some m ∧ ∀ s ∈ avg, ∀ a, s.score = some a → a ≤ m := by
  obtain ⟨hb, m, hm, hmax⟩ := mem_maxRows h
  rw [List.mem_filterMap] at hb
  obtain ⟨g, hg, hpb⟩ := hb
  obtain ⟨r, hr, rfl⟩ := mem_groupBy.1 hg
  rcases mem_of_pivotBest hpb with ⟨hbg, -⟩ | ⟨hn, -⟩
  · refine ⟨(List.mem_filter.1 hbg).1, m, hm, ?_⟩
    intro s hs a ha
    have hsg : s ∈ avg.filter (fun t => t.key2 = s.key2) := by
      rw [List.mem_filter]; exact ⟨hs, by simp⟩
    obtain ⟨c, hc⟩ := pivotBest_isSome hsg
    have hcm : c ∈ (groupBy ResRow.key2 avg).filterMap pivotBest :=
      List.mem_filterMap.2 ⟨_, mem_groupBy.2 ⟨s, hs, rfl⟩, hc⟩
    rcases mem_of_pivotBest hc with ⟨-, m', hm', hmax'⟩ | ⟨-, hn⟩
    · exact le_trans (hmax' s hsg a ha) (hmax c hcm m' hm')
    · rw [hn s hsg] at ha; cases ha
  · rw [hn] at hm; cases hm

theorem no_best {avg : List (ResRow α)} :
    maxRows ((groupBy ResRow.key2 avg).filterMap pivotBest) = [] ↔ ∀ r ∈ avg, r.score = none := by
  rw [maxRows_eq_nil]
  constructor
  · intro h s hs
    have hsg : s ∈ avg.filter (fun t => t.key2 = s.key2) := by
      rw [List.mem_filter]; exact ⟨hs, by simp⟩
    obtain ⟨c, hc⟩ := pivotBest_isSome hsg
    have hcm : c ∈ (groupBy ResRow.key2 avg).filterMap pivotBest :=
      List.mem_filterMap.2 ⟨_, mem_groupBy.2 ⟨s, hs, rfl⟩, hc⟩
    rcases mem_of_pivotBest hc with ⟨-, m', hm', -⟩ | ⟨-, hn⟩
    · rw [h c hcm] at hm'; cases hm'
    · exact hn s hsg
  · intro h c hc
    rw [List.mem_filterMap] at hc
    obtain ⟨g, hg, hpb⟩ := hc
    obtain ⟨r, hr, rfl⟩ := mem_groupBy.1 hg
    rcases mem_of_pivotBest hpb with ⟨hbg, -⟩ | ⟨hn, -⟩
    · exact h c (List.mem_filter.1 hbg).1
    · exact hn

end Verif

import Verif.Lemmas.Selection

/-!
# C27 Model selection returns a maximal candidate
-/

namespace Verif

variable {α β : Type} [LinearOrder α]

/-- The selected oversampler and classifier, with their parameters, are one of the evaluated candidates, and no other
candidate has a larger mean score. -/
theorem C27_selected_is_maximal {lit : α → Res β} {rows : List (ResRow α)} {os clf : α × α × β}
    (h : modelSelection lit rows = .ok (os, clf)) :
    ∃ w ∈ rows, w.osModule = os.1 ∧ w.os = os.2.1 ∧ lit w.osParams = .ok os.2.2 ∧
      w.clfModule = clf.1 ∧ w.clf = clf.2.1 ∧ lit w.clfParams = .ok clf.2.2 ∧
      ∃ m, IsCandidateMean rows w m ∧ ∀ r ∈ rows, ∀ m', IsCandidateMean rows r m' → m' ≤ m := by
  unfold modelSelection at h
  rw [bind_ok] at h
  obtain ⟨avg, havg, h⟩ := h
  cases hm : maxRows ((groupBy ResRow.key2 avg).filterMap pivotBest) with
  | nil => rw [hm] at h; cases h
  | cons b bs =>
    rw [hm] at h
    dsimp only at h
    rw [bind_ok] at h
    obtain ⟨po, hpo, h⟩ := h
    rw [bind_ok] at h
    obtain ⟨pc, hpc, h⟩ := h
    injection h with h
    obtain ⟨rfl, rfl⟩ := Prod.mk.inj h
    obtain ⟨hb, m, hbm, hmax⟩ := best_of_best (by rw [hm]; exact List.mem_cons_self ..)
    obtain ⟨r, hr, w, hw, hsame, hhead, rfl⟩ := (mem_parseResults havg).1 hb
    refine ⟨w, hw, rfl, rfl, hpo, rfl, rfl, hpc, m, ?_, ?_⟩
    · rw [isCandidateMean_congr hsame]
      exact meanSkip_some.1 hbm
    · intro s hs m' hm'
      have hsf : s ∈ rows.filter (fun t => t.key = s.key) := by rw [List.mem_filter]; exact ⟨hs, by simp⟩
      cases hf : rows.filter (fun t => t.key = s.key) with
      | nil => rw [hf] at hsf; simp at hsf
      | cons v vs =>
        have hv : v ∈ rows.filter (fun t => t.key = s.key) := by rw [hf]; exact List.mem_cons_self ..
        rw [List.mem_filter] at hv
        have hmem := (mem_parseResults havg).2 ⟨s, hs, v, hv.1, key_eq.1 (by simpa using hv.2), by rw [hf]; rfl, rfl⟩
        exact hmax _ hmem m' (meanSkip_some.2 hm')

/-- The selection fails, with `IndexError`, exactly when there is no valid score at all: no data set, oversampler,
classifier or fold, or missing scores only. -/
theorem C27_raises_iff {lit : α → Res β} (hlit : ∀ a, ∃ b, lit a = .ok b) {rows : List (ResRow α)} :
    modelSelection lit rows = .error .indexError ↔ ∀ r ∈ rows, r.score = none := by
  unfold modelSelection
  by_cases hnil : rows = []
  · subst hnil
    simp [parseResults]
    rfl
  · have havg : parseResults rows = .ok ((groupBy ResRow.key rows).filterMap avgRow) := by
      unfold parseResults
      rw [if_neg hnil]
      rfl
    rw [havg, ok_bind]
    generalize hA : (groupBy ResRow.key rows).filterMap avgRow = avg at havg ⊢
    have key : (∀ r ∈ avg, r.score = none) ↔ ∀ r ∈ rows, r.score = none := by
      constructor
      · intro h s hs
        have hsf : s ∈ rows.filter (fun t => t.key = s.key) := by rw [List.mem_filter]; exact ⟨hs, by simp⟩
        cases hf : rows.filter (fun t => t.key = s.key) with
        | nil => rw [hf] at hsf; simp at hsf
        | cons v vs =>
          have hv : v ∈ rows.filter (fun t => t.key = s.key) := by rw [hf]; exact List.mem_cons_self ..
          rw [List.mem_filter] at hv
          have hmem := (mem_parseResults havg).2 ⟨s, hs, v, hv.1, key_eq.1 (by simpa using hv.2), by rw [hf]; rfl, rfl⟩
          have := h _ hmem
          dsimp only at this
          unfold meanSkip at this
          split at this
          · rename_i he
            cases hsc : s.score with
            | none => rfl
            | some x =>
              have : x ∈ ((rows.filter (fun t => t.key = s.key)).map (·.score)).filterMap id :=
                List.mem_filterMap.2 ⟨some x, List.mem_map.2 ⟨s, hsf, hsc⟩, rfl⟩
              rw [he] at this
              simp at this
          · cases this
      · intro h a ha
        obtain ⟨r, hr, w, hw, -, -, rfl⟩ := (mem_parseResults havg).1 ha
        dsimp only
        unfold meanSkip
        rw [if_pos]
        rw [List.filterMap_eq_nil_iff]
        intro x hx
        obtain ⟨s, hs, rfl⟩ := List.mem_map.1 hx
        exact h s (List.mem_filter.1 hs).1
    rw [← key, ← no_best]
    constructor
    · intro h
      cases hm : maxRows ((groupBy ResRow.key2 avg).filterMap pivotBest) with
      | nil => rfl
      | cons b bs =>
        rw [hm] at h
        dsimp only at h
        obtain ⟨p, hp⟩ := hlit b.osParams
        obtain ⟨q, hq⟩ := hlit b.clfParams
        rw [hp, ok_bind, hq, ok_bind] at h
        cases h
    · intro h
      rw [h]
      rfl

/-- The printed parameters are part of the candidate. Folds on which a job timed out carry them in another order (C24),
so such folds form a candidate of their own: below, oversampler 7 scores 1 on one fold and 0 on the fold it timed out on,
yet it is selected over oversampler 8, which scores 9/10 on both. -/
theorem C27_timed_out_folds_do_not_count :
    let rows : List (ResRow Nat) := [⟨0, 0, 7, 1, 0, 0, 0, some 1⟩, ⟨0, 0, 7, 2, 0, 0, 0, some 0⟩,
      ⟨0, 0, 8, 1, 0, 0, 0, some (9 / 10)⟩, ⟨0, 0, 8, 1, 0, 0, 0, some (9 / 10)⟩]
    modelSelection (fun a => .ok a) rows = .ok ((0, 7, 1), (0, 0, 0)) := by
  decide +kernel

/-- Hypotheses met: the mean decides, not the single best fold. -/
example : modelSelection (fun a => (.ok a : Res Nat)) ([⟨0, 0, 7, 1, 0, 0, 0, some 1⟩, ⟨0, 0, 7, 1, 0, 0, 0, some 0⟩,
    ⟨0, 0, 8, 1, 0, 0, 0, some (9 / 10)⟩, ⟨0, 0, 8, 1, 0, 0, 0, none⟩] : List (ResRow Nat))
    = .ok ((0, 8, 1), (0, 0, 0)) := by decide +kernel

end Verif

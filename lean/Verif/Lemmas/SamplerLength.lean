import Verif.Lemmas.SamplerTotal

/-!
# The number of rows that `sample_simplex` returns, without assumptions on its arguments
-/

namespace Verif

theorem addSamples_length {pairs : List ((Nat × Nat) × Nat)} {count : Nat} {X V : List Row} {vw : Option (List ℚ)} {out : List Row}
    (h : addSamples pairs count X V vw = .ok out) : out.length = count * (pairs.filter (fun pc => pc.2 == count)).length := by
  unfold addSamples at h
  obtain ⟨rows, hrows, h⟩ := bind_ok.1 h
  have h := pure_ok.1 h
  subst h
  have := mapM_ok_length hrows
  rw [List.length_map] at this
  simp [List.length_flatMap, this]

theorem deterministicSamplesDim2_length {X : List Row} {sel : List (List Nat)} {Xv : Option (List Row)} {same : Bool} {vw : Option (List ℚ)}
    {out : List Row} (h : deterministicSamplesDim2 X sel Xv same vw = .ok out) : out.length = sel.length := by
  unfold deterministicSamplesDim2 at h
  rw [bind_ok] at h
  obtain ⟨pairs, hpairs, h⟩ := h
  simp only at h
  rw [bind_ok] at h
  obtain ⟨parts, hparts, h⟩ := h
  simp only [pure_ok] at h
  subst h
  set sorted : Bool := Xv.isNone || same with hsorted
  set pairs' : List (Nat × Nat) :=
    if sorted = true then pairs.map (fun p => (min p.1 p.2, max p.1 p.2)) else pairs with hp'
  have hlen' : pairs'.length = sel.length := by
    have := mapM_ok_length hpairs
    rw [hp']; split <;> simp [this]
  set uc : List ((Nat × Nat) × Nat) :=
    (npUniqueCounts (pairs'.map (fun p => toLex p))).map (fun vc => (ofLex vc.1, vc.2)) with huc
  have hsum : (uc.map Prod.snd).sum = sel.length := by
    rw [huc, List.map_map]
    have := sum_npUnique_counts (pairs'.map (fun p => (toLex p : Nat ×ₗ Nat)))
    unfold npUniqueCounts
    rw [List.map_map]
    rw [List.length_map, hlen'] at this
    rw [← this]
    rfl
  rw [mapM_flatten_length hparts (g := fun c => c * (uc.filter (fun pc => pc.2 == c)).length) (fun c b hb => addSamples_length hb)]
  rw [← hsum]
  have hcnt : ∀ c, (uc.filter (fun pc => pc.2 == c)).length = (uc.map Prod.snd).count c := by
    have : ∀ (l : List ((Nat × Nat) × Nat)) (c : Nat),
        (l.filter (fun pc => pc.2 == c)).length = (l.map Prod.snd).count c := by
      intro l c
      rw [← List.countP_eq_length_filter, List.count, List.countP_map]
      rfl
    exact this uc
  simp only [hcnt]
  apply sum_mul_count
  · exact List.Nodup.filter _ (List.nodup_range' (step := 1))
  · intro c hc hpos
    rw [List.mem_filter]
    refine ⟨?_, by simpa using hc⟩
    rw [List.mem_range'_1]
    have := foldr_max_ge hc
    omega

/-- `sample_simplex` returns the asked-for number of rows, if it returns. -/
theorem sampleSimplex_length {ss : SSParams} {vol : List Row → ℚ} {dr : Draws} {d : Nat} {X : List Row} {indices : List (List Nat)} {k n : Nat}
    {a : SSArgs} {out : List Row} (h : sampleSimplex ss vol dr d X indices k n a = .ok out) : out.length = n := by
  unfold sampleSimplex at h
  split at h
  · rename_i hn
    simp only [pure_ok] at h
    subst h
    simp [hn]
  · simp only at h
    rw [bind_ok] at h
    obtain ⟨sel, hsel, h⟩ := h
    obtain ⟨hl, _, hsh⟩ := simplicesSel_sound hsel
    cases hw : ss.within with
    | random =>
      rw [hw] at h
      simp only at h
      rw [bind_ok] at h
      obtain ⟨samples, hsam, h⟩ := h
      simp only [pure_ok] at h
      rw [← h, addGaussianNoise_length, ← hl]
      have := mapM_ok_length hsam
      rwa [List.length_zipIdx] at this
    | deterministic =>
      rw [hw] at h
      simp only at h
      rw [bind_ok] at h
      obtain ⟨samples, hsam, h⟩ := h
      simp only [pure_ok] at h
      rw [← h, addGaussianNoise_length, ← hl]
      unfold deterministicSamples at hsam
      split at hsam
      · exact deterministicSamplesDim2_length hsam
      · split at hsam
        · exact mapM_ok_length hsam
        · cases hsam
    | unknown =>
      rw [hw] at h
      simp at h

end Verif

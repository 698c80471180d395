import Verif.Model.Smote
import Verif.Lemmas.SamplerTotal
import Verif.Lemmas.Stats

/-! # Lemmas on SMOTE -/

namespace Verif

theorem generatedFrom_inHull {d : Nat} {X V S : List Row} {indices : List (List Nat)} {x : Row}
    (h : GeneratedFrom d X V indices x) (hX : ∀ r ∈ X, r ∈ S) (hV : ∀ r ∈ V, r ∈ S) :
    InHull d S x := by
  obtain ⟨b, base, row, nb, nbrs, w, h1, _, _, h4, h5⟩ := h
  refine ⟨base :: nbrs, w, ?_, h5⟩
  intro v hv
  rcases List.mem_cons.1 hv with rfl | hv
  · exact hX _ (List.mem_of_getElem? h1)
  · obtain ⟨i, _, hi⟩ := forall2_mem_right h4 hv
    exact hV _ (List.mem_of_getElem? hi)

theorem checksFire_default (n d : Nat) : checksFire n d defaultChecks = decide (n ≤ 2) := by
  simp only [defaultChecks, checksFire]
  by_cases h : n ≤ 2
  · have : (n : ℚ) ≤ 2 := by exact_mod_cast h
    simp [h, this]
  · have : ¬ (n : ℚ) ≤ 2 := by intro hc; exact h (by exact_mod_cast hc)
    simp [h, this]

/-- Full description of a successful SMOTE call. -/
theorem smote_sound {par : SmoteParams} {vol : List Row → ℚ} {dr : Draws} {d : Nat}
    {knn : Nat → List Row → List (List Nat)} {X : List Row} {y : List Int} {X' : List Row}
    {y' : List Int} (hwf : WF d X y) (hk : KnnOK knn) (hdr : dr.OK) {s : Stats}
    (hs : classLabelStatistics y = .ok s)
    (h : smoteSample par vol dr d knn X y = .ok (X', y')) :
    (y.count s.minLabel ≤ 2 → X' = X ∧ y' = y) ∧
    (2 < y.count s.minLabel → ∃ gen : List Row,
      gen.length = requested par.proportion (y.count s.majLabel) (y.count s.minLabel) ∧
      X' = X ++ addGaussianNoise par.ss.gaussian dr.normalU gen ∧
      y' = y ++ List.replicate gen.length s.minLabel ∧
      ∀ x ∈ gen, GeneratedFrom d (selectLabel X y s.minLabel) (selectLabel X y s.minLabel)
        (knn (min (y.count s.minLabel) (par.nNeighbors + 1)) (selectLabel X y s.minLabel)) x) := by
  obtain ⟨hmin, hmaj, _⟩ := stats_min_mem hs
  unfold smoteSample sample at h
  rw [hs, ok_bind, stats_count hs hmin, checksFire_default] at h
  by_cases h2 : y.count s.minLabel ≤ 2
  · simp only [h2, decide_true, if_true, pure_ok, Prod.mk.injEq] at h
    exact ⟨fun _ => ⟨h.1.symm, h.2.symm⟩, fun h3 => by omega⟩
  · refine ⟨fun h3 => absurd h3 h2, fun _ => ?_⟩
    simp only [h2, decide_false] at h
    rw [if_neg (by simp)] at h
    unfold smoteAlg at h
    rw [stats_count hs hmin, stats_count hs hmaj, detN_eq_requested, ok_bind] at h
    set n := requested par.proportion (y.count s.majLabel) (y.count s.minLabel) with hn
    split at h
    · rename_i h0
      simp only [pure_ok, Prod.mk.injEq] at h
      refine ⟨[], by simp [h0], ?_, by simp [h.2], by simp⟩
      cases par.ss.gaussian <;> simp [addGaussianNoise, h.1]
    · simp only at h
      rw [bind_ok] at h
      obtain ⟨out, hout, h⟩ := h
      simp only [pure_ok, Prod.mk.injEq] at h
      have hl := selectLabel_length hwf.1 s.minLabel
      have hX : ∀ r ∈ selectLabel X y s.minLabel, r.length = d :=
        fun r hr => hwf.2 r (selectLabel_mem hr)
      have hkk := hk (min (selectLabel X y s.minLabel).length (par.nNeighbors + 1))
        (selectLabel X y s.minLabel) (by omega)
      obtain ⟨gen, g1, g2, g3⟩ := sampleSimplex_sound hX (by intro V hV; cases hV)
        (by intro V hV; cases hV) (by intro hV; cases hV) (fun i j => (hdr.simplex i j).1)
        (le_of_eq hkk.1) hout
      refine ⟨gen, g1, by rw [← h.1, g3], by rw [← h.2, g1], ?_⟩
      rw [hl] at g2
      exact g2

end Verif

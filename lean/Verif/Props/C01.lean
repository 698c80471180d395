import Verif.Lemmas.Smote
import Verif.Lemmas.SmoteExample

/-!
# C01 Oversampling keeps the original data and adds only minority rows
-/

namespace Verif

/-- Every successful SMOTE call returns the input rows and labels as a prefix, followed by as many
minority-labelled rows as there are new labels. -/
theorem C01_smote_extends_input {par : SmoteParams} {vol : List Row → ℚ} {dr : Draws} {d : Nat}
    {knn : Nat → List Row → List (List Nat)} {X : List Row} {y : List Int} {X' : List Row}
    {y' : List Int} {a b : Int} (hwf : WF d X y) (hk : KnnOK knn) (hdr : dr.OK)
    (hmin : IsMinority y a b) (h : smoteSample par vol dr d knn X y = .ok (X', y')) :
    ∃ n, Extends X y a n X' y' ∧ X'.length = y'.length := by
  obtain ⟨s, hs, rfl, rfl⟩ := stats_of_isMinority hmin
  obtain ⟨h1, h2⟩ := smote_sound hwf hk hdr hs h
  by_cases hc : y.count s.minLabel ≤ 2
  · obtain ⟨rfl, rfl⟩ := h1 hc
    exact ⟨0, ⟨[], by simp⟩, hwf.1⟩
  · obtain ⟨gen, _, g2, g3, _⟩ := h2 (by omega)
    refine ⟨gen.length, ⟨_, g2, g3, addGaussianNoise_length _ _ _⟩, ?_⟩
    rw [g2, g3]
    simp [addGaussianNoise_length, hwf.1]

/-- `fit_resample` is the same function. -/
theorem C01_fit_resample_eq_sample (checks : List Check) (d : Nat)
    (alg : Stats → List Row → List Int → Res (List Row × List Int)) (X : List Row) (y : List Int) :
    fitResample checks d alg X y = sample checks d alg X y := rfl

/-- Under the contract of its environment SMOTE does return: random selection and random
within-simplex sampling. -/
theorem C01_smote_total {par : SmoteParams} {vol : List Row → ℚ} {dr : Draws} {d : Nat}
    {knn : Nat → List Row → List (List Nat)} {X : List Row} {y : List Int} {a b : Int}
    (hwf : WF d X y) (hk : KnnOK knn) (hdr : dr.OK) (hpos : ∀ i j, 0 < dr.simplexU i j)
    (hmin : IsMinority y a b) (hd : 1 ≤ par.ss.nDim)
    (hmode : par.ss.simplexSampling = .random ∨ par.ss.simplexSampling = .deterministic ∨
      (par.ss.simplexSampling = .volume ∧ ∀ vs, 0 < vol vs))
    (hwi : par.ss.within = .random ∨ (par.ss.within = .deterministic ∧ par.ss.nDim ≤ 2)) :
    ∃ r, smoteSample par vol dr d knn X y = .ok r := by
  obtain ⟨s, hs, rfl, rfl⟩ := stats_of_isMinority hmin
  obtain ⟨hm, hM, _⟩ := stats_min_mem hs
  unfold smoteSample sample
  rw [hs, ok_bind, stats_count hs hm, checksFire_default]
  by_cases h2 : y.count s.minLabel ≤ 2
  · exact ⟨_, by simp only [h2, decide_true, if_true]; rfl⟩
  · simp only [h2, decide_false]
    rw [if_neg (by simp)]
    unfold smoteAlg
    rw [stats_count hs hm, stats_count hs hM, detN_eq_requested, ok_bind]
    split
    · exact ⟨_, rfl⟩
    · simp only
      have hl := selectLabel_length hwf.1 s.minLabel
      have hkk := hk (min (selectLabel X y s.minLabel).length (par.nNeighbors + 1))
        (selectLabel X y s.minLabel) (by omega)
      obtain ⟨out, hout⟩ := sampleSimplex_ok (ss := par.ss) (vol := vol) (dr := dr) (d := d)
        (n := requested par.proportion (y.count s.majLabel) (y.count s.minLabel))
        (a := {}) (X := selectLabel X y s.minLabel) hkk.2 (le_of_eq hkk.1)
        (by apply List.length_pos_iff.1; rw [hkk.1]; omega) (by omega) hd rfl
        (by intro ws hws; cases hws) (by intro h; cases h) hmode hdr.choice hpos
        (hwi.imp id (fun h => ⟨h.1, by have := h.2; omega⟩))
      exact ⟨_, by rw [hout, ok_bind]; rfl⟩

/-- Non-vacuity: all hypotheses hold for the concrete data set, and the call returns two new rows. -/
example : WF 2 exX exY ∧ KnnOK exKnn ∧ exDraws.OK ∧ IsMinority exY 1 0 ∧
    smoteSample exPar (fun _ => 1) exDraws 2 exKnn exX exY
      = .ok (exX ++ [[3/5, 0], [3/5, 0]], exY ++ [1, 1]) :=
  ⟨by decide, exKnn_ok, exDraws_ok, exY_min, by decide +kernel⟩

end Verif

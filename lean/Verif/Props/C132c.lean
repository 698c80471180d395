import Verif.Props.C132

/-!
# C132 Rounding of the rows of Random_SMOTE and MSMOTE: the distance to the exact rows
-/

namespace Verif

/-- The relative error of a rounded point between two points, about `5 * ε`. -/
def mixError (ε : ℚ) : ℚ := 2 * ε * (2 + ε) * (1 + ε) + ε

theorem mixError_nonneg {ε : ℚ} (h0 : 0 ≤ ε) : 0 ≤ mixError ε := by unfold mixError; positivity

/-- One coordinate. -/
theorem flMix_near {fl : ℚ → ℚ} {ε M a b u : ℚ} (hW : RoundsWithin fl ε) (h0 : 0 ≤ ε) (ha : |a| ≤ M) (hb : |b| ≤ M) (hu : 0 ≤ u ∧ u ≤ 1) :
    |fl (a + fl (fl (b - a) * u)) - (a + (b - a) * u)| ≤ mixError ε * M := by
  have hM : 0 ≤ M := (abs_nonneg a).trans ha
  have hab : |b - a| ≤ 2 * M := by rw [abs_le] at ha hb ⊢; constructor <;> linarith [ha.1, ha.2, hb.1, hb.2]
  have e1 : |fl (b - a) - (b - a)| ≤ ε * (2 * M) := (hW _).trans (mul_le_mul_of_nonneg_left hab h0)
  have e2 : |fl (b - a) * u - (b - a) * u| ≤ ε * (2 * M) := by
    rw [← sub_mul, abs_mul, abs_of_nonneg hu.1]
    exact (mul_le_of_le_one_right (abs_nonneg _) hu.2).trans e1
  have f1 : |(b - a) * u| ≤ 2 * M := by
    rw [abs_mul, abs_of_nonneg hu.1]
    exact (mul_le_of_le_one_right (abs_nonneg _) hu.2).trans hab
  have f2 : |fl (b - a) * u| ≤ 2 * M * (1 + ε) := by
    have := abs_le.1 e2
    have := abs_le.1 f1
    rw [abs_le]
    constructor <;> linarith
  have e3 : |fl (fl (b - a) * u) - (b - a) * u| ≤ 2 * M * (ε * (2 + ε)) := by
    have h := (hW (fl (b - a) * u)).trans (mul_le_mul_of_nonneg_left f2 h0)
    have h1 := abs_le.1 h
    have h2 := abs_le.1 e2
    rw [abs_le]
    constructor <;> linarith
  have g : |a + (b - a) * u| ≤ M := by
    have h1 := abs_le.1 ha
    have h2 := abs_le.1 hb
    rw [abs_le]
    constructor <;> nlinarith [hu.1, hu.2]
  have e4 : |a + fl (fl (b - a) * u)| ≤ M + 2 * M * (ε * (2 + ε)) := by
    have h1 := abs_le.1 g
    have h2 := abs_le.1 e3
    rw [abs_le]
    constructor <;> linarith
  have e5 := (hW (a + fl (fl (b - a) * u))).trans (mul_le_mul_of_nonneg_left e4 h0)
  have h1 := abs_le.1 e5
  have h2 := abs_le.1 e3
  unfold mixError
  rw [abs_le]
  constructor <;> linarith

theorem flMixRow_near {fl : ℚ → ℚ} {ε : ℚ} (hW : RoundsWithin fl ε) (h0 : 0 ≤ ε) {d : Nat} {M : Nat → ℚ} {a b : Row} {u : Nat → ℚ}
    (ha : a.length = d) (hb : b.length = d) (hMa : ∀ c, c < d → |a.getD c 0| ≤ M c) (hMb : ∀ c, c < d → |b.getD c 0| ≤ M c)
    (hu : ∀ k, 0 ≤ u k ∧ u k ≤ 1) : RowsWithin d (fun c => mixError ε * M c) (flMixRow fl a b u) (mixRow a b u) := by
  refine ⟨flMixRow_length ha hb, mixRow_length ha hb, fun c hc => ?_⟩
  rw [flMixRow_getD ha hb hc, mixRow_getD ha hb hc]
  exact flMix_near hW h0 (hMa c hc) (hMb c hc) (hu c)

/-- **Random_SMOTE: the same outcome up to rounding.** If rounding does not change the number of requested rows, Random_SMOTE raises the same
exception with and without rounding, or adds as many rows, each of them near the exact one. -/
theorem C132_random_smote_close {fl : ℚ → ℚ} {ε : ℚ} (hW : RoundsWithin fl ε) (h0 : 0 ≤ ε) {prop : ℚ} {k d : Nat} {dr : RsDraws}
    {knn : Nat → List Row → List (List Nat)} {X : List Row} {y : List Int} {a b : Int} {M : Nat → ℚ} (hwf : WF d X y) (hmin : IsMinority y a b)
    (hu1 : ∀ i j, 0 ≤ dr.u1 i j ∧ dr.u1 i j ≤ 1) (hu2 : ∀ i j, 0 ≤ dr.u2 i j ∧ dr.u2 i j ≤ 1)
    (hn : flRequested fl prop (y.count b) (y.count a) = requested prop (y.count b) (y.count a))
    (hM : ∀ r ∈ selectLabel X y a, ∀ c, c < d → |r.getD c 0| ≤ M c) :
    SameOutcome (fun r r' => r.2 = r'.2 ∧ ∃ new new', r.1 = X ++ new ∧ r'.1 = X ++ new' ∧
        List.Forall₂ (RowsWithin d (fun c => mixError ε * (2 + mixError ε) * M c)) new new')
      (sample defaultChecks d (flRandomSmoteAlg fl prop k dr knn) X y) (sample defaultChecks d (randomSmoteAlg prop k dr knn) X y) := by
  obtain ⟨s, hs, rfl, rfl⟩ := stats_of_isMinority hmin
  obtain ⟨hsm, hsM, _⟩ := stats_min_mem hs
  have hE := mixError_nonneg h0
  unfold sample
  rw [hs, ok_bind, ok_bind]
  split
  · exact .ok ⟨rfl, [], [], by simp, by simp, .nil⟩
  · unfold flRandomSmoteAlg randomSmoteAlg
    rw [stats_count hs hsm, stats_count hs hsM, flDetN_eq, detN_eq_requested, hn]
    refine SameOutcome.bind (P := fun a b => a = b) (SameOutcome.refl _ (fun _ _ => rfl)) ?_
    rintro n _ - - rfl
    split
    · exact .ok ⟨rfl, [], [], by simp, by simp, .nil⟩
    · dsimp only
      refine SameOutcome.bind (P := fun a b => a = b) (SameOutcome.refl _ (fun _ _ => rfl)) ?_
      rintro _ _ - - -
      refine SameOutcome.bind (P := fun a b => a = b) (SameOutcome.refl _ (fun _ _ => rfl)) ?_
      rintro _ _ - - -
      have hrow : ∀ i ∈ List.range n, SameOutcome (RowsWithin d (fun c => mixError ε * (2 + mixError ε) * M c))
          (flRandomSmoteRow fl dr (selectLabel X y s.minLabel) (knn (min (selectLabel X y s.minLabel).length (k + 1)) (selectLabel X y s.minLabel)) i)
          (randomSmoteRow dr (selectLabel X y s.minLabel) (knn (min (selectLabel X y s.minLabel).length (k + 1)) (selectLabel X y s.minLabel)) i) := by
        intro i _
        unfold flRandomSmoteRow randomSmoteRow
        refine SameOutcome.bind (P := fun a b => a = b) (SameOutcome.refl _ (fun _ _ => rfl)) ?_
        rintro base _ hbase - rfl
        refine SameOutcome.bind (P := fun a b => a = b) (SameOutcome.refl _ (fun _ _ => rfl)) ?_
        rintro nbs _ - - rfl
        refine SameOutcome.bind (P := fun a b => a = b) (SameOutcome.refl _ (fun _ _ => rfl)) ?_
        rintro j1 _ - - rfl
        refine SameOutcome.bind (P := fun a b => a = b) (SameOutcome.refl _ (fun _ _ => rfl)) ?_
        rintro j2 _ - - rfl
        refine SameOutcome.bind (P := fun a b => a = b) (SameOutcome.refl _ (fun _ _ => rfl)) ?_
        rintro y1 _ hy1 - rfl
        refine SameOutcome.bind (P := fun a b => a = b) (SameOutcome.refl _ (fun _ _ => rfl)) ?_
        rintro y2 _ hy2 - rfl
        have hb := getRow_mem hbase
        have h1 := getRow_mem hy1
        have h2 := getRow_mem hy2
        have lb := mem_selectLabel_length hwf hb
        have l1 := mem_selectLabel_length hwf h1
        have l2 := mem_selectLabel_length hwf h2
        obtain ⟨i1, i2, i3⟩ := flMixRow_near hW h0 l1 l2 (hM _ h1) (hM _ h2) (hu1 i)
        refine .ok ⟨flMixRow_length lb i1, mixRow_length lb i2, fun c hc => ?_⟩
        have hg : |(mixRow y1 y2 (dr.u1 i)).getD c 0| ≤ M c := by
          have b1 := abs_le.1 (hM _ h1 c hc)
          have b2 := abs_le.1 (hM _ h2 c hc)
          rw [mixRow_getD l1 l2 hc, abs_le]
          constructor <;> nlinarith [(hu1 i c).1, (hu1 i c).2]
        have hin := abs_le.1 (i3 c hc)
        have hMc : 0 ≤ M c := (abs_nonneg _).trans (hM _ hb c hc)
        have hg' : |(flMixRow fl y1 y2 (dr.u1 i)).getD c 0| ≤ (1 + mixError ε) * M c := by
          have := abs_le.1 hg
          rw [abs_le]
          constructor <;> linarith
        have hout := abs_le.1 (flMix_near hW h0 ((hM _ hb c hc).trans (by nlinarith : M c ≤ (1 + mixError ε) * M c)) hg' (hu2 i c))
        rw [flMixRow_getD lb i1 hc, mixRow_getD lb i2 hc]
        have hd : |((flMixRow fl y1 y2 (dr.u1 i)).getD c 0 - (mixRow y1 y2 (dr.u1 i)).getD c 0) * dr.u2 i c| ≤ mixError ε * M c := by
          rw [abs_mul, abs_of_nonneg (hu2 i c).1]
          exact (mul_le_of_le_one_right (abs_nonneg _) (hu2 i c).2).trans (i3 c hc)
        have hd' := abs_le.1 hd
        rw [abs_le]
        constructor <;> linarith [hout.1, hout.2, hd'.1, hd'.2]
      refine SameOutcome.bind (SameOutcome.mapM hrow) ?_
      intro new new' _ _ hnew
      refine .ok ⟨?_, new, new', rfl, rfl, hnew⟩
      show _ ++ List.replicate _ _ = _ ++ List.replicate _ _
      rw [hnew.length_eq]

/-- **MSMOTE: the same outcome up to rounding.** -/
theorem C132_msmote_close {fl : ℚ → ℚ} {ε : ℚ} (hW : RoundsWithin fl ε) (h0 : 0 ≤ ε) {prop : ℚ} {k d : Nat} {dr : MsDraws}
    {knn : Nat → List Row → List Row → List (List Nat)} {X : List Row} {y : List Int} {a b : Int} {M : Nat → ℚ} (hwf : WF d X y)
    (hmin : IsMinority y a b) (hu : ∀ i j, 0 ≤ dr.u i j ∧ dr.u i j ≤ 1)
    (hn : flRequested fl prop (y.count b) (y.count a) = requested prop (y.count b) (y.count a))
    (hM : ∀ r ∈ X, ∀ c, c < d → |r.getD c 0| ≤ M c) :
    SameOutcome (fun r r' => r.2 = r'.2 ∧ ∃ new new', r.1 = X ++ new ∧ r'.1 = X ++ new' ∧
        List.Forall₂ (RowsWithin d (fun c => mixError ε * M c)) new new')
      (sample defaultChecks d (flMsmoteAlg fl prop k dr knn) X y) (sample defaultChecks d (msmoteAlg prop k dr knn) X y) := by
  obtain ⟨s, hs, rfl, rfl⟩ := stats_of_isMinority hmin
  obtain ⟨hsm, hsM, _⟩ := stats_min_mem hs
  unfold sample
  rw [hs, ok_bind, ok_bind]
  split
  · exact .ok ⟨rfl, [], [], by simp, by simp, .nil⟩
  · unfold flMsmoteAlg msmoteAlg
    rw [stats_count hs hsm, stats_count hs hsM, flDetN_eq, detN_eq_requested, hn]
    refine SameOutcome.bind (P := fun a b => a = b) (SameOutcome.refl _ (fun _ _ => rfl)) ?_
    rintro n _ - - rfl
    split
    · exact .ok ⟨rfl, [], [], by simp, by simp, .nil⟩
    · dsimp only
      refine SameOutcome.bind (P := fun a b => a = b) (SameOutcome.refl _ (fun _ _ => rfl)) ?_
      rintro types _ - - rfl
      split
      · exact .ok ⟨rfl, [], [], by simp, by simp, .nil⟩
      refine SameOutcome.bind (P := fun a b => a = b) (SameOutcome.refl _ (fun _ _ => rfl)) ?_
      rintro _ _ - - -
      refine SameOutcome.bind (SameOutcome.mapM (P := RowsWithin d (fun c => mixError ε * M c)) ?_) ?_
      · intro i _
        unfold flMsmoteRow msmoteRow
        refine SameOutcome.bind (P := fun a b => a = b) (SameOutcome.refl _ (fun _ _ => rfl)) ?_
        rintro it _ hit - rfl
        refine SameOutcome.bind (P := fun a b => a = b) (SameOutcome.refl _ (fun _ _ => rfl)) ?_
        rintro j _ - - rfl
        refine SameOutcome.bind (P := fun a b => a = b) (SameOutcome.refl _ (fun _ _ => rfl)) ?_
        rintro nb _ hnb - rfl
        have hit' := getRow_mem hit
        rw [List.mem_filter, List.mem_map] at hit'
        obtain ⟨⟨⟨r, q⟩, hp, rfl⟩, -⟩ := hit'
        have hr := (List.of_mem_zip hp).1
        have hrX := selectLabel_mem hr
        have hnX := getRow_mem hnb
        exact .ok (flMixRow_near hW h0 (hwf.2 _ hrX) (hwf.2 _ hnX) (hM _ hrX) (hM _ hnX) (hu i))
      · intro new new' _ _ hnew
        refine .ok ⟨?_, new, new', rfl, rfl, hnew⟩
        show _ ++ List.replicate _ _ = _ ++ List.replicate _ _
        rw [hnew.length_eq]

/-- The bounds are small, for 53 digits about `5 / 2 ^ 53` and `10 / 2 ^ 53`. -/
example : mixError (1 / 2 ^ 53) < 6 / 2 ^ 53 ∧ mixError (1 / 2 ^ 53) * (2 + mixError (1 / 2 ^ 53)) < 12 / 2 ^ 53 := by
  unfold mixError
  norm_num

/-- Draws for both methods; with doubles two rows are added to the example of C01. -/
example : WF 2 exX exY ∧ IsMinority exY 1 0 ∧
    flRequested (binaryFl 53) 1 (exY.count 0) (exY.count 1) = requested 1 (exY.count 0) (exY.count 1) ∧
    (sample defaultChecks 2 (flRandomSmoteAlg (binaryFl 53) 1 2 ⟨fun i => i, fun _ => 1, fun _ => 2, fun _ _ => 1 / 3, fun _ _ => 1 / 7⟩ exKnn) exX exY).toOption.map (fun r => r.2.count 1) = some 5 ∧
    (sample defaultChecks 2 (flMsmoteAlg (binaryFl 53) 1 2 ⟨fun i => i, fun _ => 1, fun _ _ => 1 / 3⟩
      (fun k _ Q => Q.map (fun _ => List.range k))) exX exY).toOption.map (fun r => r.2.count 1) = some 5 :=
  ⟨⟨by decide, by decide⟩, by unfold IsMinority; decide, by decide +kernel, by decide +kernel, by decide +kernel⟩

end Verif

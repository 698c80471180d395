import Verif.Lemmas.Smote
import Verif.Lemmas.SmoteExample

/-!
# C02 The number of synthetic samples is exactly the requested share of the class gap
-/

namespace Verif

/-- SMOTE adds exactly `trunc((n_maj - n_min) * proportion)` rows (never a negative number) when the
minority class has more than two rows. -/
theorem C02_smote_exact_count {par : SmoteParams} {vol : List Row → ℚ} {dr : Draws} {d : Nat}
    {knn : Nat → List Row → List (List Nat)} {X : List Row} {y : List Int} {X' : List Row}
    {y' : List Int} {a b : Int} (hwf : WF d X y) (hk : KnnOK knn) (hdr : dr.OK)
    (hmin : IsMinority y a b) (h2 : 2 < y.count a)
    (h : smoteSample par vol dr d knn X y = .ok (X', y')) :
    Extends X y a (requested par.proportion (y.count b) (y.count a)) X' y' ∧
    y'.count a = y.count a + requested par.proportion (y.count b) (y.count a) ∧
    y'.count b = y.count b := by
  obtain ⟨s, hs, rfl, rfl⟩ := stats_of_isMinority hmin
  obtain ⟨gen, g1, g2, g3, _⟩ := (smote_sound hwf hk hdr hs h).2 h2
  have hne := (stats_min_mem hs).2.2
  refine ⟨⟨_, g2, by rw [g3, g1], by rw [addGaussianNoise_length, g1]⟩, ?_, ?_⟩
  · rw [g3, List.count_append, List.count_replicate_self, g1]
  · rw [g3, List.count_append, List.count_replicate]
    simp [hne]

/-- `proportion = 1` balances the classes exactly. -/
theorem C02_smote_balances {par : SmoteParams} {vol : List Row → ℚ} {dr : Draws} {d : Nat}
    {knn : Nat → List Row → List (List Nat)} {X : List Row} {y : List Int} {X' : List Row}
    {y' : List Int} {a b : Int} (hwf : WF d X y) (hk : KnnOK knn) (hdr : dr.OK)
    (hmin : IsMinority y a b) (h2 : 2 < y.count a) (hp : par.proportion = 1)
    (h : smoteSample par vol dr d knn X y = .ok (X', y')) : y'.count a = y'.count b := by
  obtain ⟨_, h3, h4⟩ := C02_smote_exact_count hwf hk hdr hmin h2 h
  rw [h3, h4, hp]
  have hle : y.count a ≤ y.count b := by have := hmin.2.2.2; omega
  unfold requested
  rw [mul_one]
  have : (y.count b : ℚ) - (y.count a : ℚ) = (((y.count b : ℤ) - (y.count a : ℤ) : ℤ) : ℚ) := by
    push_cast; ring
  rw [this, Int.floor_intCast]
  omega

/-- For `proportion ∈ [0, 1]` the minority class never outgrows the majority class. -/
theorem C02_smote_never_outgrows {par : SmoteParams} {vol : List Row → ℚ} {dr : Draws} {d : Nat}
    {knn : Nat → List Row → List (List Nat)} {X : List Row} {y : List Int} {X' : List Row}
    {y' : List Int} {a b : Int} (hwf : WF d X y) (hk : KnnOK knn) (hdr : dr.OK)
    (hmin : IsMinority y a b) (h2 : 2 < y.count a) (hp : par.proportion ≤ 1)
    (h : smoteSample par vol dr d knn X y = .ok (X', y')) : y'.count a ≤ y'.count b := by
  obtain ⟨_, h3, h4⟩ := C02_smote_exact_count hwf hk hdr hmin h2 h
  rw [h3, h4]
  have hle : y.count a ≤ y.count b := by have := hmin.2.2.2; omega
  have hq : ((y.count b : ℚ) - (y.count a : ℚ)) * par.proportion ≤
      (((y.count b : ℤ) - (y.count a : ℤ) : ℤ) : ℚ) := by
    push_cast
    have h0 : (0:ℚ) ≤ (y.count b : ℚ) - (y.count a : ℚ) := by
      have : (y.count a : ℚ) ≤ y.count b := by exact_mod_cast hle
      linarith
    nlinarith
  have := Int.floor_le_floor hq
  rw [Int.floor_intCast] at this
  unfold requested
  omega

/-- The requested count is monotone in `proportion` (for a non-negative class gap), and is
`trunc((n_maj - n_min) * p)` truncated below at zero in the model of the code. -/
theorem C02_count_monotone {nMaj nMin : Nat} (h : nMin ≤ nMaj) {p q : ℚ} (hpq : p ≤ q) :
    ∃ m n, detNToSample (.num p) nMaj nMin = .ok m ∧ detNToSample (.num q) nMaj nMin = .ok n ∧
      m ≤ n := by
  refine ⟨_, _, detN_eq_requested, detN_eq_requested, ?_⟩
  unfold requested
  have h0 : (0:ℚ) ≤ (nMaj : ℚ) - (nMin : ℚ) := by
    have : (nMin : ℚ) ≤ nMaj := by exact_mod_cast h
    linarith
  have := Int.floor_le_floor (mul_le_mul_of_nonneg_left hpq h0)
  omega

/-- The count computed by the code: for every numeric strategy the result is the unique natural number
`n` with `n ≤ gap * p < n + 1`, or zero when `gap * p < 1`. -/
theorem C02_count_characterised (p : ℚ) (nMaj nMin : Nat) :
    ∃ n, detNToSample (.num p) nMaj nMin = .ok n ∧
      (((nMaj : ℚ) - nMin) * p < 1 → n = 0) ∧
      (1 ≤ ((nMaj : ℚ) - nMin) * p →
        (n : ℚ) ≤ ((nMaj : ℚ) - nMin) * p ∧ ((nMaj : ℚ) - nMin) * p < n + 1) := by
  refine ⟨_, detN_eq_requested, ?_, ?_⟩
  · intro h
    unfold requested
    have : ⌊((nMaj : ℚ) - nMin) * p⌋ < 1 := Int.floor_lt.2 (by simpa using h)
    omega
  · intro h
    unfold requested
    set z := ((nMaj : ℚ) - nMin) * p
    have h1 : 1 ≤ ⌊z⌋ := Int.le_floor.2 (by simpa using h)
    have h2 : ((⌊z⌋.toNat : ℕ) : ℚ) = (⌊z⌋ : ℚ) := by
      have : ((⌊z⌋.toNat : ℕ) : ℤ) = ⌊z⌋ := by omega
      exact_mod_cast this
    rw [h2]
    exact ⟨Int.floor_le z, Int.lt_floor_add_one z⟩

/-- A strategy that is not a number is rejected. -/
theorem C02_unknown_strategy (nMaj nMin : Nat) :
    detNToSample .other nMaj nMin = .error .valueError := rfl

/-- Non-vacuity: the hypotheses hold for the concrete data set; two rows are requested and added. -/
example : 2 < exY.count 1 ∧ requested exPar.proportion (exY.count 0) (exY.count 1) = 2 ∧
    (smoteSample exPar (fun _ => 1) exDraws 2 exKnn exX exY).isOk = true := by decide +kernel
example : detNToSample (.num (3/10)) 11 4 = .ok 2 ∧ detNToSample (.num (-1)) 11 4 = .ok 0 := by
  decide +kernel

end Verif

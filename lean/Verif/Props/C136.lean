import Verif.Model.RoundedSafe
import Verif.Spec.RoundedSafe
import Verif.Props.C132c
import Verif.Props.C133

/-!
# C136: Safe_Level_SMOTE with the rounding of the machine
-/

namespace Verif

/-! ## The factor -/

theorem binaryFl_gap {p : Nat} (hp : 1 ≤ p) : GapAboveOne (binaryFl p) (1 / 2 ^ p) := by
  intro x hx
  have h1 : binaryFl p 1 = 1 := by
    refine binaryFl_of_isBinary hp (Or.inr ⟨0, 2 ^ (p - 1), ?_, by norm_num, by norm_num⟩)
    push_cast
    rw [← zpow_natCast, ← zpow_add₀ (by norm_num), Nat.cast_sub hp]
    norm_num
  have hx1 : 1 < x := by
    by_contra hc
    have := fl_mono (binaryFl_nearest hp) (not_lt.1 hc)
    rw [h1] at this
    linarith
  have hx0 : x ≠ 0 := by linarith
  obtain ⟨b1, b2⟩ := log_bounds hx0
  have he : 0 ≤ Int.log 2 |x| := by
    rw [abs_of_pos (by linarith)] at b2 ⊢
    by_contra hc
    have : (2 : ℚ) ^ (Int.log 2 x + 1) ≤ 2 ^ (0 : ℤ) := zpow_le_zpow_right₀ (by norm_num) (by omega)
    rw [zpow_zero] at this
    linarith
  rw [binaryFl_eq b1 b2] at hx ⊢
  set e := Int.log 2 |x| with hee
  obtain ⟨n, hn⟩ : ∃ n : Nat, e = n := ⟨e.toNat, (Int.toNat_of_nonneg he).symm⟩
  clear_value e
  subst hn
  have hq : (2 : ℚ) ^ ((n : ℤ) - p + 1) = 2 ^ n * (2 / 2 ^ p) := by
    rw [zpow_add₀ (by norm_num), zpow_sub₀ (by norm_num), zpow_natCast, zpow_natCast]
    field_simp
  have h2 : (0 : ℚ) < 2 / 2 ^ p := by positivity
  have one : (1 : ℚ) = ((2 ^ (p - 1) : ℤ) : ℚ) * (2 / 2 ^ p) := by
    obtain ⟨m, rfl⟩ : ∃ m, p = m + 1 := ⟨p - 1, by omega⟩
    push_cast
    rw [pow_succ]
    field_simp
  have val : ∀ r : ℤ, (r : ℚ) * (2 ^ n * (2 / 2 ^ p)) = ((r * 2 ^ n : ℤ) : ℚ) * (2 / 2 ^ p) := by
    intro r; push_cast; ring
  rw [hq, val] at hx ⊢
  generalize round (x / (2 ^ n * (2 / 2 ^ p))) * 2 ^ n = K at hx ⊢
  have hK : (2 ^ (p - 1) : ℤ) < K := by
    by_contra hc
    have : ((K : ℤ) : ℚ) ≤ ((2 ^ (p - 1) : ℤ) : ℚ) := by exact_mod_cast not_lt.1 hc
    have := mul_le_mul_of_nonneg_right this h2.le
    rw [← one] at this
    linarith
  have hK' : ((2 ^ (p - 1) : ℤ) : ℚ) + 1 ≤ K := by exact_mod_cast hK
  have := mul_le_mul_of_nonneg_right hK' h2.le
  rw [add_mul, ← one] at this
  have e2 : 2 * (1 / 2 ^ p : ℚ) = 1 * (2 / 2 ^ p) := by ring
  rw [e2]
  exact this

theorem flSafeGap_range {fl : ℚ → ℚ} {ε : ℚ} (hA : RoundsToNearest fl) (hW : RoundsWithin fl ε) (h0 : 0 ≤ ε) (hG : GapAboveOne fl ε) {N : Nat}
    (hN : ExactUpTo fl N) (hN1 : 1 ≤ N) {slp sln : Nat} (hp : slp ≤ N) (hn : sln ≤ N) {u : ℚ} (hu0 : 0 ≤ u) (hu1 : u ≤ 1) :
    0 ≤ flSafeGap fl slp sln u ∧ flSafeGap fl slp sln u ≤ 1 := by
  have f0 : fl 0 = 0 := fl_zero hW
  have f1 : fl 1 = 1 := by have := hN 1 hN1; push_cast at this; exact this
  have nn : ∀ {x}, 0 ≤ x → 0 ≤ fl x := fun {x} hx => by have := fl_mono hA hx; rwa [f0] at this
  have le1 : ∀ {x}, x ≤ 1 → fl x ≤ 1 := fun {x} hx => by have := fl_mono hA hx; rwa [f1] at this
  unfold flSafeGap
  dsimp only
  have hg0 : 0 ≤ u * (if sln = 0 ∧ slp > 0 then 0 else 1) := by split <;> linarith
  have hg1 : u * (if sln = 0 ∧ slp > 0 then 0 else 1) ≤ 1 := by split <;> linarith
  set g := u * (if sln = 0 ∧ slp > 0 then (0 : ℚ) else 1) with hg
  clear_value g
  have part : ∀ {a b : Nat}, a ≤ N → a < b → 0 ≤ fl (fl (g * a) / b) ∧ fl (fl (g * a) / b) ≤ fl ((a : ℚ) / b) := by
    intro a b ha hab
    have hb : (0 : ℚ) < b := by exact_mod_cast (by omega : 0 < b)
    have ha0 : (0 : ℚ) ≤ a := by positivity
    have h1 : 0 ≤ fl (g * a) := nn (mul_nonneg hg0 ha0)
    have h2 : fl (g * a) ≤ a := by
      have := fl_mono hA (show g * (a : ℚ) ≤ a by nlinarith)
      rwa [hN a ha] at this
    exact ⟨nn (div_nonneg h1 hb.le), fl_mono hA (div_le_div_of_nonneg_right h2 hb.le)⟩
  have quot : ∀ {a b : Nat}, a < b → 0 ≤ (a : ℚ) / b ∧ (a : ℚ) / b ≤ 1 := by
    intro a b hab
    have hb : (0 : ℚ) < b := by exact_mod_cast (by omega : 0 < b)
    exact ⟨by positivity, by rw [div_le_one hb]; exact_mod_cast hab.le⟩
  rcases lt_trichotomy slp sln with h | h | h
  · rw [if_pos h, if_neg (show ¬ slp > sln by omega)]
    obtain ⟨p1, p2⟩ := part hp h
    obtain ⟨q1, q2⟩ := quot h
    set r := fl ((slp : ℚ) / sln) with hr
    have r0 : 0 ≤ r := nn q1
    have r1 : r ≤ 1 := le1 q2
    have B0 : 0 ≤ fl (1 - r) := nn (by linarith)
    refine ⟨nn (by linarith), ?_⟩
    have hB := hW (1 - r)
    rw [abs_of_nonneg (show 0 ≤ 1 - r by linarith)] at hB
    have hB' := (abs_le.1 hB).2
    by_contra hc
    push Not at hc
    have big := hG _ hc
    set x := fl (fl (g * slp) / sln) + fl (1 - r) with hx
    have x1 : 1 < x := by
      by_contra hx1
      exact absurd hc (not_lt.2 (le1 (not_lt.1 hx1)))
    have rpos : 0 < r := by
      rcases r0.lt_or_eq with h | h
      · exact h
      · exfalso
        rw [← h, sub_zero, f1] at hx
        linarith
    have xle : x ≤ 1 + ε * (1 - r) := by linarith
    have near := hA x 1
    rw [f1, abs_of_pos (show 0 < x - 1 by linarith)] at near
    have near' := (abs_le.1 near).1
    have εpos : 0 < ε := by
      rcases h0.lt_or_eq with h | h
      · exact h
      · rw [← h] at xle; linarith
    have : 0 < ε * r := mul_pos εpos rpos
    linarith
  · subst h
    rw [if_neg (lt_irrefl _), if_neg (lt_irrefl _)]
    exact ⟨hg0, hg1⟩
  · rw [if_neg (show ¬ slp < sln by omega), if_pos h]
    obtain ⟨p1, p2⟩ := part hn h
    exact ⟨p1, p2.trans (le1 (quot h).2)⟩

/-- A base which is at least as safe as its neighbour: the factor is at most the largest random number. -/
theorem flSafeGap_safe {fl : ℚ → ℚ} {U : ℚ} (hA : RoundsToNearest fl) (f0 : fl 0 = 0) {N : Nat} (hN : ExactUpTo fl N) (hUf : fl U = U)
    (hU1 : U ≤ 1) (hUN : (N : ℚ) * (1 - U) ≤ 1) {slp sln : Nat} (hp : slp ≤ N) (hle : sln ≤ slp) {u : ℚ} (hu0 : 0 ≤ u) (hu1 : u ≤ U) :
    0 ≤ flSafeGap fl slp sln u ∧ flSafeGap fl slp sln u ≤ U := by
  have nn : ∀ {x}, 0 ≤ x → 0 ≤ fl x := fun {x} hx => by have := fl_mono hA hx; rwa [f0] at this
  unfold flSafeGap
  dsimp only
  rw [if_neg (show ¬ slp < sln by omega)]
  have hg0 : 0 ≤ u * (if sln = 0 ∧ slp > 0 then 0 else 1) := by split <;> linarith
  have hg1 : u * (if sln = 0 ∧ slp > 0 then 0 else 1) ≤ U := by split <;> linarith
  set g := u * (if sln = 0 ∧ slp > 0 then (0 : ℚ) else 1) with hg
  clear_value g
  split
  · rename_i h
    have hs : (0 : ℚ) < slp := by exact_mod_cast (by omega : 0 < slp)
    have hn0 : (0 : ℚ) ≤ sln := by positivity
    have h1 : 0 ≤ fl (g * sln) := nn (mul_nonneg hg0 hn0)
    have h2 : fl (g * sln) ≤ sln := by
      have := fl_mono hA (show g * (sln : ℚ) ≤ sln by nlinarith)
      rwa [hN sln (by omega)] at this
    refine ⟨nn (div_nonneg h1 hs.le), ?_⟩
    rw [← hUf]
    apply fl_mono hA
    rw [div_le_iff₀ hs]
    have h3 : (sln : ℚ) + 1 ≤ slp := by exact_mod_cast h
    have h4 : (slp : ℚ) ≤ N := by exact_mod_cast hp
    nlinarith
  · exact ⟨hg0, hg1⟩

theorem flSafeGap_zero {fl : ℚ → ℚ} (f0 : fl 0 = 0) {slp : Nat} (h : 0 < slp) (u : ℚ) : flSafeGap fl slp 0 u = 0 := by
  unfold flSafeGap
  simp [h, f0]

theorem flSafeGap_one {fl : ℚ → ℚ} (f0 : fl 0 = 0) (f1 : fl 1 = 1) {sln : Nat} (h : 0 < sln) (u : ℚ) : flSafeGap fl 0 sln u = 1 := by
  unfold flSafeGap
  simp [h, f0, f1]

theorem flSafeGap_near {fl : ℚ → ℚ} {ε : ℚ} (hW : RoundsWithin fl ε) (h0 : 0 ≤ ε) {slp sln : Nat} {u : ℚ} (hu0 : 0 ≤ u) (hu1 : u ≤ 1) :
    |flSafeGap fl slp sln u - safeGap slp sln u| ≤ safeGapError ε := by
  unfold flSafeGap safeGap
  dsimp only
  have hg0 : 0 ≤ u * (if sln = 0 ∧ slp > 0 then 0 else 1) := by split <;> linarith
  have hg1 : u * (if sln = 0 ∧ slp > 0 then 0 else 1) ≤ 1 := by split <;> linarith
  set g := u * (if sln = 0 ∧ slp > 0 then (0 : ℚ) else 1) with hg
  clear_value g
  have e2 : 0 ≤ ε ^ 2 := by positivity
  have e3 : 0 ≤ ε ^ 3 := by positivity
  have part : ∀ {a b : Nat}, a < b → |fl (fl (g * a) / b) - g * a / b| ≤ 2 * ε + ε ^ 2 ∧ 0 ≤ g * a / b ∧ g * a / b ≤ (a : ℚ) / b := by
    intro a b hab
    have hb : (0 : ℚ) < b := by exact_mod_cast (by omega : 0 < b)
    have ha0 : (0 : ℚ) ≤ a := by positivity
    have hab' : (a : ℚ) / b ≤ 1 := by rw [div_le_one hb]; exact_mod_cast hab.le
    have q0 : 0 ≤ g * a / b := by positivity
    have q1 : g * a / b ≤ (a : ℚ) / b := div_le_div_of_nonneg_right (by nlinarith) hb.le
    have h1 := hW (g * a)
    rw [abs_of_nonneg (mul_nonneg hg0 ha0)] at h1
    have h2 : |fl (g * a) / b - g * a / b| ≤ ε := by
      rw [← sub_div, abs_div, abs_of_pos hb, div_le_iff₀ hb]
      refine h1.trans (mul_le_mul_of_nonneg_left ?_ h0)
      have : (a : ℚ) ≤ b := by exact_mod_cast hab.le
      nlinarith
    have h2' := abs_le.1 h2
    have h3 := hW (fl (g * a) / b)
    have h4 : |fl (g * a) / b| ≤ 1 + ε := by rw [abs_le]; constructor <;> linarith
    have h5 := abs_le.1 (h3.trans (mul_le_mul_of_nonneg_left h4 h0))
    refine ⟨?_, q0, q1⟩
    rw [abs_le]
    constructor <;> nlinarith
  rcases lt_trichotomy slp sln with h | h | h
  · rw [if_neg (show ¬ slp > sln by omega), if_neg (show ¬ slp > sln by omega), if_pos h, if_pos h]
    obtain ⟨p1, p2, p3⟩ := part h
    have hs : (0 : ℚ) < sln := by exact_mod_cast (by omega : 0 < sln)
    have r0 : 0 ≤ (slp : ℚ) / sln := by positivity
    have r1 : (slp : ℚ) / sln ≤ 1 := by rw [div_le_one hs]; exact_mod_cast h.le
    set r := (slp : ℚ) / sln with hr
    have hr1 := hW r
    rw [abs_of_nonneg r0] at hr1
    have hr2 := abs_le.1 hr1
    have hB := hW (1 - fl r)
    have hB1 : |1 - fl r| ≤ 1 - r + ε * r := by rw [abs_le]; constructor <;> nlinarith
    have hB2 := abs_le.1 (hB.trans (mul_le_mul_of_nonneg_left hB1 h0))
    have hBn : |fl (1 - fl r) - (1 - r)| ≤ ε + ε ^ 2 := by
      have : ε * (ε * r) ≤ ε ^ 2 := by nlinarith [mul_nonneg h0 h0]
      rw [abs_le]
      constructor <;> nlinarith
    have hB3 := abs_le.1 hBn
    have p1' := abs_le.1 p1
    have hx := hW (fl (fl (g * slp) / sln) + fl (1 - fl r))
    have hx1 : |fl (fl (g * slp) / sln) + fl (1 - fl r)| ≤ 1 + 3 * ε + 2 * ε ^ 2 := by
      rw [abs_le]; constructor <;> linarith
    have hx2 := abs_le.1 (hx.trans (mul_le_mul_of_nonneg_left hx1 h0))
    unfold safeGapError
    rw [abs_le]
    constructor <;> nlinarith
  · subst h
    rw [if_neg (lt_irrefl _), if_neg (lt_irrefl _), if_neg (lt_irrefl _), if_neg (lt_irrefl _), sub_self, abs_zero]
    unfold safeGapError
    positivity
  · rw [if_neg (show ¬ slp < sln by omega), if_neg (show ¬ slp < sln by omega), if_pos h, if_pos h]
    refine (part h).1.trans ?_
    unfold safeGapError
    nlinarith
/-! ## The rows -/

/-- How `Safe_Level_SMOTE` makes a row with rounding: base and neighbour are as without rounding. The row is between them up to `δ`, and exactly
between them if the base is at least as safe as the neighbour. A neighbour of level zero leaves the base as it is, and a base of level zero is
replaced by its neighbour up to `δ`. -/
def RoundedSafeLevelRow (d : Nat) (δ : Nat → ℚ) (X : List Row) (y : List Int) (l : Int) (indices : List (List Nat)) (x : Row) : Prop :=
  ∃ (p q : Nat) (base nb : Row) (np nq : List Nat),
    y[p]? = some l ∧ X[p]? = some base ∧ X[q]? = some nb ∧ indices[p]? = some np ∧ indices[q]? = some nq ∧ q ∈ np.drop 1 ∧
    NearlyBetween d δ base nb x ∧ ¬ (levelOf y l np = 0 ∧ levelOf y l nq = 0) ∧
    (levelOf y l nq ≤ levelOf y l np → Between d base nb x) ∧
    (levelOf y l nq = 0 → x = base) ∧ (levelOf y l np = 0 → RowsWithin d δ x nb)

theorem flMixRow_zero {fl : ℚ → ℚ} (f0 : fl 0 = 0) {d : Nat} {a b : Row} {u : Nat → ℚ} (ha : a.length = d) (hb : b.length = d)
    (hr : ∀ x ∈ a, fl x = x) (hu : ∀ k, u k = 0) : flMixRow fl a b u = a := by
  apply row_ext (flMixRow_length ha hb) ha
  intro k hk
  rw [flMixRow_getD ha hb hk, hu, mul_zero, f0, add_zero]
  exact getD_representable ha hr hk

theorem levelOf_le (y : List Int) (l : Int) (nbs : List Nat) : levelOf y l nbs ≤ nbs.length - 1 := by
  unfold levelOf
  exact (List.length_filter_le _ _).trans (by simp)

/-- **Safe_Level_SMOTE with rounding.** The number of rows is the requested one, and every new row is made from a minority row and one of its
neighbours as the levels say: exactly where the base is at least as safe as the neighbour, and up to the error of one rounded point otherwise. -/
theorem C136_safe_level {fl : ℚ → ℚ} {ε U : ℚ} (hA : RoundsToNearest fl) (hW : RoundsWithin fl ε) (h0 : 0 ≤ ε) (hG : GapAboveOne fl ε)
    {prop : ℚ} {k d : Nat} (hN : ExactUpTo fl (k + 1)) (hU : Shrinks fl U) (hUf : fl U = U) (hU1 : U ≤ 1) (hUN : ((k : ℚ) + 1) * (1 - U) ≤ 1)
    {dr : SlDraws} {knn : Nat → List Row → List (List Nat)} {X X' : List Row} {y y' : List Int} {a b : Int} {M : Nat → ℚ}
    (hwf : WF d X y) (hmin : IsMinority y a b) (hknn : KnnOK knn) (hX : Representable fl X)
    (hu : ∀ i j, 0 ≤ dr.u i j ∧ dr.u i j ≤ U) (hM : ∀ r ∈ X, ∀ c, c < d → |r.getD c 0| ≤ M c)
    (h : sample defaultChecks d (flSafeLevelAlg fl prop k dr knn) X y = .ok (X', y')) :
    Oversampled X y a (flRequested fl prop (y.count b) (y.count a))
      (RoundedSafeLevelRow d (fun c => mixError ε * M c) X y a (knn (min (k + 1) X.length) X)) X' y' := by
  obtain ⟨s, hs, rfl, rfl⟩ := stats_of_isMinority hmin
  obtain ⟨hm, hMj, _⟩ := stats_min_mem hs
  have f0 : fl 0 = 0 := fl_zero hW
  rcases sample_default_ok hs h with h | h
  · exact Or.inl h
  · unfold flSafeLevelAlg at h
    rw [stats_count hs hm, stats_count hs hMj, flDetN_eq, ok_bind] at h
    split at h
    · injection h with h
      obtain ⟨rfl, rfl⟩ := Prod.mk.inj h
      exact Or.inl ⟨rfl, rfl⟩
    · dsimp only at h
      obtain ⟨pairs, hpairs, h⟩ := bind_ok.1 h
      split at h
      · injection h with h
        obtain ⟨rfl, rfl⟩ := Prod.mk.inj h
        exact Or.inl ⟨rfl, rfl⟩
      · right
        obtain ⟨samples, hsam, h⟩ := bind_ok.1 h
        injection h with h
        unfold withSamples at h
        obtain ⟨rfl, rfl⟩ := Prod.mk.inj h
        have hlen := mapM_ok_length hsam
        rw [List.length_range] at hlen
        refine ⟨samples, rfl, by rw [hlen], hlen, ?_⟩
        intro x hx
        obtain ⟨i, -, hi⟩ := forall₂_mem_right (mapM_ok_iff.1 hsam) hx
        unfold flSafeLevelRow at hi
        obtain ⟨t, ht, hi⟩ := bind_ok.1 hi
        obtain ⟨base, hbase, hi⟩ := bind_ok.1 hi
        obtain ⟨nb, hnb, hi⟩ := bind_ok.1 hi
        injection hi with hi
        obtain ⟨hy, np, nq, hnp, hnq, hq, h1, h2, h3⟩ := mem_slpSln hpairs (getRow_mem ht)
        have mb := getRow_mem hbase
        have mn := getRow_mem hnb
        have lb := hwf.2 _ mb
        have ln := hwf.2 _ mn
        have htab := (hknn (min (k + 1) X.length) X (by omega)).2
        have b1 : t.slp ≤ k + 1 := by
          have := levelOf_le y s.minLabel np
          have := (htab np (List.mem_of_getElem? hnp)).1
          omega
        have b2 : t.sln ≤ k + 1 := by
          have := levelOf_le y s.minLabel nq
          have := (htab nq (List.mem_of_getElem? hnq)).1
          omega
        have gap : ∀ j, 0 ≤ flSafeGap fl t.slp t.sln (dr.u i j) ∧ flSafeGap fl t.slp t.sln (dr.u i j) ≤ 1 := fun j =>
          flSafeGap_range hA hW h0 hG hN (by omega) b1 b2 (hu i j).1 ((hu i j).2.trans hU1)
        obtain ⟨n1, n2, n3⟩ := flMixRow_near hW h0 lb ln (hM _ mb) (hM _ mn) gap
        have bt := mixRow_between lb ln gap
        refine ⟨t.p, t.q, base, nb, np, nq, hy, getRow_ok.1 hbase, getRow_ok.1 hnb, hnp, hnq, hq, ?_, ?_, ?_, ?_, ?_⟩
        · rw [← hi]
          refine ⟨n1, fun c hc => ?_⟩
          have e1 := abs_le.1 (n3 c hc)
          have e2 := bt.2 c hc
          constructor <;> linarith [e1.1, e1.2, e2.1, e2.2]
        · rw [← h1, ← h2]; exact h3
        · intro hle
          rw [← h1, ← h2] at hle
          rw [← hi]
          exact flMixRow_between hA f0 hU hU1 lb ln (hX _ mb) (hX _ mn) (fun j =>
            flSafeGap_safe hA f0 hN hUf hU1 (by push_cast; exact hUN) b1 hle (hu i j).1 (hu i j).2)
        · intro hz
          rw [← h2] at hz
          rw [← hi]
          apply flMixRow_zero f0 lb ln (hX _ mb)
          intro j
          rw [hz]
          exact flSafeGap_zero f0 (by omega) _
        · intro hz
          rw [← h1] at hz
          rw [← hi]
          refine ⟨n1, ln, fun c hc => ?_⟩
          have f1 : fl 1 = 1 := by have := hN 1 (by omega); push_cast at this; exact this
          have hone : mixRow base nb (fun j => flSafeGap fl t.slp t.sln (dr.u i j)) = nb := by
            apply mixRow_one lb ln
            intro j
            rw [hz]
            exact flSafeGap_one f0 f1 (by omega) _
          have := n3 c hc
          rwa [hone] at this

/-- **The same outcome up to rounding.** If rounding does not change the number of requested rows, Safe_Level_SMOTE raises the same exception with and
without rounding, or adds as many rows, each of them near the exact one. -/
theorem C136_safe_level_close {fl : ℚ → ℚ} {ε : ℚ} (hA : RoundsToNearest fl) (hW : RoundsWithin fl ε) (h0 : 0 ≤ ε) (hG : GapAboveOne fl ε)
    {prop : ℚ} {k d : Nat} (hN : ExactUpTo fl (k + 1)) {dr : SlDraws} {knn : Nat → List Row → List (List Nat)} {X : List Row} {y : List Int}
    {a b : Int} {M : Nat → ℚ} (hwf : WF d X y) (hmin : IsMinority y a b) (hknn : KnnOK knn) (hu : ∀ i j, 0 ≤ dr.u i j ∧ dr.u i j ≤ 1)
    (hn : flRequested fl prop (y.count b) (y.count a) = requested prop (y.count b) (y.count a))
    (hM : ∀ r ∈ X, ∀ c, c < d → |r.getD c 0| ≤ M c) :
    SameOutcome (fun r r' => r.2 = r'.2 ∧ ∃ new new', r.1 = X ++ new ∧ r'.1 = X ++ new' ∧
        List.Forall₂ (RowsWithin d (fun c => (mixError ε + 2 * safeGapError ε) * M c)) new new')
      (sample defaultChecks d (flSafeLevelAlg fl prop k dr knn) X y) (sample defaultChecks d (safeLevelAlg prop k dr knn) X y) := by
  obtain ⟨s, hs, rfl, rfl⟩ := stats_of_isMinority hmin
  obtain ⟨hsm, hsM, _⟩ := stats_min_mem hs
  unfold sample
  rw [hs, ok_bind, ok_bind]
  split
  · exact .ok ⟨rfl, [], [], by simp, by simp, .nil⟩
  · unfold flSafeLevelAlg safeLevelAlg
    rw [stats_count hs hsm, stats_count hs hsM, flDetN_eq, detN_eq_requested, hn]
    refine SameOutcome.bind (P := fun a b => a = b) (SameOutcome.refl _ (fun _ _ => rfl)) ?_
    rintro n _ - - rfl
    split
    · exact .ok ⟨rfl, [], [], by simp, by simp, .nil⟩
    · dsimp only
      refine SameOutcome.bind (P := fun a b => a = b) (SameOutcome.refl _ (fun _ _ => rfl)) ?_
      rintro pairs _ hpairs - rfl
      split
      · exact .ok ⟨rfl, [], [], by simp, by simp, .nil⟩
      refine SameOutcome.bind (SameOutcome.mapM (P := RowsWithin d (fun c => (mixError ε + 2 * safeGapError ε) * M c)) ?_) ?_
      · intro i _
        unfold flSafeLevelRow safeLevelRow
        refine SameOutcome.bind (P := fun a b => a = b) (SameOutcome.refl _ (fun _ _ => rfl)) ?_
        rintro t _ ht - rfl
        refine SameOutcome.bind (P := fun a b => a = b) (SameOutcome.refl _ (fun _ _ => rfl)) ?_
        rintro base _ hbase - rfl
        refine SameOutcome.bind (P := fun a b => a = b) (SameOutcome.refl _ (fun _ _ => rfl)) ?_
        rintro nb _ hnb - rfl
        obtain ⟨-, np, nq, hnp, hnq, -, h1, h2, -⟩ := mem_slpSln hpairs (getRow_mem ht)
        have mb := getRow_mem hbase
        have mn := getRow_mem hnb
        have lb := hwf.2 _ mb
        have ln := hwf.2 _ mn
        have htab := (hknn (min (k + 1) X.length) X (by omega)).2
        have b1 : t.slp ≤ k + 1 := by
          have := levelOf_le y s.minLabel np
          have := (htab np (List.mem_of_getElem? hnp)).1
          omega
        have b2 : t.sln ≤ k + 1 := by
          have := levelOf_le y s.minLabel nq
          have := (htab nq (List.mem_of_getElem? hnq)).1
          omega
        obtain ⟨n1, n2, n3⟩ := flMixRow_near hW h0 lb ln (hM _ mb) (hM _ mn) (fun j =>
          flSafeGap_range hA hW h0 hG hN (by omega) b1 b2 (hu i j).1 (hu i j).2)
        refine .ok ⟨n1, mixRow_length lb ln, fun c hc => ?_⟩
        have e1 := n3 c hc
        have e2 := flSafeGap_near (slp := t.slp) (sln := t.sln) hW h0 (hu i c).1 (hu i c).2
        rw [mixRow_getD lb ln hc] at e1 ⊢
        have hab : |nb.getD c 0 - base.getD c 0| ≤ 2 * M c := by
          have q1 := abs_le.1 (hM _ mb c hc)
          have q2 := abs_le.1 (hM _ mn c hc)
          rw [abs_le]
          constructor <;> linarith
        have e3 : |(nb.getD c 0 - base.getD c 0) * (flSafeGap fl t.slp t.sln (dr.u i c) - safeGap t.slp t.sln (dr.u i c))| ≤
            2 * M c * safeGapError ε := by
          rw [abs_mul]
          exact mul_le_mul hab e2 (abs_nonneg _) ((abs_nonneg _).trans hab)
        have g1 := abs_le.1 e1
        have g3 := abs_le.1 e3
        rw [abs_le]
        constructor <;> linarith
      · intro new new' _ _ hnew
        refine .ok ⟨?_, new, new', rfl, rfl, hnew⟩
        show _ ++ List.replicate _ _ = _ ++ List.replicate _ _
        rw [hnew.length_eq]

/-- **A copy is not a copy.** With the numbers of Python there are data for which Safe_Level_SMOTE without rounding adds a copy of the neighbour,
the largest row of the data, and with rounding a row above all rows of the data. -/
theorem C136_copy_lost : ∃ (X new new' : List Row) (y y' : List Int) (dr : SlDraws),
    WF 1 X y ∧ IsMinority y 1 0 ∧ Representable (binaryFl 53) X ∧ (∀ i j, 0 ≤ dr.u i j ∧ dr.u i j ≤ 1 - 1 / 2 ^ 53) ∧
    sample defaultChecks 1 (safeLevelAlg 1 1 dr bruteKnn) X y = .ok (X ++ new, y') ∧ (∀ x ∈ new, x ∈ X) ∧ new ≠ [] ∧
    sample defaultChecks 1 (flSafeLevelAlg (binaryFl 53) 1 1 dr bruteKnn) X y = .ok (X ++ new', y') ∧
    ∀ x ∈ new', ∀ r ∈ X, r.getD 0 0 < x.getD 0 0 := by
  refine ⟨[[-4], [binaryFl 53 (-9 / 5)], [-14], [-15], [-34], [-35], [-54]], [[binaryFl 53 (-9 / 5)]], [[-9 / 5 + 1 / 5 / 2 ^ 50]],
    [1, 0, 1, 0, 1, 0, 0], [1, 0, 1, 0, 1, 0, 0, 1], ⟨fun _ => 0, fun _ _ => 0⟩, ?_, ?_, ?_, ?_, ?_, ?_, ?_, ?_, ?_⟩
  · unfold WF; decide
  · exact ⟨by decide, by decide, by decide, Or.inl (by decide)⟩
  · unfold Representable; decide +kernel
  · intro i j; norm_num
  · decide +kernel
  · decide +kernel
  · simp
  · decide +kernel
  · decide +kernel

/-- The numbers of Python meet the assumptions on the arithmetic for every number of neighbours below `2 ^ 53`. -/
theorem C136_doubles {k : Nat} (hk : k + 1 ≤ 2 ^ 53) : RoundsToNearest (binaryFl 53) ∧ RoundsWithin (binaryFl 53) (1 / 2 ^ 53) ∧
    GapAboveOne (binaryFl 53) (1 / 2 ^ 53) ∧ ExactUpTo (binaryFl 53) (k + 1) ∧ Shrinks (binaryFl 53) (1 - 1 / 2 ^ 53) ∧
    binaryFl 53 (1 - 1 / 2 ^ 53) = 1 - 1 / 2 ^ 53 ∧ ((k : ℚ) + 1) * (1 - (1 - 1 / 2 ^ 53)) ≤ 1 ∧
    mixError (1 / 2 ^ 53) + 2 * safeGapError (1 / 2 ^ 53) < 14 / 2 ^ 53 := by
  refine ⟨binaryFl_nearest (by norm_num), binaryFl_within 53, binaryFl_gap (by norm_num), fun n hn => C133_integers (by norm_num) n (hn.trans hk),
    binaryFl_shrinks (by norm_num), by decide +kernel, ?_, by unfold mixError safeGapError; norm_num⟩
  have : (k : ℚ) + 1 ≤ 2 ^ 53 := by exact_mod_cast hk
  rw [sub_sub_cancel, mul_one_div, div_le_one (by norm_num)]
  exact this

/-- Non-vacuity: with two neighbours a row is added; a base of level one and a neighbour of level two have a rounded factor. -/
example : KnnOK bruteKnn ∧ WF 1 [[0], [4], [5], [-1], [-20], [-21], [30], [31]] [1, 1, 1, 0, 0, 0, 0, 0] ∧
    IsMinority [1, 1, 1, 0, 0, 0, 0, 0] 1 0 ∧ flSafeGap (binaryFl 53) 1 2 (binaryFl 53 (3 / 5)) = binaryFl 53 (4 / 5) ∧
    safeGap 1 2 (3 / 5) = 4 / 5 ∧
    (sample defaultChecks 1 (flSafeLevelAlg (binaryFl 53) (1 / 2) 2 ⟨fun _ => 0, fun _ _ => binaryFl 53 (3 / 5)⟩ bruteKnn)
      [[0], [4], [5], [-1], [-20], [-21], [30], [31]] [1, 1, 1, 0, 0, 0, 0, 0]).toOption.map (fun r => r.2.count 1) = some 4 :=
  ⟨bruteKnn_ok, by unfold WF; decide, ⟨by decide, by decide, by decide, Or.inl (by decide)⟩, by decide +kernel, by decide +kernel, by decide +kernel⟩

end Verif

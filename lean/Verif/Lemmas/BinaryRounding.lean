import Verif.Lemmas.Rounding

/-! # Rounding to a number of binary digits satisfies the specification of rounding -/

namespace Verif

theorem log_eq {x : ℚ} {e : ℤ} (h1 : (2 : ℚ) ^ e ≤ x) (h2 : x < (2 : ℚ) ^ (e + 1)) : Int.log 2 x = e := by
  have hx : 0 < x := lt_of_lt_of_le (zpow_pos (by norm_num) _) h1
  refine le_antisymm ?_ ?_
  · have := (Int.lt_zpow_iff_log_lt (b := 2) (by norm_num) hx (x := e + 1)).1 (by exact_mod_cast h2)
    omega
  · exact (Int.zpow_le_iff_le_log (b := 2) (by norm_num) hx).1 (by exact_mod_cast h1)

theorem log_bounds {x : ℚ} (hx : x ≠ 0) : (2 : ℚ) ^ Int.log 2 |x| ≤ |x| ∧ |x| < (2 : ℚ) ^ (Int.log 2 |x| + 1) := by
  have h := abs_pos.2 hx
  refine ⟨?_, ?_⟩
  · have := Int.zpow_log_le_self (b := 2) (by norm_num) h
    exact_mod_cast this
  · have := Int.lt_zpow_succ_log_self (b := 2) (by norm_num) |x|
    exact_mod_cast this

theorem binaryFl_eq {p : Nat} {x : ℚ} {e : ℤ} (h1 : (2 : ℚ) ^ e ≤ |x|) (h2 : |x| < (2 : ℚ) ^ (e + 1)) :
    binaryFl p x = round (x / 2 ^ (e - p + 1)) * 2 ^ (e - p + 1) := by
  have hx : x ≠ 0 := by
    rintro rfl
    rw [abs_zero] at h1
    have := zpow_pos (show (0 : ℚ) < 2 by norm_num) e
    linarith
  unfold binaryFl
  rw [if_neg hx, log_eq h1 h2]

/-- The numbers with `p` binary digits. -/
def IsBinary (p : Nat) (f : ℚ) : Prop :=
  f = 0 ∨ ∃ (e k : ℤ), f = k * 2 ^ (e - p + 1) ∧ (2 : ℚ) ^ e ≤ |f| ∧ |f| ≤ (2 : ℚ) ^ (e + 1)

/-- `±2 ^ e` is a multiple of the unit of every lower exponent. -/
theorem pow_mult {p : Nat} (hp : 1 ≤ p) (e e' : ℤ) (h : e' ≤ e + 1) : ∃ k : ℤ, (2 : ℚ) ^ (e + 1) = k * 2 ^ (e' - p + 1) := by
  refine ⟨2 ^ (e + 1 - (e' - p + 1)).toNat, ?_⟩
  have : ((2 : ℤ) ^ (e + 1 - (e' - p + 1)).toNat : ℤ) = (2 : ℚ) ^ (e + 1 - (e' - p + 1)) := by
    rw [← Int.toNat_of_nonneg (show 0 ≤ e + 1 - (e' - p + 1) by omega)]
    push_cast
    rw [zpow_natCast, Int.toNat_natCast]
  rw [this, ← zpow_add₀ (by norm_num)]
  congr 1
  ring

theorem binaryFl_of_isBinary {p : Nat} (hp : 1 ≤ p) {f : ℚ} (h : IsBinary p f) : binaryFl p f = f := by
  rcases h with rfl | ⟨e, k, hk, h1, h2⟩
  · unfold binaryFl; rw [if_pos rfl]
  · rcases lt_or_eq_of_le h2 with h2 | h2
    · rw [binaryFl_eq h1 h2]
      have : f / 2 ^ (e - p + 1) = (k : ℚ) := by rw [hk]; field_simp
      rw [this, round_intCast, ← hk]
    · have h3 : |f| < (2 : ℚ) ^ (e + 1 + 1) := by rw [h2]; exact zpow_lt_zpow_right₀ (by norm_num) (by omega)
      rw [binaryFl_eq h2.ge h3]
      obtain ⟨j, hj⟩ := pow_mult hp e (e + 1) le_rfl
      have : ∃ i : ℤ, f = i * 2 ^ (e + 1 - p + 1) := by
        rcases abs_choice f with ha | ha
        · exact ⟨j, by rw [← hj, ← h2, ha]⟩
        · refine ⟨-j, ?_⟩
          push_cast
          rw [neg_mul, ← hj, ← h2, ha, neg_neg]
      obtain ⟨i, hi⟩ := this
      have : f / 2 ^ (e + 1 - p + 1) = (i : ℚ) := by rw [hi]; field_simp
      rw [this, round_intCast, ← hi]

/-- The error is at most that of every multiple of the unit. -/
theorem binaryFl_unit {p : Nat} {x : ℚ} (hx : x ≠ 0) (k : ℤ) : |x - binaryFl p x| ≤ |x - k * 2 ^ (Int.log 2 |x| - p + 1)| := by
  obtain ⟨h1, h2⟩ := log_bounds hx
  rw [binaryFl_eq h1 h2]
  set q : ℚ := 2 ^ (Int.log 2 |x| - p + 1) with hq
  have q0 : 0 < q := zpow_pos (by norm_num) _
  have key := round_le (x / q) k
  have e1 : ∀ z : ℚ, |x - z * q| = |x / q - z| * q := by
    intro z
    rw [← abs_of_pos q0, ← abs_mul, abs_of_pos q0]
    congr 1
    field_simp
  rw [e1, e1]
  exact mul_le_mul_of_nonneg_right key q0.le

theorem binaryFl_half {p : Nat} {x : ℚ} (hx : x ≠ 0) : |x - binaryFl p x| ≤ 2 ^ (Int.log 2 |x| - p) := by
  obtain ⟨h1, h2⟩ := log_bounds hx
  rw [binaryFl_eq h1 h2]
  set q : ℚ := 2 ^ (Int.log 2 |x| - p + 1) with hq
  have q0 : 0 < q := zpow_pos (by norm_num) _
  have key := abs_sub_round (x / q)
  have e1 : |x - round (x / q) * q| = |x / q - round (x / q)| * q := by
    rw [← abs_of_pos q0, ← abs_mul, abs_of_pos q0]
    congr 1
    field_simp
  have e2 : (2 : ℚ) ^ (Int.log 2 |x| - p) = 1 / 2 * q := by
    rw [hq, zpow_add₀ (by norm_num) _ 1]
    ring
  rw [e1, e2]
  exact mul_le_mul_of_nonneg_right key q0.le

theorem binaryFl_zero (p : Nat) : binaryFl p 0 = 0 := if_pos rfl

theorem binaryFl_within (p : Nat) : RoundsWithin (binaryFl p) (1 / 2 ^ p) := by
  intro x
  by_cases hx : x = 0
  · subst hx; rw [binaryFl_zero]; simp
  · rw [abs_sub_comm]
    refine (binaryFl_half hx).trans ?_
    rw [zpow_sub₀ (by norm_num), zpow_natCast, one_div, inv_mul_eq_div]
    exact div_le_div_of_nonneg_right (log_bounds hx).1 (by positivity)

theorem abs_multiple {x : ℚ} {r : ℚ} (h : |x| = r) {k : ℤ} {q : ℚ} (hk : r = k * q) : ∃ i : ℤ, x = i * q := by
  rcases abs_choice x with ha | ha
  · exact ⟨k, by rw [← hk, ← h, ha]⟩
  · exact ⟨-k, by push_cast; rw [neg_mul, ← hk, ← h, ha, neg_neg]⟩

theorem isBinary_binaryFl {p : Nat} (hp : 1 ≤ p) (x : ℚ) : IsBinary p (binaryFl p x) := by
  by_cases hx : x = 0
  · left; subst hx; exact binaryFl_zero p
  · right
    obtain ⟨h1, h2⟩ := log_bounds hx
    set e := Int.log 2 |x| with he
    refine ⟨e, round (x / 2 ^ (e - p + 1)), binaryFl_eq h1 h2, ?_, ?_⟩
    · -- not below the power, which is itself a multiple of the unit
      obtain ⟨k, hk⟩ := pow_mult hp (e - 1) e (by omega)
      rw [sub_add_cancel] at hk
      by_contra hc
      push Not at hc
      rcases abs_choice x with ha | ha
      · have := binaryFl_unit (p := p) hx k
        rw [← he, ← hk, abs_of_nonneg (a := x - 2 ^ e) (by linarith)] at this
        have h3 := (abs_lt.1 hc).2
        have := (abs_le.1 this).2
        linarith
      · have := binaryFl_unit (p := p) hx (-k)
        rw [← he] at this
        push_cast at this
        rw [neg_mul, ← hk, abs_of_nonpos (a := x - -2 ^ e) (by linarith)] at this
        have h3 := (abs_lt.1 hc).1
        have := (abs_le.1 this).1
        linarith
    · obtain ⟨k, hk⟩ := pow_mult hp e e (by omega)
      by_contra hc
      push Not at hc
      rcases abs_choice x with ha | ha
      · have h := binaryFl_unit (p := p) hx k
        rw [← he, ← hk, abs_of_nonpos (a := x - 2 ^ (e + 1)) (by linarith)] at h
        have hb := abs_le.1 h
        rcases lt_abs.1 hc with h3 | h3
        · linarith
        · have : 0 < (2 : ℚ) ^ (e + 1) := zpow_pos (by norm_num) _
          have : 0 ≤ |x| := abs_nonneg _
          linarith
      · have h := binaryFl_unit (p := p) hx (-k)
        rw [← he] at h
        push_cast at h
        rw [neg_mul, ← hk, abs_of_nonneg (a := x - -2 ^ (e + 1)) (by linarith)] at h
        have hb := abs_le.1 h
        rcases lt_abs.1 hc with h3 | h3
        · have : 0 < (2 : ℚ) ^ (e + 1) := zpow_pos (by norm_num) _
          have : 0 ≤ |x| := abs_nonneg _
          linarith
        · linarith

theorem binaryFl_nearest {p : Nat} (hp : 1 ≤ p) : RoundsToNearest (binaryFl p) := by
  intro x y
  have hf := isBinary_binaryFl hp y
  set f := binaryFl p y
  by_cases hx : x = 0
  · subst hx; rw [binaryFl_zero, sub_self, abs_zero]; exact abs_nonneg _
  obtain ⟨h1, h2⟩ := log_bounds hx
  -- a value not above the power is at least as far away as the power
  have low : |f| ≤ (2 : ℚ) ^ Int.log 2 |x| → |x - binaryFl p x| ≤ |x - f| := by
    intro hle
    obtain ⟨k, hk⟩ := pow_mult hp (Int.log 2 |x| - 1) (Int.log 2 |x|) (by omega)
    rw [sub_add_cancel] at hk
    have hfa := abs_le.1 hle
    rcases abs_choice x with ha | ha
    · refine (binaryFl_unit hx k).trans ?_
      rw [← hk]
      generalize (2 : ℚ) ^ Int.log 2 |x| = P at h1 hle hfa
      refine le_trans ?_ (le_abs_self (x - f))
      rw [abs_of_nonneg (by linarith)]
      linarith
    · refine (binaryFl_unit hx (-k)).trans ?_
      push_cast
      rw [neg_mul, ← hk]
      generalize (2 : ℚ) ^ Int.log 2 |x| = P at h1 hle hfa
      refine le_trans ?_ (neg_abs_le (x - f) |> neg_le.1)
      rw [abs_of_nonpos (by linarith)]
      linarith
  rcases hf with hf | ⟨e, k, hk, g1, g2⟩
  · exact low (by rw [hf, abs_zero]; exact (zpow_pos (by norm_num) _).le)
  · by_cases hee : Int.log 2 |x| ≤ e
    · have : ∃ i : ℤ, f = i * 2 ^ (Int.log 2 |x| - p + 1) := by
        refine ⟨k * 2 ^ (e - Int.log 2 |x|).toNat, ?_⟩
        have : ((2 : ℤ) ^ (e - Int.log 2 |x|).toNat : ℤ) = (2 : ℚ) ^ (e - Int.log 2 |x|) := by
          rw [← Int.toNat_of_nonneg (show 0 ≤ e - Int.log 2 |x| by omega)]
          push_cast
          rw [zpow_natCast, Int.toNat_natCast]
        push_cast at this ⊢
        rw [this, mul_assoc, ← zpow_add₀ (by norm_num), hk]
        congr 2
        ring
      obtain ⟨i, hi⟩ := this
      rw [hi]
      exact binaryFl_unit hx i
    · exact low (g2.trans (zpow_le_zpow_right₀ (by norm_num) (by omega)))

/-- Products with the largest number below one are different from the other factor. -/
theorem binaryFl_shrinks {p : Nat} (hp : 1 ≤ p) : Shrinks (binaryFl p) (1 - 1 / 2 ^ p) := by
  intro d hd hd0 heq
  have h2p : (0 : ℚ) < 1 / 2 ^ p := by positivity
  have hb := isBinary_binaryFl hp d
  rw [hd] at hb
  rcases hb with hb | ⟨e, k, hk, _, _⟩
  · exact hd0 hb
  obtain ⟨h1, h2⟩ := log_bounds hd0
  set l := Int.log 2 |d| with hl
  -- the integer digits at the exponent of `d`
  have hdl : d = round (d / 2 ^ (l - p + 1)) * 2 ^ (l - p + 1) := by rw [← binaryFl_eq h1 h2]; exact hd.symm
  set j := round (d / 2 ^ (l - p + 1)) with hj
  set q : ℚ := 2 ^ (l - p + 1) with hq
  have q0 : 0 < q := zpow_pos (by norm_num) _
  have e2 : (2 : ℚ) ^ l = 2 ^ p / 2 * q := by
    rw [hq, zpow_add₀ (by norm_num), zpow_sub₀ (by norm_num), zpow_natCast]
    field_simp
  have habs : |d| = |(j : ℚ)| * q := by conv_lhs => rw [hdl, abs_mul, abs_of_pos q0]
  have hj1 : (2 : ℚ) ^ p / 2 ≤ |(j : ℚ)| := by
    rw [e2, habs] at h1
    exact le_of_mul_le_mul_right h1 q0
  have hj0 : (0 : ℚ) < |(j : ℚ)| := lt_of_lt_of_le (by positivity) hj1
  have hdis := binaryFl_nearest hp (d * (1 - 1 / 2 ^ p))
  rw [heq] at hdis
  have left : |d * (1 - 1 / 2 ^ p) - d| = |d| * (1 / 2 ^ p) := by
    rw [show d * (1 - 1 / 2 ^ p) - d = -(d * (1 / 2 ^ p)) by ring, abs_neg, abs_mul, abs_of_pos h2p]
  have dpos : 0 < |d| := abs_pos.2 hd0
  rcases lt_or_eq_of_le hj1 with hlt | heq1
  · -- the neighbour towards zero
    have hbin : IsBinary p (d * (1 - 1 / |(j : ℚ)|)) := by
      have hval : d * (1 - 1 / |(j : ℚ)|) = (j - (if 0 ≤ j then 1 else -1) : ℤ) * q := by
        conv_lhs => rw [hdl]
        split_ifs with hs
        · have : |(j : ℚ)| = j := abs_of_nonneg (by exact_mod_cast hs)
          rw [this] at hj0 ⊢
          push_cast
          field_simp
        · have : |(j : ℚ)| = -j := abs_of_neg (by exact_mod_cast (not_le.1 hs))
          rw [this] at hj0 ⊢
          have : (j : ℚ) ≠ 0 := by intro hz; rw [hz] at hj0; simp at hj0
          push_cast
          field_simp
      right
      refine ⟨l, _, hval, ?_, ?_⟩
      · have hjint : (2 : ℚ) ^ p / 2 + 1 ≤ |(j : ℚ)| := by
          obtain ⟨p', rfl⟩ : ∃ p', p = p' + 1 := ⟨p - 1, by omega⟩
          rw [pow_succ, mul_div_assoc, div_self (by norm_num), mul_one] at hlt ⊢
          have : ((2 ^ p' : ℤ) : ℚ) < ((|j| : ℤ) : ℚ) := by push_cast; exact hlt
          have := Int.cast_lt.1 this
          have : ((2 ^ p' + 1 : ℤ) : ℚ) ≤ ((|j| : ℤ) : ℚ) := by exact_mod_cast this
          push_cast at this
          exact this
        have hle1 : 0 ≤ 1 - 1 / |(j : ℚ)| := by
          rw [sub_nonneg, div_le_one hj0]
          have : (0 : ℚ) < 2 ^ p / 2 := by positivity
          linarith
        rw [abs_mul, abs_of_nonneg hle1, habs, e2]
        have : |(j : ℚ)| * q * (1 - 1 / |(j : ℚ)|) = (|(j : ℚ)| - 1) * q := by field_simp
        rw [this]
        exact mul_le_mul_of_nonneg_right (by linarith) q0.le
      · have hle1 : 0 ≤ 1 - 1 / |(j : ℚ)| := by
          rw [sub_nonneg, div_le_one hj0]
          have h1j : (1 : ℤ) ≤ |j| := by
            have : (0 : ℤ) < |j| := by
              have : (0 : ℚ) < ((|j| : ℤ) : ℚ) := by push_cast; exact hj0
              exact_mod_cast this
            omega
          have : ((1 : ℤ) : ℚ) ≤ ((|j| : ℤ) : ℚ) := by exact_mod_cast h1j
          push_cast at this
          exact this
        rw [abs_mul, abs_of_nonneg hle1]
        refine le_trans ?_ h2.le
        have : 0 ≤ 1 / |(j : ℚ)| := by positivity
        nlinarith
    have h3 := hdis (d * (1 - 1 / |(j : ℚ)|))
    rw [binaryFl_of_isBinary hp hbin, left] at h3
    have hsm : 1 / |(j : ℚ)| < 2 * (1 / 2 ^ p) := by
      rw [div_lt_iff₀ hj0]
      have : 2 * (1 / 2 ^ p) * ((2 : ℚ) ^ p / 2) = 1 := by field_simp
      nlinarith
    have hge : 1 / (2 : ℚ) ^ p ≤ 1 / |(j : ℚ)| := by
      refine one_div_le_one_div_of_le hj0 ?_
      have : |(j : ℚ)| * q < 2 ^ (l + 1) := by rw [← habs]; exact h2
      rw [zpow_add₀ (by norm_num), e2, zpow_one, show (2 : ℚ) ^ p / 2 * q * 2 = 2 ^ p * q by ring] at this
      exact (lt_of_mul_lt_mul_right this q0.le).le
    have right : |d * (1 - 1 / 2 ^ p) - d * (1 - 1 / |(j : ℚ)|)| = |d| * (1 / |(j : ℚ)| - 1 / 2 ^ p) := by
      rw [show d * (1 - 1 / 2 ^ p) - d * (1 - 1 / |(j : ℚ)|) = d * (1 / |(j : ℚ)| - 1 / 2 ^ p) by ring, abs_mul, abs_of_nonneg (a := 1 / |(j : ℚ)| - 1 / 2 ^ p) (by linarith)]
    rw [right] at h3
    have := le_of_mul_le_mul_left h3 dpos
    linarith
  · -- a power of two
    have hpow : |d| = 2 ^ l := by rw [habs, ← heq1, e2]
    have hbin : IsBinary p (d * (1 - 1 / 2 ^ p)) := by
      have h1p : (0 : ℚ) ≤ 1 - 1 / 2 ^ p := by
        rw [sub_nonneg, div_le_one (by positivity)]
        exact one_le_pow₀ (by norm_num)
      have half : (1 : ℚ) / 2 ^ p ≤ 1 / 2 := by
        refine one_div_le_one_div_of_le (by norm_num) ?_
        calc (2 : ℚ) = 2 ^ 1 := by norm_num
          _ ≤ 2 ^ p := pow_le_pow_right₀ (by norm_num) hp
      have hunit : |d| * (1 - 1 / 2 ^ p) = ((2 ^ p - 1 : ℤ) : ℚ) * 2 ^ (l - 1 - p + 1) := by
        rw [hpow, show l - 1 - (p : ℤ) + 1 = l - p by ring, zpow_sub₀ (by norm_num), zpow_natCast]
        push_cast
        field_simp
      obtain ⟨i, hi⟩ := abs_multiple (x := d * (1 - 1 / 2 ^ p)) (r := |d| * (1 - 1 / 2 ^ p)) (by rw [abs_mul, abs_of_nonneg h1p]) hunit
      right
      refine ⟨l - 1, i, hi, ?_, ?_⟩
      · rw [abs_mul, abs_of_nonneg h1p, hpow, zpow_sub₀ (by norm_num), zpow_one]
        have : 0 < (2 : ℚ) ^ l := zpow_pos (by norm_num) _
        nlinarith
      · rw [abs_mul, abs_of_nonneg h1p, hpow, sub_add_cancel]
        have : 0 < (2 : ℚ) ^ l := zpow_pos (by norm_num) _
        nlinarith
    rw [binaryFl_of_isBinary hp hbin] at heq
    have : d * (1 / 2 ^ p) = 0 := by linarith
    rcases mul_eq_zero.1 this with h | h
    · exact hd0 h
    · exact h2p.ne' h

end Verif

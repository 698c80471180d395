import Verif.Model.RoundedSmoteD
import Verif.Props.C136
import Verif.Props.C36

/-!
# C138: the generation loop of SMOTE_D with the rounding of the machine
-/

namespace Verif

/-! ## Specification -/

/-- Numbers of the machine between one and `N` can be decreased by one without an error, and the result is zero or at least `2 * ε`. -/
def UnitSteps (fl : ℚ → ℚ) (ε N : ℚ) : Prop :=
  ∀ c, fl c = c → 1 ≤ c → c ≤ N → fl (c - 1) = c - 1 ∧ (c - 1 ≤ 0 ∨ 2 * ε ≤ c - 1)

/-- A count the loop can deal with: a number of the machine up to `N` which is not positive or not tiny. -/
def CountOK (fl : ℚ → ℚ) (ε N c : ℚ) : Prop := fl c = c ∧ c ≤ N ∧ (c ≤ 0 ∨ 2 * ε ≤ c)

/-- The distance of a rounded row to the exact row, relative to the size of the data, about `7 * ε`. -/
def pairError (ε : ℚ) : ℚ := mixError ε + 2 * (ε / (1 - ε))

/-! ## Binary numbers -/

theorem isBinary_multiple {p : Nat} {f : ℚ} {e k : ℤ} (hf : f = k * 2 ^ (e - p + 1)) (hb : |f| ≤ (2 : ℚ) ^ (e + 1)) : IsBinary p f := by
  by_cases h0 : f = 0
  · exact Or.inl h0
  · obtain ⟨b1, b2⟩ := log_bounds h0
    by_cases he : e ≤ Int.log 2 |f|
    · exact Or.inr ⟨e, k, hf, (zpow_le_zpow_right₀ (by norm_num) he).trans b1, hb⟩
    · right
      refine ⟨Int.log 2 |f|, k * 2 ^ (e - Int.log 2 |f|).toNat, ?_, b1, b2.le⟩
      push_cast
      rw [mul_assoc, ← zpow_natCast, Int.toNat_of_nonneg (by omega), ← zpow_add₀ (by norm_num), hf]
      congr 2
      ring

theorem binaryFl_steps {p : Nat} (hp : 1 ≤ p) : UnitSteps (binaryFl p) (1 / 2 ^ p) (2 ^ p) := by
  intro c hc h1 hN
  have hb := isBinary_binaryFl hp c
  rw [hc] at hb
  rcases hb with rfl | ⟨e, k, hk, b1, b2⟩
  · linarith
  have hc0 : |c| = c := abs_of_pos (by linarith)
  rw [hc0] at b1 b2
  rcases h1.eq_or_lt with rfl | hlt
  · rw [sub_self, binaryFl_zero]
    exact ⟨rfl, Or.inl le_rfl⟩
  have two : (2 : ℚ) ≠ 0 := by norm_num
  have e0 : 0 ≤ e := by
    by_contra hneg
    have : (2 : ℚ) ^ (e + 1) ≤ 2 ^ (0 : ℤ) := zpow_le_zpow_right₀ (by norm_num) (by omega)
    rw [zpow_zero] at this
    linarith
  have ep : e ≤ p := by
    have : (2 : ℚ) ^ e ≤ 2 ^ (p : ℤ) := by rw [zpow_natCast]; linarith
    exact (zpow_le_zpow_iff_right₀ (by norm_num)).1 this
  rcases ep.eq_or_lt with rfl | hep
  · -- the largest number
    rw [zpow_natCast] at b1
    have hcp : c = 2 ^ p := le_antisymm hN b1
    have hint := C133_integers hp (2 ^ p - 1) (Nat.sub_le _ _)
    have h2p : 1 ≤ 2 ^ p := Nat.one_le_two_pow
    rw [Nat.cast_sub h2p] at hint
    push_cast at hint
    have hge : (2 : ℚ) ≤ 2 ^ p := by
      calc (2 : ℚ) = 2 ^ 1 := by norm_num
        _ ≤ 2 ^ p := pow_le_pow_right₀ (by norm_num) hp
    rw [hcp]
    refine ⟨hint, Or.inr ?_⟩
    have : 2 * (1 / 2 ^ p : ℚ) ≤ 1 := by rw [mul_one_div, div_le_one (by positivity)]; exact hge
    linarith
  · have hm : c - 1 = ((k - 2 ^ (p - 1 - e).toNat : ℤ) : ℚ) * 2 ^ (e - p + 1) := by
      push_cast
      rw [sub_mul, ← hk, ← zpow_natCast, Int.toNat_of_nonneg (by omega), ← zpow_add₀ two]
      rw [show (p : ℤ) - 1 - e + (e - p + 1) = 0 by ring, zpow_zero]
    have hq : (0 : ℚ) < 2 ^ (e - p + 1) := zpow_pos (by norm_num) _
    refine ⟨binaryFl_of_isBinary hp (isBinary_multiple hm ?_), Or.inr ?_⟩
    · rw [abs_of_pos (by linarith)]; linarith
    · generalize (k - 2 ^ (p - 1 - e).toNat : ℤ) = K at hm
      have hK : 0 < (K : ℚ) := by
        by_contra hneg
        have := mul_nonpos_of_nonpos_of_nonneg (not_lt.1 hneg) hq.le
        linarith
      have hK1 : (1 : ℚ) ≤ K := by
        have : 0 < K := by exact_mod_cast hK
        exact_mod_cast this
      have hq2 : 2 * (1 / 2 ^ p : ℚ) ≤ 2 ^ (e - p + 1) := by
        have : 2 * (1 / 2 ^ p : ℚ) = 2 ^ (1 - (p : ℤ)) := by
          rw [zpow_sub₀ two, zpow_one, zpow_natCast]; ring
        rw [this]
        exact zpow_le_zpow_right₀ (by norm_num) (by omega)
      rw [hm]
      nlinarith

/-! ## The loop -/

theorem inv_near {fl : ℚ → ℚ} {ε : ℚ} (hW : RoundsWithin fl ε) (h0 : 0 ≤ ε) (h1 : ε < 1) {c : ℚ} (hc : 0 ≤ c) :
    0 < fl (c + 1) ∧ |1 / fl (c + 1) - 1 / (c + 1)| ≤ ε / (1 - ε) := by
  have hw := hW (c + 1)
  have hc1 : 0 < c + 1 := by linarith
  rw [abs_of_pos hc1] at hw
  have hw' := abs_le.1 hw
  have hlow : (1 - ε) * (c + 1) ≤ fl (c + 1) := by linarith
  have hε : 0 < 1 - ε := by linarith
  have hpos : 0 < fl (c + 1) := lt_of_lt_of_le (mul_pos hε hc1) hlow
  refine ⟨hpos, ?_⟩
  have e : 1 / fl (c + 1) - 1 / (c + 1) = (c + 1 - fl (c + 1)) / (fl (c + 1) * (c + 1)) := by field_simp
  rw [e, abs_div, abs_of_pos (mul_pos hpos hc1), div_le_div_iff₀ (mul_pos hpos hc1) hε, abs_sub_comm]
  calc |fl (c + 1) - (c + 1)| * (1 - ε) ≤ ε * (c + 1) * (1 - ε) := mul_le_mul_of_nonneg_right hw hε.le
    _ = ε * ((1 - ε) * (c + 1)) := by ring
    _ ≤ ε * fl (c + 1) := mul_le_mul_of_nonneg_left hlow h0
    _ ≤ ε * (fl (c + 1) * (c + 1)) := by
      refine mul_le_mul_of_nonneg_left ?_ h0
      nlinarith

/-- One row. -/
theorem flPair_row {fl : ℚ → ℚ} {ε : ℚ} (hA : RoundsToNearest fl) (hW : RoundsWithin fl ε) (h0 : 0 ≤ ε) (h1 : ε ≤ 1 / 2)
    (hU : Shrinks fl (1 - ε)) (hS : fl (1 + 2 * ε) = 1 + 2 * ε) {d : Nat} {base nb : Row} (hb : base.length = d) (hn : nb.length = d)
    (rb : ∀ z ∈ base, fl z = z) (rn : ∀ z ∈ nb, fl z = z) {M : Nat → ℚ} (Mb : ∀ c, c < d → |base.getD c 0| ≤ M c)
    (Mn : ∀ c, c < d → |nb.getD c 0| ≤ M c) {c : ℚ} (hc0 : 0 ≤ c) (hc : 2 * ε ≤ c) :
    Between d base nb (flMixRow fl base nb (fun _ => 1 / fl (c + 1))) ∧
    RowsWithin d (fun j => pairError ε * M j) (flMixRow fl base nb (fun _ => 1 / fl (c + 1))) (mixRow base nb (fun _ => 1 / (c + 1))) := by
  obtain ⟨hpos, hinv⟩ := inv_near hW h0 (by linarith) hc0
  have hw : 1 + 2 * ε ≤ fl (c + 1) := by
    have := fl_mono hA (show 1 + 2 * ε ≤ c + 1 by linarith)
    rwa [hS] at this
  have hle : 1 / fl (c + 1) ≤ 1 - ε := by
    rw [div_le_iff₀ hpos]
    nlinarith
  have hnn : 0 ≤ 1 / fl (c + 1) := by positivity
  refine ⟨flMixRow_between hA (fl_zero hW) hU (by linarith) hb hn rb rn (fun _ => ⟨hnn, hle⟩), ?_⟩
  obtain ⟨n1, n2, n3⟩ := flMixRow_near hW h0 hb hn Mb Mn (u := fun _ => 1 / fl (c + 1)) (fun _ => ⟨hnn, by linarith⟩)
  refine ⟨n1, mixRow_length hb hn, fun j hj => ?_⟩
  have e1 := n3 j hj
  rw [mixRow_getD hb hn hj] at e1 ⊢
  have hab : |nb.getD j 0 - base.getD j 0| ≤ 2 * M j := by
    have q1 := abs_le.1 (Mb j hj)
    have q2 := abs_le.1 (Mn j hj)
    rw [abs_le]
    constructor <;> linarith
  have e3 : |(nb.getD j 0 - base.getD j 0) * (1 / fl (c + 1) - 1 / (c + 1))| ≤ 2 * M j * (ε / (1 - ε)) := by
    rw [abs_mul]
    exact mul_le_mul hab hinv (abs_nonneg _) ((abs_nonneg _).trans hab)
  have g1 := abs_le.1 e1
  have g3 := abs_le.1 e3
  unfold pairError
  rw [abs_le]
  constructor <;> linarith

/-- The loop with rounding does the same steps as the exact loop. -/
theorem flPair_same {fl : ℚ → ℚ} {ε N : ℚ} (hA : RoundsToNearest fl) (hW : RoundsWithin fl ε) (h0 : 0 ≤ ε) (h1 : ε ≤ 1 / 2)
    (hU : Shrinks fl (1 - ε)) (hS : fl (1 + 2 * ε) = 1 + 2 * ε) (hN : UnitSteps fl ε N) {d : Nat} {base nb : Row} (hb : base.length = d)
    (hn : nb.length = d) (rb : ∀ z ∈ base, fl z = z) (rn : ∀ z ∈ nb, fl z = z) {M : Nat → ℚ} (Mb : ∀ c, c < d → |base.getD c 0| ≤ M c)
    (Mn : ∀ c, c < d → |nb.getD c 0| ≤ M c) (u : Nat → ℚ) : ∀ fuel k c, CountOK fl ε N c →
    (flPairSamples fl base nb u fuel k c = none ∧ pairSamples base nb u fuel k c = none) ∨
    ∃ new new', flPairSamples fl base nb u fuel k c = some new ∧ pairSamples base nb u fuel k c = some new' ∧
      List.Forall₂ (fun x x' => Between d base nb x ∧ RowsWithin d (fun j => pairError ε * M j) x x') new new' := by
  intro fuel
  induction fuel with
  | zero => intro k c _; exact Or.inl ⟨rfl, rfl⟩
  | succ f ih =>
    intro k c ⟨hc, hcN, hct⟩
    rw [flPairSamples, pairSamples]
    by_cases hpos : 0 < c
    · rw [if_pos hpos, if_pos hpos]
      have hbig : 2 * ε ≤ c := by
        rcases hct with h | h
        · linarith
        · exact h
      have hrow := flPair_row hA hW h0 h1 hU hS hb hn rb rn Mb Mn hpos.le hbig
      have hrest : (flPairSamples fl base nb u f (k + 1) (fl (c - 1)) = none ∧ pairSamples base nb u f (k + 1) (c - 1) = none) ∨
          ∃ new new', flPairSamples fl base nb u f (k + 1) (fl (c - 1)) = some new ∧ pairSamples base nb u f (k + 1) (c - 1) = some new' ∧
            List.Forall₂ (fun x x' => Between d base nb x ∧ RowsWithin d (fun j => pairError ε * M j) x x') new new' := by
        by_cases h1c : 1 ≤ c
        · obtain ⟨s1, s2⟩ := hN c hc h1c hcN
          rw [s1]
          exact ih (k + 1) (c - 1) ⟨s1, by linarith, s2⟩
        · push Not at h1c
          have hz : fl (c - 1) ≤ 0 := by
            have := fl_mono hA (show c - 1 ≤ 0 by linarith)
            rwa [fl_zero hW] at this
          cases f with
          | zero => exact Or.inl ⟨rfl, rfl⟩
          | succ f =>
            right
            rw [flPairSamples, pairSamples, if_neg (by linarith), if_neg (by linarith)]
            exact ⟨[], [], rfl, rfl, .nil⟩
      rcases hrest with ⟨e1, e2⟩ | ⟨new, new', e1, e2, hf⟩
      · left
        rw [e1, e2]
        exact ⟨rfl, rfl⟩
      · right
        rw [e1, e2, Option.map_some, Option.map_some]
        by_cases hs : u k < c
        · rw [if_pos hs, if_pos hs]
          exact ⟨_, _, rfl, rfl, .cons hrow hf⟩
        · rw [if_neg hs, if_neg hs]
          exact ⟨_, _, rfl, rfl, hf⟩
    · rw [if_neg hpos, if_neg hpos]
      exact Or.inr ⟨[], [], rfl, rfl, .nil⟩

/-! ## The theorems -/

theorem forall₂_flatten_rows {α β : Type} {R : α → β → Prop} {l : List (List α)} {m : List (List β)} (h : List.Forall₂ (List.Forall₂ R) l m) :
    List.Forall₂ R l.flatten m.flatten := by
  induction h with
  | nil => exact .nil
  | cons h _ ih => exact List.rel_append h ih

/-- **One pair.** The loop ends after as many steps as with exact numbers and emits the count rounded down or up; all rows are exactly between the
two rows, and near the exact ones. -/
theorem C138_pair {fl : ℚ → ℚ} {ε N : ℚ} (hA : RoundsToNearest fl) (hW : RoundsWithin fl ε) (h0 : 0 ≤ ε) (h1 : ε ≤ 1 / 2)
    (hU : Shrinks fl (1 - ε)) (hS : fl (1 + 2 * ε) = 1 + 2 * ε) (hN : UnitSteps fl ε N) {d : Nat} {base nb : Row} (hb : base.length = d)
    (hn : nb.length = d) (hr : Representable fl [base, nb]) {u : Nat → ℚ} (hu : ∀ k, 0 ≤ u k ∧ u k < 1) {c : ℚ} (hc0 : 0 ≤ c)
    (hc : CountOK fl ε N c) {fuel : Nat} (hf : ⌈c⌉.toNat < fuel) :
    ∃ rows, flPairSamples fl base nb u fuel 0 c = some rows ∧ ⌊c⌋ ≤ (rows.length : ℤ) ∧ (rows.length : ℤ) ≤ ⌈c⌉ ∧
      ∀ x ∈ rows, Between d base nb x := by
  obtain ⟨rows', e, l1, l2, -⟩ := C36_pair d base nb hb hn u hu c hc0 fuel hf
  rcases flPair_same hA hW h0 h1 hU hS hN hb hn (hr _ (by simp)) (hr _ (by simp)) (M := fun j => max |base.getD j 0| |nb.getD j 0|)
    (fun _ _ => le_max_left _ _) (fun _ _ => le_max_right _ _) u fuel 0 c hc with ⟨-, e'⟩ | ⟨new, new', e1, e2, hF⟩
  · rw [e] at e'; cases e'
  · rw [e] at e2
    cases e2
    refine ⟨new, e1, by rw [hF.length_eq]; exact l1, by rw [hF.length_eq]; exact l2, ?_⟩
    intro x hx
    obtain ⟨x', -, h⟩ := forall₂_mem_left hF hx
    exact h.1

/-- **All pairs.** For given counts the generation of samples raises the same exception as with exact numbers, or makes as many rows, in the same
order, each exactly between two minority rows and near the exact row. -/
theorem C138_samples {fl : ℚ → ℚ} {ε N : ℚ} (hA : RoundsToNearest fl) (hW : RoundsWithin fl ε) (h0 : 0 ≤ ε) (h1 : ε ≤ 1 / 2)
    (hU : Shrinks fl (1 - ε)) (hS : fl (1 + 2 * ε) = 1 + 2 * ε) (hN : UnitSteps fl ε N) {d k : Nat} {Xmin : List Row} {ind : List (List Nat)}
    {counts : List (List ℚ)} {u : Nat → Nat → Nat → ℚ} {M : Nat → ℚ} (hl : ∀ r ∈ Xmin, r.length = d) (hr : Representable fl Xmin)
    (hM : ∀ r ∈ Xmin, ∀ c, c < d → |r.getD c 0| ≤ M c) (hc : ∀ cs ∈ counts, ∀ c ∈ cs, CountOK fl ε N c) :
    SameOutcome (List.Forall₂ (fun x x' => (∃ p ∈ Xmin, ∃ q ∈ Xmin, Between d p q x) ∧ RowsWithin d (fun j => pairError ε * M j) x x'))
      (flSmoteDSamples fl Xmin ind k counts u) (smoteDSamples Xmin ind k counts u) := by
  unfold flSmoteDSamples smoteDSamples
  refine SameOutcome.bind (SameOutcome.mapM ?_) (fun parts parts' _ _ h => .ok (forall₂_flatten_rows h))
  intro i _
  unfold flSmoteDBase smoteDBase
  refine SameOutcome.bind (P := fun a b => a = b) (SameOutcome.refl _ (fun _ _ => rfl)) ?_
  rintro base _ hbase - rfl
  refine SameOutcome.bind (P := fun a b => a = b) (SameOutcome.refl _ (fun _ _ => rfl)) ?_
  rintro nbs _ - - rfl
  refine SameOutcome.bind (P := fun a b => a = b) (SameOutcome.refl _ (fun _ _ => rfl)) ?_
  rintro cs _ hcs - rfl
  refine SameOutcome.bind (SameOutcome.mapM ?_) (fun parts parts' _ _ h => .ok (forall₂_flatten_rows h))
  intro j _
  unfold flSmoteDPair smoteDPair
  refine SameOutcome.bind (P := fun a b => a = b) (SameOutcome.refl _ (fun _ _ => rfl)) ?_
  rintro c _ hcj - rfl
  refine SameOutcome.bind (P := fun a b => a = b) (SameOutcome.refl _ (fun _ _ => rfl)) ?_
  rintro q _ - - rfl
  refine SameOutcome.bind (P := fun a b => a = b) (SameOutcome.refl _ (fun _ _ => rfl)) ?_
  rintro nb _ hnb - rfl
  have mb := getRow_mem hbase
  have mn := getRow_mem hnb
  rcases flPair_same hA hW h0 h1 hU hS hN (hl _ mb) (hl _ mn) (hr _ mb) (hr _ mn) (hM _ mb) (hM _ mn) (u i j) (⌈c⌉.toNat + 1) 0 c
    (hc cs (getRow_mem hcs) c (getRow_mem hcj)) with ⟨e1, e2⟩ | ⟨new, new', e1, e2, hF⟩
  · rw [e1, e2]
    exact .error _
  · rw [e1, e2]
    exact .ok (hF.imp (fun x x' h => ⟨⟨base, mb, nb, mn, h.1⟩, h.2⟩))

/-- **Tiny counts.** A count below the rounding unit disappears in the weight: with the numbers of Python the row of a pair can then lie above both rows
of the pair. -/
theorem C138_tiny : ∃ (base nb x : Row) (c : ℚ), Representable (binaryFl 53) [base, nb, [c]] ∧ 0 < c ∧
    flPairSamples (binaryFl 53) base nb (fun _ => 0) 2 0 c = some [x] ∧ base.getD 0 0 < x.getD 0 0 ∧ nb.getD 0 0 < x.getD 0 0 := by
  refine ⟨[-4], [binaryFl 53 (-9 / 5)], [-9 / 5 + 1 / 5 / 2 ^ 50], 1 / 2 ^ 60, ?_, by norm_num, ?_, ?_, ?_⟩
  · unfold Representable; decide +kernel
  · decide +kernel
  · decide +kernel
  · decide +kernel

/-- **Huge counts.** The bound on the counts is needed: with a count of `2 ^ 60` the loop of the code never ends, as the count does not change. -/
theorem C138_hang (base nb : Row) (u : Nat → ℚ) (fuel k : Nat) : flPairSamples (binaryFl 53) base nb u fuel k (2 ^ 60) = none := by
  have hfix : binaryFl 53 (2 ^ 60 - 1) = 2 ^ 60 := by decide +kernel
  induction fuel generalizing k with
  | zero => rfl
  | succ f ih => rw [flPairSamples, if_pos (by norm_num), hfix, ih]; rfl

/-- The numbers of Python meet the assumptions for counts up to `2 ^ 53`. -/
theorem C138_doubles : RoundsToNearest (binaryFl 53) ∧ RoundsWithin (binaryFl 53) (1 / 2 ^ 53) ∧ Shrinks (binaryFl 53) (1 - 1 / 2 ^ 53) ∧
    binaryFl 53 (1 + 2 * (1 / 2 ^ 53)) = 1 + 2 * (1 / 2 ^ 53) ∧ UnitSteps (binaryFl 53) (1 / 2 ^ 53) (2 ^ 53) ∧ pairError (1 / 2 ^ 53) < 8 / 2 ^ 53 :=
  ⟨binaryFl_nearest (by norm_num), binaryFl_within 53, binaryFl_shrinks (by norm_num), by decide +kernel, binaryFl_steps (by norm_num),
    by unfold pairError mixError; norm_num⟩

/-- Non-vacuity: counts which are not integers, and rows which are rounded. -/
example : CountOK (binaryFl 53) (1 / 2 ^ 53) (2 ^ 53) (5 / 2) ∧ CountOK (binaryFl 53) (1 / 2 ^ 53) (2 ^ 53) 0 ∧
    (flSmoteDSamples (binaryFl 53) [[0], [1]] [[0, 1], [1, 0]] 2 [[5 / 2], [0]] (fun _ _ _ => 1 / 4)).map (fun r => r.length) = .ok 3 ∧
    flPairSamples (binaryFl 53) [0] [1] (fun _ => 1 / 4) 4 0 (5 / 2) = some [[binaryFl 53 (2 / 7)], [binaryFl 53 (2 / 5)], [binaryFl 53 (2 / 3)]] := by
  unfold CountOK
  decide +kernel

end Verif

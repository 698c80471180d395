import Verif.Props.C132
import Verif.Props.C19

/-!
# C133: the number of new rows with the rounding of the machine
-/

namespace Verif

/-- The numbers of Python: all integers up to `2 ^ 53`. The same for every other number of digits. -/
theorem C133_integers {p : Nat} (hp : 1 ≤ p) : ExactUpTo (binaryFl p) (2 ^ p) := by
  intro n hn
  rcases Nat.eq_zero_or_pos n with rfl | h0
  · simpa using binaryFl_zero p
  · refine binaryFl_of_isBinary hp (Or.inr ?_)
    have hnq : (0 : ℚ) < n := by exact_mod_cast h0
    by_cases hlt : n < 2 ^ p
    · have hl : Nat.log 2 n ≤ p - 1 := by
        have := Nat.log_lt_of_lt_pow (by omega) hlt
        omega
      refine ⟨Nat.log 2 n, n * 2 ^ (p - 1 - Nat.log 2 n), ?_, ?_, ?_⟩
      · push_cast
        rw [mul_assoc, ← zpow_natCast, ← zpow_add₀ (by norm_num)]
        have : ((p - 1 - Nat.log 2 n : Nat) : ℤ) + ((Nat.log 2 n : ℤ) - p + 1) = 0 := by omega
        rw [this]; simp
      · rw [abs_of_pos hnq]
        have := Nat.pow_log_le_self 2 (x := n) (by omega)
        rw [zpow_natCast]
        exact_mod_cast this
      · rw [abs_of_pos hnq]
        have := (Nat.lt_pow_succ_log_self (b := 2) (by norm_num) n).le
        have e : ((Nat.log 2 n : ℤ) + 1) = ((Nat.log 2 n + 1 : Nat) : ℤ) := by push_cast; ring
        rw [e, zpow_natCast]
        exact_mod_cast this
    · have e : n = 2 ^ p := by omega
      have e1 : (2 : ℚ) ^ (((p : ℤ) - 1) - p + 1) = 1 := by
        rw [show ((p : ℤ) - 1) - p + 1 = 0 by ring]; simp
      refine ⟨(p : ℤ) - 1, n, ?_, ?_, ?_⟩
      · rw [e1]; simp
      · rw [abs_of_pos hnq, e]
        push_cast
        rw [← zpow_natCast]
        exact zpow_le_zpow_right₀ (by norm_num) (by omega)
      · rw [abs_of_pos hnq, e, sub_add_cancel, zpow_natCast]
        push_cast
        exact le_rfl

/-- **One more or not.** With rounding to nearest, the number of rows asked for is the one of exact arithmetic, or one more; never less. -/
theorem C133_requested {fl : ℚ → ℚ} (hA : RoundsToNearest fl) {N : Nat} (hN : ExactUpTo fl N) {p : ℚ} {nMaj nMin : Nat}
    (h : requested p nMaj nMin < N) :
    requested p nMaj nMin ≤ flRequested fl p nMaj nMin ∧ flRequested fl p nMaj nMin ≤ requested p nMaj nMin + 1 := by
  unfold requested flRequested at *
  generalize ((nMaj : ℚ) - (nMin : ℚ)) * p = x at *
  have hfl := Int.floor_le x
  have hlt := Int.lt_floor_add_one x
  constructor
  · rcases le_or_gt 0 ⌊x⌋ with h0 | h0
    · obtain ⟨k, hk⟩ := Int.eq_ofNat_of_zero_le h0
      rw [hk] at h hfl ⊢
      have h1 : fl ((k : Nat) : ℚ) ≤ fl x := fl_mono hA (by exact_mod_cast hfl)
      rw [hN k (by simpa using h.le)] at h1
      have : (k : Int) ≤ ⌊fl x⌋ := Int.le_floor.2 (by exact_mod_cast h1)
      omega
    · omega
  · have hb : x ≤ ((⌊x⌋.toNat + 1 : Nat) : ℚ) := by
      have : (⌊x⌋ : ℚ) + 1 ≤ ((⌊x⌋.toNat + 1 : Nat) : ℚ) := by
        push_cast
        have := Int.self_le_toNat ⌊x⌋
        have : (⌊x⌋ : ℚ) ≤ ((⌊x⌋.toNat : Int) : ℚ) := by exact_mod_cast this
        rw [Int.cast_natCast] at this
        linarith
      linarith
    have h1 := fl_mono hA hb
    rw [hN _ (by omega)] at h1
    have : ⌊fl x⌋ ≤ ((⌊x⌋.toNat + 1 : Nat) : Int) := by
      have := Int.floor_le_floor h1
      rwa [Int.floor_natCast] at this
    omega

/-- **Never more than the gap.** With a proportion of at most one, no more rows are asked for than the majority has in excess. -/
theorem C133_gap {fl : ℚ → ℚ} (hA : RoundsToNearest fl) {N : Nat} (hN : ExactUpTo fl N) {p : ℚ} {nMaj nMin : Nat} (hle : nMin ≤ nMaj)
    (hm : nMaj - nMin ≤ N) (hp : p ≤ 1) : flRequested fl p nMaj nMin ≤ nMaj - nMin := by
  unfold flRequested
  have hq : ((nMaj : ℚ) - nMin) = ((nMaj - nMin : Nat) : ℚ) := by rw [Nat.cast_sub hle]
  rw [hq]
  have h1 : fl (((nMaj - nMin : Nat) : ℚ) * p) ≤ fl ((nMaj - nMin : Nat) : ℚ) :=
    fl_mono hA (mul_le_of_le_one_right (Nat.cast_nonneg _) hp)
  rw [hN _ hm] at h1
  have := Int.floor_le_floor h1
  rw [Int.floor_natCast] at this
  omega

/-- **Proportion one.** The default fills the gap exactly. -/
theorem C133_one {fl : ℚ → ℚ} {N : Nat} (hN : ExactUpTo fl N) {nMaj nMin : Nat} (hle : nMin ≤ nMaj) (hm : nMaj - nMin ≤ N) :
    flRequested fl 1 nMaj nMin = nMaj - nMin := by
  unfold flRequested
  rw [mul_one, ← Nat.cast_sub hle, hN _ hm, Int.floor_natCast, Int.toNat_natCast]

/-- The numbers of Python: for a gap of ten rows and proportion 0.7, seven rows are asked for, although the number stored for 0.7 is less
than 7/10, and 6 would be correct for it. -/
theorem C133_one_more : binaryFl 53 (7 / 10) < 7 / 10 ∧ requested (binaryFl 53 (7 / 10)) 20 10 = 6 ∧
    flRequested (binaryFl 53) (binaryFl 53 (7 / 10)) 20 10 = 7 := by
  have e : binaryFl 53 (7 / 10) = 6305039478318694 / 2 ^ 53 := by decide +kernel
  refine ⟨by rw [e]; norm_num, ?_, by decide +kernel⟩
  rw [e]
  unfold requested
  have : ⌊(((20 : Nat) : ℚ) - ((10 : Nat) : ℚ)) * (6305039478318694 / 2 ^ 53)⌋ = 6 := by
    rw [Int.floor_eq_iff]
    norm_num
  rw [this]
  rfl

/-! ## Proportions which are quotients -/

/-- The core estimate: a gap of `D - e` rows, of which the share `g / D` is asked for. -/
theorem flShare {fl : ℚ → ℚ} {ε : ℚ} (hA : RoundsToNearest fl) (hW : RoundsWithin fl ε) (h0 : 0 ≤ ε) (h1 : ε < 1) {N : Nat}
    (hN : ExactUpTo fl N) {k g D e nMaj nMin : Nat} (hk : 1 ≤ k) (hg : 1 ≤ g) (hgN : g ≤ N) (hD : k * g ≤ D) (he : e + 1 ≤ k)
    (hgap : nMin + (D - e) = nMaj) (heD : e ≤ D) (hε : 4 * ε * (k * g) ≤ 1) :
    flRequested fl (fl ((g : ℚ) / D)) nMaj nMin = g ∨ flRequested fl (fl ((g : ℚ) / D)) nMaj nMin = g - 1 := by
  have hkq : (1 : ℚ) ≤ k := by exact_mod_cast hk
  have hgq : (1 : ℚ) ≤ g := by exact_mod_cast hg
  have hDq : (k : ℚ) * g ≤ D := by exact_mod_cast hD
  have hD0 : (0 : ℚ) < D := lt_of_lt_of_le (by positivity) hDq
  have heq : (e : ℚ) + 1 ≤ k := by exact_mod_cast he
  have he0 : (0 : ℚ) ≤ e := Nat.cast_nonneg e
  have heDq : (e : ℚ) ≤ D := by exact_mod_cast heD
  unfold flRequested
  have hx : ((nMaj : ℚ) - nMin) = D - e := by
    rw [← hgap]; push_cast [Nat.cast_sub heD]; ring
  rw [hx]
  set q := fl ((g : ℚ) / D) with hq
  have hgD : (0 : ℚ) < g / D := by positivity
  have hqb := abs_le.1 (hW ((g : ℚ) / D))
  rw [abs_of_pos hgD, ← hq] at hqb
  have hεg : ε * g ≤ 1 / 4 := by nlinarith
  -- lower bound
  have hlo : ((g : ℚ) - 1) ≤ (D - e) * q := by
    have s1 : (D - e) * ((1 - ε) * (g / D)) ≤ (D - e) * q := mul_le_mul_of_nonneg_left (by linarith) (by linarith)
    have s2 : (D - (e : ℚ)) * ((1 - ε) * (g / D)) = (1 - ε) * g * (1 - e / D) := by field_simp
    have s3 : (e : ℚ) / D * g ≤ 1 - 1 / k := by
      rw [div_mul_eq_mul_div, div_le_iff₀ hD0]
      have : (1 - 1 / (k : ℚ)) * (k * g) ≤ (1 - 1 / (k : ℚ)) * D :=
        mul_le_mul_of_nonneg_left hDq (by rw [sub_nonneg, div_le_iff₀ (by linarith)]; linarith)
      have e1 : (1 - 1 / (k : ℚ)) * (k * g) = (k - 1) * g := by field_simp
      rw [e1] at this
      nlinarith
    have s4 : ε * g ≤ 1 / k := by
      rw [le_div_iff₀ (by linarith)]
      nlinarith
    have s5 : 0 ≤ ε * ((e : ℚ) / D * g) := by positivity
    rw [s2] at s1
    nlinarith
  -- upper bound
  have hup : (D - e) * q ≤ (1 + ε) * g := by
    have hq0 : 0 ≤ q := by nlinarith
    calc (D - e) * q ≤ D * q := mul_le_mul_of_nonneg_right (by linarith) hq0
      _ ≤ D * ((1 + ε) * (g / D)) := mul_le_mul_of_nonneg_left (by linarith) hD0.le
      _ = (1 + ε) * g := by field_simp
  have hlo' : ((g : ℚ) - 1) ≤ fl ((D - e) * q) := by
    have e1 : ((g : ℚ) - 1) = ((g - 1 : Nat) : ℚ) := by push_cast [Nat.cast_sub hg]; ring
    have := fl_mono hA hlo
    rw [e1, hN _ (by omega)] at this
    rw [e1]; exact this
  have hup' : fl ((D - e) * q) < g + 1 := by
    have hx0 : 0 ≤ (D - (e : ℚ)) * q := le_trans (by linarith) hlo
    have := (abs_le.1 (hW ((D - (e : ℚ)) * q))).2
    rw [abs_of_nonneg hx0] at this
    have h2 : (1 + ε) * ((D - e) * q) ≤ (1 + ε) * ((1 + ε) * g) := mul_le_mul_of_nonneg_left hup (by linarith)
    nlinarith
  have f1 : ((g : Int) - 1) ≤ ⌊fl ((D - e) * q)⌋ := Int.le_floor.2 (by push_cast; exact hlo')
  have f2 : ⌊fl ((D - e) * q)⌋ < (g : Int) + 1 := Int.floor_lt.2 (by push_cast; exact hup')
  omega

/-- **A proportion given as a quotient.** Who asks for `g` of the `D` missing rows by the proportion `g / D` gets `g` or `g - 1` rows. -/
theorem C133_quotient {fl : ℚ → ℚ} {ε : ℚ} (hA : RoundsToNearest fl) (hW : RoundsWithin fl ε) (h0 : 0 ≤ ε) (h1 : ε < 1) {N : Nat}
    (hN : ExactUpTo fl N) {g nMaj nMin : Nat} (hg : 1 ≤ g) (hgN : g ≤ N) (hle : nMin + g ≤ nMaj) (hε : 4 * ε * g ≤ 1) :
    flRequested fl (fl ((g : ℚ) / (nMaj - nMin : Nat))) nMaj nMin = g ∨ flRequested fl (fl ((g : ℚ) / (nMaj - nMin : Nat))) nMaj nMin = g - 1 :=
  flShare hA hW h0 h1 hN (k := 1) (e := 0) le_rfl hg hgN (by omega) (by omega) (by omega) (by omega) (by simpa using hε)

/-- Both happen: 1 of 48 rows is one row, 1 of 49 rows is no row. -/
theorem C133_quotient_lost : flRequested (binaryFl 53) (binaryFl 53 (1 / 48)) 60 12 = 1 ∧
    flRequested (binaryFl 53) (binaryFl 53 (1 / 49)) 61 12 = 0 := by decide +kernel

/-! ## Several classes -/

/-- Contract of the inner binary oversampler of `MulticlassOversampling`, as in C19, with the number of rows asked for with rounding. -/
structure FlBinOverOK (fl : ℚ → ℚ) (d : Nat) (over : BinOver) : Prop where
  extends_ : ∀ i p X y X' y', WF d X y → IsMinority y 1 0 → over i p X y = .ok (X', y') →
    (∃ n, Extends X y 1 n X' y') ∧ ∀ r ∈ X', r.length = d
  exact_ : ∀ i q X y X' y', WF d X y → IsMinority y 1 0 → 2 < y.count 1 → 0 ≤ q →
    over i (.fin q) X y = .ok (X', y') → Extends X y 1 (flRequested fl q (y.count 0) (y.count 1)) X' y'

theorem flRandomSamples_shape {A : MachineArith} {d : Nat} {X : List Row} {sel : List (List Nat)} {Xv : Option (List Row)} {u : Nat → Nat → ℚ}
    {out : List Row} (h : flRandomSamples A d X sel Xv u = .ok out) : out.length = sel.length ∧ ∀ r ∈ out, r.length = d := by
  unfold flRandomSamples at h
  refine ⟨by simpa using mapM_ok_length h, fun r hr => ?_⟩
  obtain ⟨p, _, hp⟩ := mapM_ok_mem h hr
  obtain ⟨w, _, hp⟩ := bind_ok.1 hp
  obtain ⟨vs, _, hp⟩ := bind_ok.1 hp
  injection hp with hp
  subst hp
  exact flPoint_length ..

/-- **SMOTE.** The data are kept, and if the minority class has more than two rows, exactly the rows asked for are added to it. -/
theorem C133_smote {A : MachineArith} {par : SmoteParams} {vol : List Row → ℚ} {dr : Draws} {d : Nat} {knn : Nat → List Row → List (List Nat)}
    {X X' : List Row} {y y' : List Int} {a b : Int} (hwf : WF d X y) (hmin : IsMinority y a b)
    (h : sample defaultChecks d (flSmoteAlg A par vol dr d knn) X y = .ok (X', y')) :
    (y.count a ≤ 2 → X' = X ∧ y' = y) ∧ (2 < y.count a → Extends X y a (flRequested A.fl par.proportion (y.count b) (y.count a)) X' y') ∧
    ∀ r ∈ X', r.length = d := by
  obtain ⟨s, hs, rfl, rfl⟩ := stats_of_isMinority hmin
  obtain ⟨hm, hM, _⟩ := stats_min_mem hs
  rw [sample_default hs] at h
  split at h
  · rename_i h2
    injection h with h
    obtain ⟨rfl, rfl⟩ := Prod.mk.inj h
    exact ⟨fun _ => ⟨rfl, rfl⟩, fun h3 => by omega, hwf.2⟩
  · rename_i h2
    refine ⟨fun h3 => absurd h3 h2, ?_⟩
    unfold flSmoteAlg at h
    rw [stats_count hs hm, stats_count hs hM, flDetN_eq, ok_bind] at h
    split at h
    · rename_i h0
      injection h with h
      obtain ⟨rfl, rfl⟩ := Prod.mk.inj h
      exact ⟨fun _ => ⟨[], by simp [h0]⟩, hwf.2⟩
    · dsimp only at h
      obtain ⟨sel, hsel, h⟩ := bind_ok.1 h
      obtain ⟨out, hout, h⟩ := bind_ok.1 h
      injection h with h
      obtain ⟨rfl, rfl⟩ := Prod.mk.inj h
      obtain ⟨hl, hd⟩ := flRandomSamples_shape hout
      refine ⟨fun _ => ⟨out, rfl, rfl, hl.trans (simplicesSel_sound hsel).1⟩, fun r hr => ?_⟩
      rcases List.mem_append.1 hr with hr | hr
      · exact hwf.2 r hr
      · exact hd r hr

/-- **No overshooting.** With a proportion of at most one, SMOTE never makes the minority class larger than the majority class, also with
rounding; with proportion one both have the same size afterwards. -/
theorem C133_smote_balance {A : MachineArith} (hA : RoundsToNearest A.fl) {N : Nat} (hN : ExactUpTo A.fl N) {par : SmoteParams}
    {vol : List Row → ℚ} {dr : Draws} {d : Nat} {knn : Nat → List Row → List (List Nat)} {X X' : List Row} {y y' : List Int} {a b : Int}
    (hwf : WF d X y) (hmin : IsMinority y a b) (hy : y.length ≤ N) (hp : par.proportion ≤ 1)
    (h : sample defaultChecks d (flSmoteAlg A par vol dr d knn) X y = .ok (X', y')) :
    y'.count a ≤ y'.count b ∧ (par.proportion = 1 → 2 < y.count a → y'.count a = y'.count b) := by
  have hle : y.count a ≤ y.count b := by rcases hmin.2.2.2 with h | h <;> omega
  have hab : a ≠ b := by
    rintro rfl
    rcases hmin.2.2.2 with h | h <;> omega
  have hb : y.count b ≤ y.length := List.count_le_length
  obtain ⟨h1, h2, _⟩ := C133_smote hwf hmin h
  by_cases hc : y.count a ≤ 2
  · obtain ⟨_, rfl⟩ := h1 hc
    exact ⟨hle, fun _ h3 => by omega⟩
  · obtain ⟨new, _, rfl, _⟩ := h2 (by omega)
    have e1 : (List.replicate (flRequested A.fl par.proportion (y.count b) (y.count a)) a).count b = 0 := by
      rw [List.count_replicate]; simp [hab]
    rw [List.count_append, List.count_append, List.count_replicate_self, e1]
    have := C133_gap hA hN (p := par.proportion) hle (by omega) hp
    refine ⟨by omega, fun hp1 _ => ?_⟩
    rw [hp1, C133_one hN hle (by omega)]
    omega

/-- The hypotheses hold: SMOTE with the numbers of Python on three and five rows. -/
example : WF 2 exX exY ∧ IsMinority exY 1 0 ∧ exY.length ≤ 2 ^ 53 ∧ exPar.proportion = 1 ∧
    (sample defaultChecks 2 (flSmoteAlg doubles exPar (fun _ => 1) roundDraws 2 exKnn) exX exY).toOption.map (fun r => (r.2.count 1, r.2.count 0)) =
      some (5, 5) := by
  refine ⟨⟨by decide, by decide⟩, by unfold IsMinority; decide, by decide +kernel, rfl, by decide +kernel⟩

/-- SMOTE with rounding meets the contract. -/
theorem C133_smote_contract (A : MachineArith) (par : SmoteParams) (vol : List Row → ℚ) (dr : Nat → Draws) (d : Nat)
    (knn : Nat → List Row → List (List Nat)) : FlBinOverOK A.fl d (flSmoteOver A par vol dr d knn) := by
  have hnf : ∀ (X X' : List Row) (y y' : List Int), WF d X y → IsMinority y 1 0 →
      sample defaultChecks d (fun _ _ _ => (.error .valueError : Res (List Row × List Int))) X y = .ok (X', y') →
      (∃ n, Extends X y 1 n X' y') ∧ ∀ r ∈ X', r.length = d := by
    intro X X' y y' hwf hmin h
    obtain ⟨s, hs, _⟩ := stats_of_isMinority hmin
    rcases sample_default_ok hs h with ⟨rfl, rfl⟩ | h
    · exact ⟨⟨0, [], by simp⟩, hwf.2⟩
    · cases h
  constructor
  · intro i p X y X' y' hwf hmin h
    cases p with
    | fin q =>
      obtain ⟨h1, h2, h3⟩ := C133_smote hwf hmin h
      refine ⟨?_, h3⟩
      by_cases hc : y.count 1 ≤ 2
      · obtain ⟨rfl, rfl⟩ := h1 hc
        exact ⟨0, [], by simp⟩
      · exact ⟨_, h2 (by omega)⟩
    | posInf => exact hnf _ _ _ _ hwf hmin h
    | negInf => exact hnf _ _ _ _ hwf hmin h
    | nan => exact hnf _ _ _ _ hwf hmin h
  · intro i q X y X' y' hwf hmin h2 _ h
    exact (C133_smote hwf hmin h).2.1 h2

theorem flSuccessiveLoop_counts {fl : ℚ → ℚ} {ε : ℚ} (hA : RoundsToNearest fl) (hW : RoundsWithin fl ε) (h0 : 0 ≤ ε) (h1 : ε < 1) {N : Nat}
    (hN : ExactUpTo fl N) {d : Nat} {over : BinOver} (ho : FlBinOverOK fl d over) {X : List Row} {y : List Int}
    (hwf : WF d X y) {nMaj T : Nat} (hT : 4 * ε * (T * nMaj) ≤ 1) (hm : nMaj ≤ N) :
    ∀ {cs : List (Int × Nat)} {idx e : Nat} {Xmaj : List Row} {res}, Xmaj.length + e = idx * nMaj → e + 1 ≤ idx →
      idx + cs.length ≤ T + 1 → (∀ r ∈ Xmaj, r.length = d) →
      (∀ c ∈ cs, c.2 = y.count c.1 ∧ 2 < c.2 ∧ c.2 < nMaj) →
      successiveLoop (fun i p => over i (p.rounded fl)) X y nMaj idx Xmaj cs = .ok res →
      List.Forall₂ (fun c r => r.1 = c.1 ∧ (c.2 + r.2.length = nMaj ∨ c.2 + r.2.length + 1 = nMaj)) cs res := by
  intro cs
  induction cs with
  | nil => intro idx e Xmaj res _ _ _ _ _ h; unfold successiveLoop at h; injection h with h; subst h; exact .nil
  | cons c cs ih =>
    intro idx e Xmaj res hXl he hidx hXd hc h
    unfold successiveLoop at h
    dsimp only at h
    obtain ⟨⟨X', y'⟩, hr, h⟩ := bind_ok.1 h
    obtain ⟨more, hmo, h⟩ := bind_ok.1 h
    have h := pure_ok.1 h
    subst h
    obtain ⟨hcc, h2, hlt⟩ := hc c (by simp)
    rw [List.length_cons] at hidx
    have hol : (selectLabel X y c.1).length = c.2 := by rw [selectLabel_length hwf.1, hcc]
    have hid1 : 1 ≤ idx := by omega
    have hkm : nMaj + (idx - 1) * nMaj = idx * nMaj := by
      obtain ⟨j, rfl⟩ : ∃ j, idx = j + 1 := ⟨idx - 1, by omega⟩
      simp only [Nat.add_sub_cancel]; ring
    have hbig : idx - 1 ≤ (idx - 1) * nMaj := Nat.le_mul_of_pos_right _ (by omega)
    have hXn : nMaj ≤ Xmaj.length := by omega
    obtain ⟨hmin, hc1, hc0⟩ := train_isMinority (m := Xmaj.length)
      (n := (selectLabel X y c.1).length) (by omega) (by omega)
    have hlen : (Xmaj ++ selectLabel X y c.1).length =
        (List.replicate Xmaj.length (0:Int) ++
          List.replicate (selectLabel X y c.1).length 1).length := by simp
    have hwf' : WF d (Xmaj ++ selectLabel X y c.1) (List.replicate Xmaj.length (0:Int) ++
          List.replicate (selectLabel X y c.1).length 1) := by
      refine ⟨hlen, ?_⟩
      intro r hr
      rcases List.mem_append.1 hr with hr | hr
      · exact hXd r hr
      · exact hwf.2 r (selectLabel_mem hr)
    have hden : ((idx : Int) * nMaj - c.2) ≠ 0 := by
      have : (idx : Int) * nMaj = ((idx * nMaj : Nat) : Int) := by push_cast; ring
      omega
    have hp : (proportion1VsManySucc nMaj c.2 idx).rounded fl =
        .fin (fl (((nMaj - c.2 : Nat) : ℚ) / ((idx * nMaj - c.2 : Nat) : ℚ))) := by
      unfold proportion1VsManySucc npDiv
      rw [if_neg hden]
      unfold XF.rounded
      dsimp only
      congr 2
      rw [Nat.cast_sub hlt.le, Nat.cast_sub (by omega)]
      push_cast
      rfl
    rw [hp] at hr
    have hpos : (0 : ℚ) ≤ fl (((nMaj - c.2 : Nat) : ℚ) / ((idx * nMaj - c.2 : Nat) : ℚ)) := fl_nonneg hW h1 (by positivity)
    have hext := ho.exact_ idx _ _ _ X' y' hwf' hmin (by omega) hpos hr
    rw [hc1, hc0, hol] at hext
    have hεk : 4 * ε * (idx * (nMaj - c.2 : Nat)) ≤ 1 := by
      refine le_trans (mul_le_mul_of_nonneg_left ?_ (by linarith)) hT
      have : idx * (nMaj - c.2) ≤ T * nMaj := Nat.mul_le_mul (by omega) (Nat.sub_le _ _)
      exact_mod_cast this
    have hDk : idx * (nMaj - c.2) ≤ idx * nMaj - c.2 := by
      rw [Nat.mul_sub]
      have : c.2 ≤ idx * c.2 := Nat.le_mul_of_pos_left _ hid1
      omega
    have hsh := flShare hA hW h0 h1 hN (k := idx) (g := nMaj - c.2) (D := idx * nMaj - c.2) (e := e) (nMaj := Xmaj.length) (nMin := c.2)
      hid1 (by omega) (by omega) hDk he (by omega) (by omega) hεk
    generalize flRequested fl (fl (((nMaj - c.2 : Nat) : ℚ) / ((idx * nMaj - c.2 : Nat) : ℚ))) Xmaj.length c.2 = g at hext hsh
    have hdim := (ho.extends_ idx _ _ _ X' y' hwf' hmin hr).2
    have hnew : (newOnes (Xmaj ++ selectLabel X y c.1).length (X', y')).length = g := newOnes_extends (by simp [hol]) hext
    refine .cons ⟨rfl, by dsimp only; rw [hnew]; omega⟩ ?_
    have hXX : (Xmaj ++ selectLabel X' y' 1).length = Xmaj.length + (c.2 + g) := by
      rw [List.length_append, selectLabel_eq_classRows]
      have : X'.length = y'.length := by
        obtain ⟨new, e1, e2, e3⟩ := hext
        rw [e1, e2]; simp [e3, hol]
      rw [classRows_length this]
      obtain ⟨new, e1, e2, e3⟩ := hext
      rw [e2]
      simp [List.count_replicate]
    have hmul : (idx + 1) * nMaj = idx * nMaj + nMaj := by ring
    refine ih (idx := idx + 1) (e := e + (nMaj - c.2 - g)) ?_ ?_ (by omega) ?_ (fun c hc' => hc c (by simp [hc'])) hmo
    · rw [hXX, hmul]; omega
    · omega
    · intro r hr
      rcases List.mem_append.1 hr with hr | hr
      · exact hXd r hr
      · exact hdim r (selectLabel_mem hr)

/-- **Several classes, successive strategy.** With rounding every class ends with the size of the largest one, or one row less. -/
theorem C133_multiclass {fl : ℚ → ℚ} {ε : ℚ} (hA : RoundsToNearest fl) (hW : RoundsWithin fl ε) (h0 : 0 ≤ ε) (h1 : ε < 1) {N : Nat}
    (hN : ExactUpTo fl N) {d : Nat} {over : BinOver} (ho : FlBinOverOK fl d over) {X X' : List Row} {y y' : List Int} (hwf : WF d X y)
    (hy : y.length ≤ N) (hε : 4 * ε * (y.length * y.length) ≤ 1) {m : Int} (hm : m ∈ y)
    (hother : ∀ l ∈ y, l ≠ m → 2 < y.count l ∧ y.count l < y.count m)
    (h : flMulticlassSample fl .successive over X y = .ok (X', y')) :
    ∀ l ∈ y, y'.count l = y.count m ∨ y'.count l + 1 = y.count m := by
  unfold flMulticlassSample multiclassSample at h
  obtain ⟨s, hs, h⟩ := bind_ok.1 h
  obtain ⟨maj, cs, hsc, hmc, hmy, hmax, hcs, hnd, hall, _, _⟩ := sortedClasses_shape hs
  rw [hsc] at h
  dsimp only at h
  obtain ⟨results, hres, h⟩ := bind_ok.1 h
  have h := pure_ok.1 h
  injection h with e1 e2
  have hmm : maj.1 = m := by
    by_contra hne
    have h1 := (hother maj.1 hmy hne).2
    have h2 := hmax m hm
    omega
  have hcount : maj.2 ≤ y.length := hmc ▸ List.count_le_length
  have hlen : cs.length ≤ y.length := by
    have := (hnd.subperm (l₂ := y) (by
      intro l hl
      obtain ⟨c, hc, rfl⟩ := List.mem_map.1 hl
      exact (hcs c hc).2.1)).length_le
    simpa using this
  have hf := flSuccessiveLoop_counts hA hW h0 h1 hN ho hwf (nMaj := maj.2) (T := y.length) (e := 0) (by
      refine le_trans (mul_le_mul_of_nonneg_left ?_ (by linarith)) hε
      have : y.length * maj.2 ≤ y.length * y.length := Nat.mul_le_mul_left _ hcount
      exact_mod_cast this) (by omega) (by rw [selectLabel_length hwf.1, ← hmc]; omega) (by omega) (by omega)
    (fun r hr => hwf.2 r (selectLabel_mem hr)) (by
      intro c hc
      obtain ⟨c1, c2, c3⟩ := hcs c hc
      have := hother c.1 c2 (hmm ▸ c3)
      rw [hmc, hmm, c1]
      exact ⟨rfl, this⟩) hres
  have hlab := successiveLoop_labels hres
  intro l hl
  rw [← e2, List.count_append]
  by_cases hlm : l = m
  · subst hlm
    rw [count_stack_notMem]
    · left; omega
    · rw [hlab]
      intro hmem
      obtain ⟨c, hc, e⟩ := List.mem_map.1 hmem
      exact (hcs c hc).2.2 (e.trans hmm.symm)
  · obtain ⟨c, hc, rfl⟩ := hall l hl (hmm ▸ hlm)
    obtain ⟨r, hr, hr1, hr2⟩ := forall₂_mem_left hf hc
    rw [← hr1, count_stack (hlab ▸ hnd) hr, hr1, ← (hcs c hc).1, ← hmm, ← hmc]
    omega

/-- Three classes with 29, 20 and 14 rows. -/
def shortX : List Row := (List.range 63).map (fun i => [(i : ℚ)])
def shortY : List Int := List.replicate 29 0 ++ List.replicate 20 1 ++ List.replicate 14 2

/-- **The last row may be missing.** With the numbers of Python and SMOTE, classes of 29, 20 and 14 rows end with 29, 29 and 28 rows. -/
theorem C133_multiclass_short : ∃ X' y', flMulticlassSample (binaryFl 53) .successive
      (flSmoteOver doubles exPar (fun _ => 1) (fun _ => roundDraws) 1 exKnn) shortX shortY = .ok (X', y') ∧
    y'.count 0 = 29 ∧ y'.count 1 = 29 ∧ y'.count 2 = 28 := by
  have h : (flMulticlassSample (binaryFl 53) .successive
      (flSmoteOver doubles exPar (fun _ => 1) (fun _ => roundDraws) 1 exKnn) shortX shortY).toOption.map
        (fun r => (r.2.count 0, r.2.count 1, r.2.count 2)) = some (29, 29, 28) := by decide +kernel
  cases hr : flMulticlassSample (binaryFl 53) .successive
      (flSmoteOver doubles exPar (fun _ => 1) (fun _ => roundDraws) 1 exKnn) shortX shortY with
  | error e => rw [hr] at h; cases h
  | ok r =>
    rw [hr] at h
    simp only [Except.toOption, Option.map_some, Option.some.injEq, Prod.mk.injEq] at h
    exact ⟨r.1, r.2, rfl, h⟩

/-- The hypotheses of `C133_multiclass` hold for these data and the numbers of Python. -/
example : RoundsToNearest (binaryFl 53) ∧ RoundsWithin (binaryFl 53) (1 / 2 ^ 53) ∧ ExactUpTo (binaryFl 53) (2 ^ 53) ∧
    FlBinOverOK (binaryFl 53) 1 (flSmoteOver doubles exPar (fun _ => 1) (fun _ => roundDraws) 1 exKnn) ∧ WF 1 shortX shortY ∧
    shortY.length ≤ 2 ^ 53 ∧ 4 * ((1 : ℚ) / 2 ^ 53) * (shortY.length * shortY.length) ≤ 1 ∧ (0 : Int) ∈ shortY ∧
    ∀ l ∈ shortY, l ≠ 0 → 2 < shortY.count l ∧ shortY.count l < shortY.count 0 := by
  have hl : shortY.length = 63 := by decide +kernel
  refine ⟨binaryFl_nearest (by norm_num), binaryFl_within 53, C133_integers (by norm_num), C133_smote_contract doubles _ _ _ _ _, ?_, ?_, ?_, ?_, ?_⟩
  · exact ⟨by decide +kernel, by decide +kernel⟩
  · rw [hl]; norm_num
  · rw [hl]; norm_num
  · decide +kernel
  · decide +kernel

end Verif

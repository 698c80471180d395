import Verif.Model.RoundedPolynom
import Verif.Props.C132
import Verif.Props.C133
import Verif.Props.C45

/-!
# C137: polynom_fit_SMOTE with the rounding of the machine
-/

namespace Verif

/-! ## Specification -/

/-- Halves of integers up to `N / 2` are numbers of the machine. -/
def HalvesExact (fl : ℚ → ℚ) (N : Nat) : Prop := ∀ n : Nat, n ≤ N → fl ((n : ℚ) / 2) = (n : ℚ) / 2

/-- The relative error of a rounded mean of `m` numbers, about `m * ε`. -/
def meanError (ε : ℚ) (m : Nat) : ℚ := (1 + ε) ^ m - 1

/-! ## The number of rows -/

theorem isBinary_half {p : Nat} {f : ℚ} (h : IsBinary p f) : IsBinary p (f / 2) := by
  rcases h with rfl | ⟨e, k, hk, h1, h2⟩
  · left; norm_num
  · right
    have two : (2 : ℚ) ≠ 0 := by norm_num
    refine ⟨e - 1, k, ?_, ?_, ?_⟩
    · rw [hk, show e - 1 - (p : ℤ) + 1 = (e - p + 1) - 1 by ring, zpow_sub_one₀ two]; ring
    · rw [abs_div, zpow_sub_one₀ two, abs_of_pos (by norm_num : (0 : ℚ) < 2)]; linarith
    · rw [abs_div, abs_of_pos (by norm_num : (0 : ℚ) < 2), show e - 1 + 1 = (e + 1) - 1 by ring, zpow_sub_one₀ two]; linarith

theorem binaryFl_halves {p : Nat} (hp : 1 ≤ p) : HalvesExact (binaryFl p) (2 ^ p) := by
  intro n hn
  apply binaryFl_of_isBinary hp
  apply isBinary_half
  have := isBinary_binaryFl hp (n : ℚ)
  rwa [C133_integers hp n hn] at this

/-- The rounded value of a number strictly between two neighbouring halves depends on these only. -/
theorem npRound_between {x : ℚ} {j : ℤ} (h1 : (j : ℚ) / 2 < x) (h2 : x < ((j : ℚ) + 1) / 2) : npRoundHalfEven x = (j + 1) / 2 := by
  obtain ⟨i, hi⟩ : ∃ i : ℤ, j = 2 * i ∨ j = 2 * i + 1 := ⟨j / 2, by omega⟩
  have hf : ⌊x⌋ = i := by
    rw [Int.floor_eq_iff]
    rcases hi with rfl | rfl <;> push_cast at h1 h2 <;> constructor <;> linarith
  unfold npRoundHalfEven
  rw [hf]
  rcases hi with rfl | rfl
  · push_cast at h1 h2
    rw [if_pos (by linarith)]
    omega
  · push_cast at h1 h2
    rw [if_neg (by linarith), if_pos (by linarith)]
    omega

/-- Rounding does not change the number of rows per minority row. -/
theorem C137_count {fl : ℚ → ℚ} {ε : ℚ} (hW : RoundsWithin fl ε) {n m : Nat} (hm : 1 ≤ m) (hH : HalvesExact fl (2 * n)) (hε : 2 * n * ε < 1) :
    flSamplesPerRow fl n m = samplesPerRow n m := by
  unfold flSamplesPerRow samplesPerRow
  have hm0 : (0 : ℚ) < m := by exact_mod_cast hm
  have hx0 : (0 : ℚ) ≤ (n : ℚ) / m := by positivity
  obtain ⟨j, hj⟩ : ∃ j : ℤ, j = ⌊2 * ((n : ℚ) / m)⌋ := ⟨_, rfl⟩
  have j1 : (j : ℚ) ≤ 2 * ((n : ℚ) / m) := by rw [hj]; exact Int.floor_le _
  have j2 : 2 * ((n : ℚ) / m) < j + 1 := by rw [hj]; exact Int.lt_floor_add_one _
  have hj0 : 0 ≤ j := by rw [hj]; exact Int.floor_nonneg.2 (by positivity)
  have hmul : (n : ℚ) / m * m = n := div_mul_cancel₀ _ hm0.ne'
  rcases j1.eq_or_lt with he | hlt
  · -- a half of an integer
    have hx : (n : ℚ) / m = ((j.toNat : ℕ) : ℚ) / 2 := by
      have : ((j.toNat : ℕ) : ℚ) = (j : ℚ) := by exact_mod_cast Int.toNat_of_nonneg hj0
      rw [this]; linarith
    have hle : (j.toNat : ℚ) ≤ ((2 * n : ℕ) : ℚ) := by
      have h1 : (1 : ℚ) ≤ m := by exact_mod_cast hm
      push_cast
      nlinarith
    rw [hx, hH _ (by exact_mod_cast hle)]
  · have hr := hW ((n : ℚ) / m)
    rw [abs_of_nonneg hx0] at hr
    have hr' := abs_le.1 hr
    -- the distance to both halves is at least `1 / (2 * m)`
    have i1 : (j : ℚ) * m + 1 ≤ 2 * n := by
      have : (j * m : ℤ) < 2 * n := by
        have : (j : ℚ) * m < 2 * n := by nlinarith
        exact_mod_cast this
      exact_mod_cast this
    have i2 : 2 * (n : ℚ) + 1 ≤ (j + 1) * m := by
      have : (2 * n : ℤ) < (j + 1) * m := by
        have : 2 * (n : ℚ) < (j + 1) * m := by nlinarith
        exact_mod_cast this
      exact_mod_cast this
    have key : ε * ((n : ℚ) / m) * (2 * m) < 1 := by
      have : ε * ((n : ℚ) / m) * (2 * m) = 2 * n * ε := by field_simp
      rw [this]; exact hε
    have r1 : (j : ℚ) / 2 < fl ((n : ℚ) / m) := by
      have : (j : ℚ) / 2 < (n : ℚ) / m - ε * ((n : ℚ) / m) := by
        rw [← mul_lt_mul_iff_left₀ (show (0 : ℚ) < 2 * m by positivity)]
        nlinarith
      linarith [hr'.1]
    have r2 : fl ((n : ℚ) / m) < ((j : ℚ) + 1) / 2 := by
      have : (n : ℚ) / m + ε * ((n : ℚ) / m) < ((j : ℚ) + 1) / 2 := by
        rw [← mul_lt_mul_iff_left₀ (show (0 : ℚ) < 2 * m by positivity)]
        nlinarith
      linarith [hr'.2]
    rw [npRound_between r1 r2, npRound_between (j := j) (by linarith) (by linarith)]

/-! ## The mean -/

theorem pow_symm {ε : ℚ} (h0 : 0 ≤ ε) (h1 : ε ≤ 1) (m : Nat) : 1 - meanError ε m ≤ (1 - ε) ^ m := by
  unfold meanError
  have a := one_add_mul_le_pow (show (-2 : ℚ) ≤ ε by linarith) m
  have b := one_add_mul_le_pow (show (-2 : ℚ) ≤ -ε by linarith) m
  rw [← sub_eq_add_neg] at b
  nlinarith

theorem flMean_near {A : MachineArith} {ε : ℚ} (hW : RoundsWithin A.fl ε) (h0 : 0 ≤ ε) (h1 : ε ≤ 1) (hsum : ∀ l, SumsUp A.fl l (A.sum l))
    {l : List ℚ} (hne : l ≠ []) {M : ℚ} (hM : ∀ x ∈ l, |x| ≤ M) :
    |A.fl (A.sum l / (l.length : ℚ)) - l.sum / (l.length : ℚ)| ≤ meanError ε l.length * M := by
  have hl : 0 < l.length := List.length_pos_iff.2 hne
  have hlq : (0 : ℚ) < l.length := by exact_mod_cast hl
  obtain ⟨l', f, e⟩ := sumsUp_near hW h0 h1 (hsum l)
  obtain ⟨t, ta, tb, te⟩ := nearBy_fl hW h0 (A.sum l / (l.length : ℚ))
  rw [pow_one] at ta tb
  have f' : List.Forall₂ (NearBy ε l.length) l (l'.map (· * t)) := forall₂_scale h0 h1 ⟨ta, tb⟩ (by omega) f
  have f'' : List.Forall₂ (fun x y => |y - x| ≤ meanError ε l.length * |x|) l (l'.map (· * t)) := by
    refine f'.imp ?_
    rintro x y ⟨s, sa, sb, rfl⟩
    rw [show x * s - x = (s - 1) * x by ring, abs_mul]
    refine mul_le_mul_of_nonneg_right ?_ (abs_nonneg _)
    have := pow_symm h0 h1 l.length
    unfold meanError at this ⊢
    rw [abs_le]
    constructor <;> linarith
  have g := forall₂_abs_sum f''
  have hE : 0 ≤ meanError ε l.length := by
    unfold meanError
    have := one_le_pow₀ (show (1 : ℚ) ≤ 1 + ε by linarith) (n := l.length)
    linarith
  have habs : (l.map abs).sum ≤ l.length * M := by
    have : ∀ m : List ℚ, (∀ x ∈ m, |x| ≤ M) → (m.map abs).sum ≤ m.length * M := by
      intro m
      induction m with
      | nil => intro _; simp
      | cons x m ih =>
        intro h
        have := ih (fun z hz => h z (List.mem_cons_of_mem _ hz))
        have hx := h x List.mem_cons_self
        rw [List.map_cons, List.sum_cons, List.length_cons]
        push_cast
        linarith
    exact this l hM
  have hfl : A.fl (A.sum l / (l.length : ℚ)) - l.sum / (l.length : ℚ) = ((l'.map (· * t)).sum - l.sum) / l.length := by
    rw [te, sum_map_times, e]; ring
  rw [hfl, abs_div, abs_of_pos hlq, div_le_iff₀ hlq]
  calc _ ≤ _ := g
    _ ≤ meanError ε l.length * (l.length * M) := mul_le_mul_of_nonneg_left habs hE
    _ = _ := by ring

theorem flMeanRow_length (A : MachineArith) (d : Nat) (rows : List Row) : (flMeanRow A d rows).length = d := by simp [flMeanRow]

theorem flMeanRow_getD (A : MachineArith) {d : Nat} (rows : List Row) {c : Nat} (hc : c < d) :
    (flMeanRow A d rows).getD c 0 = A.fl (A.sum (rows.map (fun r => r.getD c 0)) / (rows.length : ℚ)) := by
  simp [flMeanRow, List.getD_eq_getElem?_getD, hc]

theorem flMeanRow_near {A : MachineArith} {ε : ℚ} (hW : RoundsWithin A.fl ε) (h0 : 0 ≤ ε) (h1 : ε ≤ 1) (hsum : ∀ l, SumsUp A.fl l (A.sum l))
    {d : Nat} {rows : List Row} (hne : rows ≠ []) {mean : Row} (hmean : IsMean d rows mean) {M : Nat → ℚ}
    (hM : ∀ r ∈ rows, ∀ c, c < d → |r.getD c 0| ≤ M c) : RowsWithin d (fun c => meanError ε rows.length * M c) (flMeanRow A d rows) mean := by
  refine ⟨flMeanRow_length _ _ _, hmean.1, fun c hc => ?_⟩
  have hl : (rows.length : ℚ) ≠ 0 := by exact_mod_cast (List.length_pos_iff.2 hne).ne'
  rw [flMeanRow_getD A rows hc]
  have e : mean.getD c 0 = (rows.map (fun r => r.getD c 0)).sum / (rows.length : ℚ) := by
    rw [← hmean.2 c hc, mul_div_assoc, div_self hl, mul_one]
  have := flMean_near hW h0 h1 hsum (l := rows.map (fun r => r.getD c 0)) (by simpa using hne) (M := M c) (by
    intro x hx
    obtain ⟨r, hr, rfl⟩ := List.mem_map.1 hx
    exact hM r hr c hc)
  rw [List.length_map] at this
  rw [e]
  exact this

/-! ## The rows -/

theorem flSplitPoints_between {fl : ℚ → ℚ} {U : ℚ} (hA : RoundsToNearest fl) (f0 : fl 0 = 0) (hU : Shrinks fl U) (hUf : fl U = U) (hU1 : U ≤ 1)
    {d k : Nat} (hUk : ((k : ℚ) + 1) * (1 - U) ≤ 1) {p q x : Row} (hp : p.length = d) (hq : q.length = d) (rp : ∀ z ∈ p, fl z = z)
    (rq : ∀ z ∈ q, fl z = z) (hx : x ∈ flSplitPoints fl k p q) : Between d p q x := by
  unfold flSplitPoints at hx
  rw [List.mem_map] at hx
  obtain ⟨j, hj, rfl⟩ := hx
  have hjk : (j : ℚ) + 1 ≤ k := by exact_mod_cast List.mem_range.1 hj
  refine flMixRow_between hA f0 hU hU1 hp hq rp rq (fun _ => ⟨?_, ?_⟩)
  · have := fl_mono hA (show (0 : ℚ) ≤ ((j : ℚ) + 1) / ((k : ℚ) + 1) by positivity)
    rwa [f0] at this
  · rw [← hUf]
    apply fl_mono hA
    rw [div_le_iff₀ (by positivity)]
    linarith

theorem flPolynomClass_run {A : MachineArith} {d : Nat} {X : List Row} {y : List Int} {a b : Int} {proportion : ℚ} {star : Bool}
    (hmin : IsMinority y a b) :
    flPolynomClass A proportion star d X y =
      .ok (if y.count a ≤ 2 ∨ flRequested A.fl proportion (y.count b) (y.count a) = 0 then (X, y)
        else withSamples X y a (if star then flStarSamples A d (flRequested A.fl proportion (y.count b) (y.count a)) (classRows X y a)
          else flBusSamples A.fl (flRequested A.fl proportion (y.count b) (y.count a)) (classRows X y a))) := by
  obtain ⟨s, hs, rfl, rfl⟩ := stats_of_isMinority hmin
  obtain ⟨hm, hM, _⟩ := stats_min_mem hs
  unfold flPolynomClass
  rw [sample_default hs]
  by_cases h2 : y.count s.minLabel ≤ 2
  · rw [if_pos h2, if_pos (Or.inl h2)]
  rw [if_neg h2, sample_default hs, if_neg h2]
  unfold flPolynomAlg
  rw [stats_count hs hm, stats_count hs hM, flDetN_eq, ok_bind]
  by_cases h0 : flRequested A.fl proportion (y.count s.majLabel) (y.count s.minLabel) = 0
  · rw [if_pos h0, if_pos (Or.inr h0)]; rfl
  · rw [if_neg h0, if_neg (by push Not; exact ⟨by omega, h0⟩), selectLabel_eq_classRows]; rfl

theorem flSplitPoints_length (fl : ℚ → ℚ) (k : Nat) (p q : Row) : (flSplitPoints fl k p q).length = k := by simp [flSplitPoints]

/-- There are at most `n + 1` rows per minority row. -/
theorem share_room {n m k : Nat} {U : ℚ} (h : RoundedShare n m k) (hm : 2 ≤ m) (hU1 : U ≤ 1) (hUn : ((n : ℚ) + 2) * (1 - U) ≤ 1) :
    ((k : ℚ) + 1) * (1 - U) ≤ 1 := by
  have hm2 : (2 : ℚ) ≤ m := by exact_mod_cast hm
  have hn0 : (0 : ℚ) ≤ n := by positivity
  have hnm : (n : ℚ) / m ≤ n := div_le_self hn0 (by linarith)
  have hk : (k : ℚ) ≤ n + 1 := by
    rcases h.2 with h | ⟨rfl, _⟩
    · have := (abs_le.1 h).2
      linarith
    · push_cast; linarith
  have : ((k : ℚ) + 1) * (1 - U) ≤ ((n : ℚ) + 2) * (1 - U) := mul_le_mul_of_nonneg_right (by linarith) (by linarith)
  linarith

/-- **Bus with rounding**: every new row is exactly between two neighbouring minority rows, and the number of rows is that of C45. -/
theorem C137_bus {A : MachineArith} {ε U : ℚ} (hA : RoundsToNearest A.fl) (hW : RoundsWithin A.fl ε) (hU : Shrinks A.fl U) (hUf : A.fl U = U)
    (hU1 : U ≤ 1) {d : Nat} {X : List Row} {y : List Int} {a b : Int} {proportion : ℚ} (hwf : WF d X y) (hmin : IsMinority y a b)
    (hX : Representable A.fl X) {n : Nat} (hn : n = flRequested A.fl proportion (y.count b) (y.count a)) (hH : HalvesExact A.fl (2 * n))
    (hε : 2 * n * ε < 1) (hUn : ((n : ℚ) + 2) * (1 - U) ≤ 1) :
    ∃ new, flPolynomClass A proportion false d X y = .ok (X ++ new, y ++ List.replicate new.length a) ∧
      (∀ x ∈ new, ∃ (i : Nat) (p q : Row), (classRows X y a)[i]? = some p ∧ (classRows X y a)[i + 1]? = some q ∧ Between d p q x) ∧
      (if y.count a ≤ 2 ∨ n = 0 then new = [] else ∃ k, new.length = (y.count a - 1) * k ∧ RoundedShare n (y.count a) k) := by
  have hlen : ∀ r ∈ classRows X y a, r.length = d := by
    intro r hr; rw [← selectLabel_eq_classRows] at hr; exact mem_selectLabel_length hwf hr
  have hrep : ∀ r ∈ classRows X y a, ∀ x ∈ r, A.fl x = x := by
    intro r hr
    rw [← selectLabel_eq_classRows] at hr
    exact hX r (mem_of_mem_selectLabel hr)
  have hl : (classRows X y a).length = y.count a := by rw [← selectLabel_eq_classRows]; exact selectLabel_length hwf.1 _
  rw [flPolynomClass_run hmin, ← hn]
  by_cases hc : y.count a ≤ 2 ∨ n = 0
  · refine ⟨[], ?_, by simp, by rw [if_pos hc]⟩
    rw [if_pos hc]; simp
  · have hcnt : flSamplesPerRow A.fl n (classRows X y a).length = samplesPerRow n (classRows X y a).length :=
      C137_count hW (by rw [hl]; omega) hH hε
    have hk := samplesPerRow_spec n (classRows X y a).length
    refine ⟨flBusSamples A.fl n (classRows X y a), ?_, ?_, ?_⟩
    · rw [if_neg hc]; rfl
    · intro x hx
      unfold flBusSamples at hx
      rw [List.mem_flatMap] at hx
      obtain ⟨⟨p, q⟩, hpq, hx⟩ := hx
      obtain ⟨i, hi, e⟩ := List.getElem_of_mem hpq
      rw [List.getElem_zip] at e
      obtain ⟨e1, e2⟩ := Prod.mk.inj e
      rw [List.length_zip, List.length_tail] at hi
      have hp : (classRows X y a)[i]? = some p := by rw [List.getElem?_eq_getElem (by omega), e1]
      have hq : (classRows X y a)[i + 1]? = some q := by
        rw [List.getElem?_eq_getElem (by omega), ← e2, List.getElem_tail]
      have mp := List.mem_of_getElem? hp
      have mq := List.mem_of_getElem? hq
      refine ⟨i, p, q, hp, hq, flSplitPoints_between hA (fl_zero hW) hU hUf hU1 ?_ (hlen p mp) (hlen q mq) (hrep p mp) (hrep q mq) hx⟩
      rw [hcnt]
      exact share_room hk (by rw [hl]; omega) hU1 hUn
    · rw [if_neg hc]
      refine ⟨samplesPerRow n (classRows X y a).length, ?_, by rw [hl] at hk ⊢; exact hk⟩
      rw [← hcnt, ← hl]
      unfold flBusSamples
      rw [List.length_flatMap]
      simp [flSplitPoints_length]

/-- **Star with rounding**: every new row is exactly between a minority row and the rounded mean, which is near the mean; the number of rows is that
of C45. -/
theorem C137_star {A : MachineArith} {ε U : ℚ} (hA : RoundsToNearest A.fl) (hW : RoundsWithin A.fl ε) (h0 : 0 ≤ ε) (h1 : ε ≤ 1)
    (hsum : ∀ l, SumsUp A.fl l (A.sum l)) (hU : Shrinks A.fl U) (hUf : A.fl U = U)
    (hU1 : U ≤ 1) {d : Nat} {X : List Row} {y : List Int} {a b : Int} {proportion : ℚ} (hwf : WF d X y) (hmin : IsMinority y a b)
    (hX : Representable A.fl X) {n : Nat} (hn : n = flRequested A.fl proportion (y.count b) (y.count a)) (hH : HalvesExact A.fl (2 * n))
    (hε : 2 * n * ε < 1) (hUn : ((n : ℚ) + 2) * (1 - U) ≤ 1) {M : Nat → ℚ} (hM : ∀ r ∈ classRows X y a, ∀ c, c < d → |r.getD c 0| ≤ M c) :
    ∃ new mean mean', flPolynomClass A proportion true d X y = .ok (X ++ new, y ++ List.replicate new.length a) ∧
      IsMean d (classRows X y a) mean ∧ RowsWithin d (fun c => meanError ε (y.count a) * M c) mean' mean ∧
      (∀ x ∈ new, ∃ p ∈ classRows X y a, Between d p mean' x) ∧
      (if y.count a ≤ 2 ∨ n = 0 then new = [] else ∃ k, new.length = y.count a * k ∧ RoundedShare n (y.count a) k) := by
  have hne : classRows X y a ≠ [] := classRows_ne_nil hwf.1 hmin.1
  have hlen : ∀ r ∈ classRows X y a, r.length = d := by
    intro r hr; rw [← selectLabel_eq_classRows] at hr; exact mem_selectLabel_length hwf hr
  have hrep : ∀ r ∈ classRows X y a, ∀ x ∈ r, A.fl x = x := by
    intro r hr
    rw [← selectLabel_eq_classRows] at hr
    exact hX r (mem_of_mem_selectLabel hr)
  have hl : (classRows X y a).length = y.count a := by rw [← selectLabel_eq_classRows]; exact selectLabel_length hwf.1 _
  have hmean := meanRow_isMean hne hlen
  have hnear := flMeanRow_near hW h0 h1 hsum hne hmean hM
  rw [hl] at hnear
  rw [flPolynomClass_run hmin, ← hn]
  by_cases hc : y.count a ≤ 2 ∨ n = 0
  · refine ⟨[], _, _, ?_, hmean, hnear, by simp, by rw [if_pos hc]⟩
    rw [if_pos hc]; simp
  · have hcnt : flSamplesPerRow A.fl n (classRows X y a).length = samplesPerRow n (classRows X y a).length :=
      C137_count hW (by rw [hl]; omega) hH hε
    have hk := samplesPerRow_spec n (classRows X y a).length
    refine ⟨flStarSamples A d n (classRows X y a), _, _, ?_, hmean, hnear, ?_, ?_⟩
    · rw [if_neg hc]; rfl
    · intro x hx
      unfold flStarSamples at hx
      rw [List.mem_flatMap] at hx
      obtain ⟨p, hp, hx⟩ := hx
      refine ⟨p, hp, flSplitPoints_between hA (fl_zero hW) hU hUf hU1 ?_ (hlen p hp) hnear.1 (hrep p hp) ?_ hx⟩
      · rw [hcnt]
        exact share_room hk (by rw [hl]; omega) hU1 hUn
      · intro z hz
        unfold flMeanRow at hz
        obtain ⟨c, -, rfl⟩ := List.mem_map.1 hz
        exact fl_idem hA _
    · rw [if_neg hc]
      refine ⟨samplesPerRow n (classRows X y a).length, ?_, by rw [hl] at hk ⊢; exact hk⟩
      rw [← hcnt, ← hl]
      unfold flStarSamples
      rw [List.length_flatMap]
      simp [flSplitPoints_length]

/-- **Star does not keep a constant column.** With the numbers of Python, three minority rows with the value 0.1 have a mean above 0.1, and new rows
have a value above it too. -/
theorem C137_constant_lost : ∃ (X new : List Row) (y y' : List Int), WF 1 X y ∧ IsMinority y 1 0 ∧ Representable (binaryFl 53) X ∧
    (∀ r ∈ classRows X y 1, r = [binaryFl 53 (1 / 10)]) ∧ flPolynomClass doubles 1 true 1 X y = .ok (X ++ new, y') ∧
    ∃ x ∈ new, binaryFl 53 (1 / 10) < x.getD 0 0 := by
  refine ⟨List.replicate 3 [binaryFl 53 (1 / 10)] ++ List.replicate 9 [5],
    [[binaryFl 53 (1 / 10)], [binaryFl 53 (1 / 10) + 1 / 2 ^ 56], [binaryFl 53 (1 / 10)], [binaryFl 53 (1 / 10) + 1 / 2 ^ 56],
      [binaryFl 53 (1 / 10)], [binaryFl 53 (1 / 10) + 1 / 2 ^ 56]],
    [1, 1, 1, 0, 0, 0, 0, 0, 0, 0, 0, 0], [1, 1, 1, 0, 0, 0, 0, 0, 0, 0, 0, 0, 1, 1, 1, 1, 1, 1], ?_, ?_, ?_, ?_, ?_, ?_⟩
  · unfold WF; decide
  · exact ⟨by decide, by decide, by decide, Or.inl (by decide)⟩
  · unfold Representable; decide +kernel
  · decide +kernel
  · decide +kernel
  · decide +kernel

/-- Non-vacuity: the numbers of Python meet the assumptions for every number of rows below `2 ^ 51`, and the error of the mean of 200 numbers
is below `10 ^ -13`. -/
theorem C137_doubles {n : Nat} (h : n < 2 ^ 51) : RoundsToNearest doubles.fl ∧ RoundsWithin doubles.fl (1 / 2 ^ 53) ∧
    (∀ l, SumsUp doubles.fl l (doubles.sum l)) ∧ Shrinks doubles.fl (1 - 1 / 2 ^ 53) ∧ doubles.fl (1 - 1 / 2 ^ 53) = 1 - 1 / 2 ^ 53 ∧
    HalvesExact doubles.fl (2 * n) ∧ 2 * n * (1 / 2 ^ 53 : ℚ) < 1 ∧ ((n : ℚ) + 2) * (1 - (1 - 1 / 2 ^ 53)) ≤ 1 := by
  have hq : (n : ℚ) + 1 ≤ 2 ^ 51 := by exact_mod_cast h
  refine ⟨binaryFl_nearest (by norm_num), binaryFl_within 53, seqSum_sumsUp _, binaryFl_shrinks (by norm_num), by decide +kernel,
    fun m hm => binaryFl_halves (by norm_num) m (by omega), ?_, ?_⟩
  · rw [mul_one_div, div_lt_one (by norm_num)]; linarith
  · rw [sub_sub_cancel, mul_one_div, div_le_one (by norm_num)]; linarith

example : meanError (1 / 2 ^ 53) 200 < 1 / 10 ^ 13 := by unfold meanError; norm_num

/-- Non-vacuity of the theorem on the number of rows: a quotient which is rounded, and one which is exactly a half. -/
example : flSamplesPerRow (binaryFl 53) 14 3 = 5 ∧ samplesPerRow 14 3 = 5 ∧ flSamplesPerRow (binaryFl 53) 15 6 = 2 := by decide +kernel

end Verif

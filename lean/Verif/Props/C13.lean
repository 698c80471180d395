import Verif.Model.Metrics
import Verif.Lemmas.Basic
import Mathlib.Tactic.Positivity

/-!
# C13 Confusion counts partition the test set and label scores obey their identities and ranges
-/

namespace Verif

/-- The specification of a confusion count: the number of test items with a property of
(true label, predicted label). -/
def countPairs (test pred : List Int) (P : Int → Int → Bool) : Nat :=
  (test.zip pred).countP (fun q => P q.1 q.2)

/-- The four counts are: minority predicted right, majority predicted right, majority predicted
wrong, minority predicted wrong. -/
theorem C13_atoms (test pred : List Int) (l : Int) (h : test.length = pred.length) :
    (calculateAtoms test pred l).tp = countPairs test pred (fun t q => t = l && t = q) ∧
    (calculateAtoms test pred l).tn = countPairs test pred (fun t q => t ≠ l && t = q) ∧
    (calculateAtoms test pred l).fp = countPairs test pred (fun t q => t ≠ l && t ≠ q) ∧
    (calculateAtoms test pred l).fn = countPairs test pred (fun t q => t = l && t ≠ q) := by
  induction test generalizing pred with
  | nil => cases pred with
    | nil => simp [calculateAtoms, countPairs, sumMask]
    | cons _ _ => simp at h
  | cons t test ih =>
    cases pred with
    | nil => simp at h
    | cons q pred =>
      simp only [List.length_cons, Nat.add_right_cancel_iff] at h
      obtain ⟨h1, h2, h3, h4⟩ := ih pred h
      simp only [calculateAtoms, countPairs, sumMask, List.zip_cons_cons, List.map_cons,
        List.zipWith_cons_cons, List.countP_cons] at *
      rw [h1, h2, h3, h4]
      by_cases ht : t = l <;> by_cases hq : t = q <;> simp [ht, hq]

/-- The counts partition the test set, and the two marginals are the class sizes. -/
theorem C13_partition (test pred : List Int) (l : Int) (h : test.length = pred.length) :
    let a := calculateAtoms test pred l
    a.tp + a.fn = test.count l ∧ a.fp + a.tn = test.countP (fun t => decide (t ≠ l)) ∧
    a.tp + a.tn + a.fp + a.fn = test.length := by
  intro a
  obtain ⟨h1, h2, h3, h4⟩ := C13_atoms test pred l h
  simp only [a, h1, h2, h3, h4]
  clear h1 h2 h3 h4
  unfold countPairs
  induction test generalizing pred with
  | nil => simp
  | cons t test ih =>
    cases pred with
    | nil => simp at h
    | cons q pred =>
      simp only [List.length_cons, Nat.add_right_cancel_iff] at h
      obtain ⟨i1, i2, i3⟩ := ih pred h
      simp only [List.zip_cons_cons, List.countP_cons, List.count_cons, List.length_cons]
      rw [← i1, ← i2, ← i3]
      clear i1 i2 i3 ih
      generalize List.countP _ (test.zip pred) = c1
      generalize List.countP _ (test.zip pred) = c2
      generalize List.countP _ (test.zip pred) = c3
      generalize List.countP _ (test.zip pred) = c4
      by_cases ht : t = l
      · subst ht
        by_cases hq : t = q <;> simp [hq] <;> omega
      · by_cases hq : t = q
        · subst hq; simp [ht]; omega
        · simp [ht, hq]; omega

/-- With the binary labels `maj`, `min` the wrong predictions are the opposite label. -/
theorem C13_atoms_binary (test pred : List Int) (maj min : Int) (hne : maj ≠ min)
    (h : test.length = pred.length) (ht : ∀ t ∈ test, t = maj ∨ t = min)
    (hp : ∀ q ∈ pred, q = maj ∨ q = min) :
    (calculateAtoms test pred min).tp = countPairs test pred (fun t q => t = min && q = min) ∧
    (calculateAtoms test pred min).tn = countPairs test pred (fun t q => t = maj && q = maj) ∧
    (calculateAtoms test pred min).fp = countPairs test pred (fun t q => t = maj && q = min) ∧
    (calculateAtoms test pred min).fn = countPairs test pred (fun t q => t = min && q = maj) := by
  obtain ⟨h1, h2, h3, h4⟩ := C13_atoms test pred min h
  rw [h1, h2, h3, h4]
  unfold countPairs
  refine ⟨?_, ?_, ?_, ?_⟩ <;>
  · apply List.countP_congr
    intro tq hmem
    obtain ⟨m1, m2⟩ := List.of_mem_zip hmem
    rcases ht _ m1 with e1 | e1 <;> rcases hp _ m2 with e2 | e2 <;>
      simp [e1, e2, hne, Ne.symm hne]

/-! ### Ranges and identities -/

theorem pyDiv_ok {a b : Nat} {q : ℚ} : pyDiv a b = .ok q ↔ b ≠ 0 ∧ q = (a : ℚ) / (b : ℚ) := by
  unfold pyDiv
  split
  · simp [*]
  · simp [*, eq_comm]

theorem pyDiv_of_ne (a : Nat) {b : Nat} (h : b ≠ 0) : pyDiv a b = .ok ((a : ℚ) / (b : ℚ)) := by
  unfold pyDiv; rw [if_neg h]

theorem frac_range {a b : Nat} (h : a ≤ b) : (0 : ℚ) ≤ (a : ℚ) / (b : ℚ) ∧ (a : ℚ) / (b : ℚ) ≤ 1 := by
  refine ⟨by positivity, ?_⟩
  apply div_le_one_of_le₀
  · exact_mod_cast h
  · positivity

theorem divOrZero_range (a b : Nat) : 0 ≤ divOrZero a b ∧ divOrZero a b ≤ 1 := by
  unfold divOrZero
  split
  · exact frac_range (by omega)
  · simp

/-- The scores are defined exactly when both classes occur in the test set; otherwise the call raises
`ZeroDivisionError`. -/
theorem C13_defined (a : Atoms) :
    ((∃ s, calculateLabelScores a = .ok s) ↔ 0 < a.tp + a.fn ∧ 0 < a.fp + a.tn) ∧
    ((¬ ∃ s, calculateLabelScores a = .ok s) → calculateLabelScores a = .error .zeroDivision) := by
  by_cases hp : a.tp + a.fn = 0
  · by_cases hn : a.fp + a.tn = 0
    · have : calculateLabelScores a = .error .zeroDivision := by
        have h0 : a.tp + a.fn + (a.fp + a.tn) = 0 := by omega
        simp [calculateLabelScores, pyDiv, h0]
      rw [this]; simp; omega
    · have : calculateLabelScores a = .error .zeroDivision := by
        have h0 : a.tp + a.fn + (a.fp + a.tn) ≠ 0 := by omega
        unfold calculateLabelScores
        dsimp only
        rw [pyDiv_of_ne _ h0, ok_bind, hp]
        rfl
      rw [this]; simp; omega
  · by_cases hn : a.fp + a.tn = 0
    · have : calculateLabelScores a = .error .zeroDivision := by
        have h0 : a.tp + a.fn + (a.fp + a.tn) ≠ 0 := by omega
        unfold calculateLabelScores
        dsimp only
        rw [pyDiv_of_ne _ h0, ok_bind, pyDiv_of_ne _ hp, ok_bind, hn]
        rfl
      rw [this]; simp; omega
    · have h0 : a.tp + a.fn + (a.fp + a.tn) ≠ 0 := by omega
      have h1 : 2 * a.tp + a.fp + a.fn ≠ 0 := by omega
      have : ∃ s, calculateLabelScores a = .ok s := by
        simp only [calculateLabelScores, pyDiv, h0, hp, hn, h1, if_false, ok_bind]
        exact ⟨_, rfl⟩
      refine ⟨⟨fun _ => by omega, fun _ => this⟩, fun h => absurd this h⟩

/-- All rational scores lie in `[0,1]` (informedness and markedness in `[-1,1]`), complements add up to
one, and each score is the fraction its name says. -/
theorem C13_scores {a : Atoms} {s : LabelScores} (h : calculateLabelScores a = .ok s) :
    s.p = a.tp + a.fn ∧ s.n = a.fp + a.tn ∧
    s.acc * (s.p + s.n) = a.tp + a.tn ∧ s.sens * s.p = a.tp ∧ s.spec * s.n = a.tn ∧
    s.ppv * (a.tp + a.fp) = a.tp ∧ s.npv * (a.tn + a.fn) = a.tn ∧
    s.f1 * (2 * a.tp + a.fp + a.fn) = 2 * a.tp ∧
    s.fpr = 1 - s.spec ∧ s.fnr = 1 - s.sens ∧ s.fdr = 1 - s.ppv ∧ s.bacc = (s.sens + s.spec) / 2 ∧
    (∀ x ∈ [s.acc, s.sens, s.spec, s.ppv, s.npv, s.fpr, s.fnr, s.fdr, s.bacc, s.f1], 0 ≤ x ∧ x ≤ 1) ∧
    (∀ x ∈ [s.informedness, s.markedness], -1 ≤ x ∧ x ≤ 1) := by
  unfold calculateLabelScores at h
  simp only [bind_ok, pyDiv_ok, pure_ok] at h
  obtain ⟨acc, ⟨hN, rfl⟩, sens, ⟨hp, rfl⟩, spec, ⟨hn, rfl⟩, f1, ⟨hf, rfl⟩, rfl⟩ := h
  have r1 := frac_range (a := a.tp + a.tn) (b := a.tp + a.fn + (a.fp + a.tn)) (by omega)
  have r2 := frac_range (a := a.tp) (b := a.tp + a.fn) (by omega)
  have r3 := frac_range (a := a.tn) (b := a.fp + a.tn) (by omega)
  have r4 := frac_range (a := 2 * a.tp) (b := 2 * a.tp + a.fp + a.fn) (by omega)
  have r5 := divOrZero_range a.tp a.fp
  have r6 := divOrZero_range a.tn a.fn
  have hdz : ∀ x y : Nat, divOrZero x y * ((x : ℚ) + y) = x := by
    intro x y
    unfold divOrZero
    split
    · have : ((x + y : Nat) : ℚ) ≠ 0 := by
        have : x + y ≠ 0 := by omega
        exact_mod_cast this
      rw [← Nat.cast_add, div_mul_cancel₀ _ this]
    · have hx : x = 0 := by omega
      simp [hx]
  have c1 : ((a.tp + a.fn + (a.fp + a.tn) : Nat) : ℚ) ≠ 0 := by exact_mod_cast hN
  have c2 : ((a.tp + a.fn : Nat) : ℚ) ≠ 0 := by exact_mod_cast hp
  have c3 : ((a.fp + a.tn : Nat) : ℚ) ≠ 0 := by exact_mod_cast hn
  have c4 : ((2 * a.tp + a.fp + a.fn : Nat) : ℚ) ≠ 0 := by exact_mod_cast hf
  refine ⟨rfl, rfl, ?_, ?_, ?_, hdz _ _, hdz _ _, ?_, rfl, rfl, rfl, rfl, ?_, ?_⟩
  · rw [← Nat.cast_add, div_mul_cancel₀ _ c1]; push_cast; ring
  · exact div_mul_cancel₀ _ c2
  · exact div_mul_cancel₀ _ c3
  · have e : (2 * (a.tp : ℚ) + a.fp + a.fn) = ((2 * a.tp + a.fp + a.fn : Nat) : ℚ) := by push_cast; ring
    rw [e, div_mul_cancel₀ _ c4]; push_cast; ring
  · intro x hx
    simp only [List.mem_cons, List.not_mem_nil, or_false] at hx
    rcases hx with rfl | rfl | rfl | rfl | rfl | rfl | rfl | rfl | rfl | rfl <;>
      constructor <;> linarith [r1.1, r1.2, r2.1, r2.2, r3.1, r3.2, r4.1, r4.2, r5.1, r5.2, r6.1, r6.2]
  · intro x hx
    simp only [List.mem_cons, List.not_mem_nil, or_false] at hx
    rcases hx with rfl | rfl <;>
      constructor <;> linarith [r2.1, r2.2, r3.1, r3.2, r5.1, r5.2, r6.1, r6.2]

/-- The geometric mean is between 0 and 1 and squares to sensitivity times specificity. -/
theorem C13_gacc {a : Atoms} {s : LabelScores} (h : calculateLabelScores a = .ok s) :
    0 ≤ gacc s ∧ gacc s ≤ 1 ∧ gacc s ^ 2 = (s.sens : ℝ) * (s.spec : ℝ) := by
  have hr := (C13_scores h).2.2.2.2.2.2.2.2.2.2.2.2.1
  obtain ⟨a1, a2⟩ := hr s.sens (by simp)
  obtain ⟨b1, b2⟩ := hr s.spec (by simp)
  have hle : s.sens * s.spec ≤ 1 := by nlinarith
  have h0 : 0 ≤ s.sens * s.spec := mul_nonneg a1 b1
  refine ⟨Real.sqrt_nonneg _, ?_, ?_⟩
  · unfold gacc
    rw [Real.sqrt_le_one]
    exact_mod_cast hle
  · unfold gacc
    rw [Real.sq_sqrt (by exact_mod_cast h0)]
    push_cast; ring

/-! ### Matthews correlation coefficient -/

/-- The product of the four marginals. -/
def marginalProduct (a : Atoms) : Nat :=
  (a.tp + a.fp) * (a.tp + a.fn) * (a.fp + a.tn) * (a.fn + a.tn)

theorem wrap64_of_small {z : Int} (h0 : 0 ≤ z) (h : z < 2 ^ 63) : wrap64 z = z := by
  unfold wrap64
  rw [Int.emod_eq_of_lt (by omega) (by omega)]
  omega

theorem wrap64_nat {n : Nat} (h : n < 2 ^ 63) : wrap64 (n : Int) = (n : Int) :=
  wrap64_of_small (by omega) (by omega)

theorem mccProd_small {a : Atoms} (h : marginalProduct a < 2 ^ 63) (hz : marginalProduct a ≠ 0) :
    mccProd a = (marginalProduct a : Int) := by
  unfold marginalProduct at h hz
  have z4 : 0 < a.fn + a.tn := Nat.pos_of_ne_zero (fun e => hz (by rw [e]; ring))
  have z3 : 0 < a.fp + a.tn := Nat.pos_of_ne_zero (fun e => hz (by rw [e]; ring))
  have l2 : (a.tp + a.fp) * (a.tp + a.fn) * (a.fp + a.tn) < 2 ^ 63 :=
    lt_of_le_of_lt (Nat.le_mul_of_pos_right _ z4) h
  have l1 : (a.tp + a.fp) * (a.tp + a.fn) < 2 ^ 63 :=
    lt_of_le_of_lt (Nat.le_mul_of_pos_right _ z3) l2
  unfold mccProd marginalProduct
  rw [← Nat.cast_mul, wrap64_nat l1, ← Nat.cast_mul, wrap64_nat l2, ← Nat.cast_mul, wrap64_nat h]

theorem mccProd_zero {a : Atoms} (h : marginalProduct a = 0) : mccProd a = 0 := by
  unfold marginalProduct at h
  have w0 : wrap64 0 = 0 := by decide
  unfold mccProd
  rcases Nat.mul_eq_zero.1 h with h | h
  · rcases Nat.mul_eq_zero.1 h with h | h
    · rcases Nat.mul_eq_zero.1 h with h | h
      · rw [h]; simp [w0]
      · rw [h]; simp [w0]
    · rw [h]; simp [w0]
  · rw [h]; simp [w0]

theorem sq_num_le (a : Atoms) :
    ((a.tp : ℝ) * a.tn - a.fp * a.fn) ^ 2 ≤ (marginalProduct a : ℝ) := by
  unfold marginalProduct
  push_cast
  have h1 : (0 : ℝ) ≤ a.tp := Nat.cast_nonneg _
  have h2 : (0 : ℝ) ≤ a.tn := Nat.cast_nonneg _
  have h3 : (0 : ℝ) ≤ a.fp := Nat.cast_nonneg _
  have h4 : (0 : ℝ) ≤ a.fn := Nat.cast_nonneg _
  generalize (a.tp : ℝ) = x at *
  generalize (a.tn : ℝ) = y at *
  generalize (a.fp : ℝ) = z at *
  generalize (a.fn : ℝ) = w at *
  have e : (x + z) * (x + w) * (z + y) * (w + y) - (x * y - z * w) ^ 2
      = x^2*z*y + x^2*z*w + x*w*y^2 + x*z*y^2 + x^2*w*y + x*w^2*z + x*w^2*y + z^2*x*w + z^2*x*y
        + z^2*w*y + z*w^2*y + z*w*y^2 + 4*x*y*z*w := by ring
  have : 0 ≤ (x + z) * (x + w) * (z + y) * (w + y) - (x * y - z * w) ^ 2 := by
    rw [e]; positivity
  linarith

/-- As long as the product of the marginals fits into 63 bits, `mcc` is `None` exactly when a marginal is
empty and lies in `[-1,1]` otherwise. -/
theorem C13_mcc_partial (a : Atoms) (h : marginalProduct a < 2 ^ 63) :
    (marginalProduct a = 0 → mcc a = .none) ∧
    (marginalProduct a ≠ 0 → ∃ r, mcc a = .val r ∧ -1 ≤ r ∧ r ≤ 1 ∧
      r ^ 2 * (marginalProduct a : ℝ) = ((a.tp : ℝ) * a.tn - a.fp * a.fn) ^ 2) := by
  constructor
  · intro h0
    unfold mcc
    simp [mccProd_zero h0]
  · intro hne
    have hp := mccProd_small h hne
    have hpos : 0 < marginalProduct a := Nat.pos_of_ne_zero hne
    have hpr : (0 : ℝ) < (marginalProduct a : ℝ) := by exact_mod_cast hpos
    unfold mcc
    simp only [hp]
    rw [if_neg (by exact_mod_cast hne), if_neg (by omega)]
    refine ⟨_, rfl, ?_⟩
    have hs := Real.sqrt_pos.2 hpr
    have hsq := Real.sq_sqrt (le_of_lt hpr)
    have hn := sq_num_le a
    have hnum : (((a.tp : Int) * a.tn - (a.fp : Int) * a.fn : Int) : ℝ)
        = (a.tp : ℝ) * a.tn - a.fp * a.fn := by push_cast; ring
    have hc : (((marginalProduct a : Nat) : Int) : ℝ) = (marginalProduct a : ℝ) :=
      Int.cast_natCast _
    rw [hnum, hc]
    have habs : |(a.tp : ℝ) * a.tn - a.fp * a.fn| ≤ Real.sqrt (marginalProduct a : ℝ) :=
      Real.abs_le_sqrt hn
    refine ⟨?_, ?_, ?_⟩
    · rw [le_div_iff₀ hs]; linarith [neg_abs_le ((a.tp : ℝ) * a.tn - a.fp * a.fn)]
    · rw [div_le_iff₀ hs]; linarith [le_abs_self ((a.tp : ℝ) * a.tn - a.fp * a.fn)]
    · rw [div_pow, hsq, div_mul_cancel₀ _ (ne_of_gt hpr)]

/-- The two statements fail for large test sets because numpy multiplies 64 bit integers: with four
counts of 32768 no marginal is empty and yet `mcc` is `None`. -/
theorem C13_mcc_none_overflow :
    let a : Atoms := ⟨32768, 32768, 32768, 32768⟩
    marginalProduct a ≠ 0 ∧ mcc a = .none := by
  refine ⟨by decide, ?_⟩
  have : mccProd ⟨32768, 32768, 32768, 32768⟩ = 0 := by decide +kernel
  simp [mcc, this]

/-- A perfect classifier on 65536 + 65537 items gets an `mcc` above 100. -/
theorem C13_mcc_range_overflow :
    ∃ r, mcc ⟨65536, 65537, 0, 0⟩ = .val r ∧ 100 < r := by
  have h : mccProd ⟨65536, 65537, 0, 0⟩ = 562954248388608 := by decide +kernel
  refine ⟨(4295032832 : ℝ) / Real.sqrt 562954248388608, ?_, ?_⟩
  · simp only [mcc, h]
    rw [if_neg (by decide), if_neg (by decide)]
    norm_num
  · have hs : (0 : ℝ) < Real.sqrt 562954248388608 := Real.sqrt_pos.2 (by norm_num)
    rw [lt_div_iff₀ hs]
    have : Real.sqrt 562954248388608 < 42950328 := by
      rw [Real.sqrt_lt' (by norm_num)]; norm_num
    linarith

/-! ### Uncertainty coefficient -/

/-- `uc` is `None` exactly when one of the four counts is zero. -/
theorem C13_uc_none (a : Atoms) :
    uc a = none ↔ a.tp = 0 ∨ a.tn = 0 ∨ a.fp = 0 ∨ a.fn = 0 := by
  have key : ∀ x y z : Nat, x ≤ y → x ≤ z → (logScoreDiv x (y * z) = none ↔ x = 0) := by
    intro x y z hy hz
    unfold logScoreDiv logScore
    by_cases hx : x = 0
    · subst hx; simp
    · have : 0 < y * z := Nat.mul_pos (by omega) (by omega)
      have hxr : (0 : ℝ) < (x : ℝ) := by exact_mod_cast Nat.pos_of_ne_zero hx
      have hyr : (0 : ℝ) < ((y * z : Nat) : ℝ) := by exact_mod_cast this
      simp only [gt_iff_lt, this, if_true, div_pos hxr hyr, hx]
      simp
  have k1 := key a.tp (a.tp + a.fp) (a.tp + a.fn) (by omega) (by omega)
  have k2 := key a.fp (a.tp + a.fp) (a.fp + a.tn) (by omega) (by omega)
  have k3 := key a.fn (a.tp + a.fn) (a.fn + a.tn) (by omega) (by omega)
  have k4 := key a.tn (a.fp + a.tn) (a.fn + a.tn) (by omega) (by omega)
  unfold uc
  cases h1 : logScoreDiv a.tp ((a.tp + a.fp) * (a.tp + a.fn)) with
  | none => rw [h1] at k1; simp [sumIfAll, k1.1 rfl]
  | some x1 =>
    rw [h1] at k1
    cases h2 : logScoreDiv a.fp ((a.tp + a.fp) * (a.fp + a.tn)) with
    | none => rw [h2] at k2; simp [sumIfAll, k2.1 rfl]
    | some x2 =>
      rw [h2] at k2
      cases h3 : logScoreDiv a.fn ((a.tp + a.fn) * (a.fn + a.tn)) with
      | none => rw [h3] at k3; simp [sumIfAll, k3.1 rfl]
      | some x3 =>
        rw [h3] at k3
        cases h4 : logScoreDiv a.tn ((a.fp + a.tn) * (a.fn + a.tn)) with
        | none => rw [h4] at k4; simp [sumIfAll, k4.1 rfl]
        | some x4 =>
          rw [h4] at k4
          simp only [sumIfAll, Option.map_some, false_iff, reduceCtorEq] at *
          tauto

theorem log_term_lower {x r c N : ℝ} (hx : 0 < x) (hr : 0 < r) (hc : 0 < c) (hN : 0 < N) :
    x - r * c / N ≤ x * Real.log (x / (r * c)) + x * Real.log N := by
  have h := Real.one_sub_inv_le_log_of_pos (x := x / (r * c) * N) (by positivity)
  rw [Real.log_mul (by positivity) (by positivity)] at h
  have h2 := mul_le_mul_of_nonneg_left h hx.le
  have e : x * (1 - (x / (r * c) * N)⁻¹) = x - r * c / N := by field_simp
  rw [e] at h2
  linarith

theorem log_term_upper {x r c : ℝ} (hx : 0 < x) (hr : x ≤ r) (hc : 0 < c) :
    x * Real.log (x / (r * c)) ≤ - (x * Real.log c) := by
  have hrp : 0 < r := lt_of_lt_of_le hx hr
  have e : Real.log (x / (r * c)) = Real.log (x / r) - Real.log c := by
    rw [← Real.log_div (by positivity) (by positivity), div_div]
  have : Real.log (x / r) ≤ 0 := Real.log_nonpos (by positivity) ((div_le_one hrp).2 hr)
  rw [e]
  nlinarith

theorem xlogx_lower {p M : ℝ} (hp : 0 < p) (hM : 0 < M) :
    p * Real.log M + p - M ≤ p * Real.log p := by
  have h := Real.one_sub_inv_le_log_of_pos (x := p / M) (by positivity)
  rw [Real.log_div (by positivity) (by positivity)] at h
  have h2 := mul_le_mul_of_nonneg_left h hp.le
  have e : p * (1 - (p / M)⁻¹) = p - M := by field_simp
  rw [e] at h2
  linarith

/-- The real-number core: numerator between zero and denominator, denominator positive. -/
theorem uc_core {x y z w : ℝ} (hx : 1 ≤ x) (hy : 1 ≤ y) (hz : 1 ≤ z) (hw : 1 ≤ w) :
    let N := x + w + (z + y)
    let num := N * Real.log N + (x * Real.log (x / ((x + z) * (x + w))) +
      (z * Real.log (z / ((x + z) * (z + y))) + (w * Real.log (w / ((x + w) * (w + y))) +
      (y * Real.log (y / ((z + y) * (w + y))) + 0))))
    let den := N * Real.log N + (x + w) * Real.log ((x + w) / N) + (z + y) * Real.log ((z + y) / N)
    0 ≤ num ∧ num ≤ den ∧ 0 < den := by
  intro N num den
  have hN : 0 < N := by simp only [N]; linarith
  have hden : den = (x + w) * Real.log (x + w) + (z + y) * Real.log (z + y) := by
    simp only [den]
    rw [Real.log_div (by positivity) (by positivity), Real.log_div (by positivity) (by positivity)]
    simp only [N]; ring
  refine ⟨?_, ?_, ?_⟩
  · have h1 := log_term_lower (x := x) (r := x + z) (c := x + w) (N := N) (by linarith) (by linarith)
      (by linarith) hN
    have h2 := log_term_lower (x := z) (r := x + z) (c := z + y) (N := N) (by linarith) (by linarith)
      (by linarith) hN
    have h3 := log_term_lower (x := w) (r := x + w) (c := w + y) (N := N) (by linarith) (by linarith)
      (by linarith) hN
    have h4 := log_term_lower (x := y) (r := z + y) (c := w + y) (N := N) (by linarith) (by linarith)
      (by linarith) hN
    have e : (x + z) * (x + w) / N + (x + z) * (z + y) / N + (x + w) * (w + y) / N
        + (z + y) * (w + y) / N = N := by
      field_simp; simp only [N]; ring
    have e2 : N * Real.log N = x * Real.log N + z * Real.log N + w * Real.log N + y * Real.log N := by
      have : N = x + z + w + y := by simp only [N]; ring
      rw [show N * Real.log N = (x + z + w + y) * Real.log N by rw [← this]]; ring
    have e3 : N = x + w + (z + y) := rfl
    simp only [num]
    rw [e2]
    linarith
  · have h1 := log_term_upper (x := x) (r := x + z) (c := x + w) (by linarith) (by linarith) (by linarith)
    have h2 := log_term_upper (x := z) (r := x + z) (c := z + y) (by linarith) (by linarith) (by linarith)
    have h3 := log_term_upper (x := w) (r := w + y) (c := x + w) (by linarith) (by linarith) (by linarith)
    have h4 := log_term_upper (x := y) (r := w + y) (c := z + y) (by linarith) (by linarith) (by linarith)
    rw [mul_comm (w + y) (x + w)] at h3
    rw [mul_comm (w + y) (z + y)] at h4
    have k1 := xlogx_lower (p := x + w) (M := N / 2) (by linarith) (by linarith)
    have k2 := xlogx_lower (p := z + y) (M := N / 2) (by linarith) (by linarith)
    have hl : Real.log (N / 2) = Real.log N - Real.log 2 := Real.log_div (by positivity) (by norm_num)
    have h4' : (4 : ℝ) ≤ N := by simp only [N]; linarith
    have hlog : 2 * Real.log 2 ≤ Real.log N := by
      have : Real.log 4 = 2 * Real.log 2 := by
        rw [show (4 : ℝ) = 2 ^ 2 by norm_num, Real.log_pow]; norm_num
      rw [← this]
      exact Real.log_le_log (by norm_num) h4'
    rw [hl] at k1 k2
    rw [hden]
    have hm : N * (2 * Real.log 2) ≤ N * Real.log N := mul_le_mul_of_nonneg_left hlog hN.le
    have kk : N * Real.log N - N * Real.log 2 ≤
        (x + w) * Real.log (x + w) + (z + y) * Real.log (z + y) := by
      have e3 : N = x + w + (z + y) := rfl
      have : N * Real.log N - N * Real.log 2
          = (x + w) * (Real.log N - Real.log 2) + (z + y) * (Real.log N - Real.log 2) := by
        rw [show N * Real.log N - N * Real.log 2 = N * (Real.log N - Real.log 2) by ring]
        rw [show N * (Real.log N - Real.log 2)
          = (x + w + (z + y)) * (Real.log N - Real.log 2) by rw [← e3]]
        ring
      rw [this]; linarith
    simp only [num]
    linarith
  · rw [hden]
    have a1 : 0 < Real.log (x + w) := Real.log_pos (by linarith)
    have a2 : 0 < Real.log (z + y) := Real.log_pos (by linarith)
    have : 0 < x + w := by linarith
    have : 0 < z + y := by linarith
    positivity

/-- Whenever `uc` is a number it lies in `[0,1]`. (It is not the uncertainty coefficient: the
denominator is `p log p + n log n` instead of the entropy, see the next theorem.) -/
theorem C13_uc_range {a : Atoms} {u : ℝ} (h : uc a = some u) : 0 ≤ u ∧ u ≤ 1 := by
  have hne : ¬ (a.tp = 0 ∨ a.tn = 0 ∨ a.fp = 0 ∨ a.fn = 0) := by
    rw [← C13_uc_none, h]; simp
  push Not at hne
  obtain ⟨n1, n2, n3, n4⟩ := hne
  have c1 : (1 : ℝ) ≤ a.tp := by exact_mod_cast Nat.one_le_iff_ne_zero.2 n1
  have c2 : (1 : ℝ) ≤ a.tn := by exact_mod_cast Nat.one_le_iff_ne_zero.2 n2
  have c3 : (1 : ℝ) ≤ a.fp := by exact_mod_cast Nat.one_le_iff_ne_zero.2 n3
  have c4 : (1 : ℝ) ≤ a.fn := by exact_mod_cast Nat.one_le_iff_ne_zero.2 n4
  obtain ⟨k1, k2, k3⟩ := uc_core c1 c2 c3 c4
  have hs : ∀ x y z : Nat, x ≠ 0 → y ≠ 0 → z ≠ 0 →
      logScoreDiv x (y * z) = some ((x : ℝ) * Real.log ((x : ℝ) / ((y : ℝ) * (z : ℝ)))) := by
    intro x y z hx hy hz
    have hx' : (0 : ℝ) < x := by exact_mod_cast Nat.pos_of_ne_zero hx
    have hy' : (0 : ℝ) < y := by exact_mod_cast Nat.pos_of_ne_zero hy
    have hz' : (0 : ℝ) < z := by exact_mod_cast Nat.pos_of_ne_zero hz
    unfold logScoreDiv logScore
    rw [if_pos (Nat.mul_pos (Nat.pos_of_ne_zero hy) (Nat.pos_of_ne_zero hz)),
      if_pos (by push_cast; positivity)]
    push_cast; rfl
  unfold uc at h
  rw [hs a.tp _ _ n1 (by omega) (by omega), hs a.fp _ _ n3 (by omega) (by omega),
    hs a.fn _ _ n4 (by omega) (by omega), hs a.tn _ _ n2 (by omega) (by omega)] at h
  simp only [sumIfAll, Option.map_some] at h
  injection h with h
  push_cast at h
  rw [← h]
  exact ⟨div_nonneg k1 k3.le, (div_le_one k3).2 k2⟩

/-- The denominator the code divides by is `p log p + n log n`, not the entropy
`-(p log (p/N) + n log (n/N))` of the class distribution; for `p = n = 4` the former is twice the
latter, so even an almost perfect prediction cannot score more than about one half. -/
theorem C13_uc_denominator (p n : ℝ) (hp : 0 < p) (hn : 0 < n) :
    (p + n) * Real.log (p + n) + p * Real.log (p / (p + n)) + n * Real.log (n / (p + n))
      = p * Real.log p + n * Real.log n ∧
    (4 : ℝ) * Real.log 4 + 4 * Real.log 4
      = 2 * -(4 * Real.log (4 / (4 + 4)) + 4 * Real.log (4 / (4 + 4))) := by
  constructor
  · rw [Real.log_div (by positivity) (by positivity), Real.log_div (by positivity) (by positivity)]
    ring
  · have h1 : Real.log 4 = 2 * Real.log 2 := by
      rw [show (4 : ℝ) = 2 ^ 2 by norm_num, Real.log_pow]; norm_num
    have h2 : Real.log (4 / (4 + 4)) = - Real.log 2 := by
      rw [show (4 : ℝ) / (4 + 4) = 2⁻¹ by norm_num, Real.log_inv]
    rw [h1, h2]; ring

example : calculateAtoms [1, 1, 0, 0, 0] [1, 0, 0, 1, 0] 1 = ⟨1, 2, 1, 1⟩ := by decide
example : ∃ s, calculateLabelScores ⟨1, 2, 1, 1⟩ = .ok s ∧ s.f1 = 1 / 2 :=
  ⟨_, rfl, by norm_num⟩
example : marginalProduct ⟨1, 2, 1, 1⟩ < 2 ^ 63 ∧ marginalProduct ⟨1, 2, 1, 1⟩ ≠ 0 := by decide

end Verif

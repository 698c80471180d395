import Verif.Spec.Rounding
import Mathlib.Tactic.Linarith
import Mathlib.Tactic.Positivity
import Mathlib.Tactic.FieldSimp
import Mathlib.Tactic.Ring

/-! # Lemmas about rounding -/

namespace Verif

theorem fl_idem {fl : ℚ → ℚ} (h : RoundsToNearest fl) (x : ℚ) : fl (fl x) = fl x := by
  have := h (fl x) x
  rw [sub_self, abs_zero] at this
  have := abs_nonpos_iff.1 this
  linarith

theorem fl_mono {fl : ℚ → ℚ} (h : RoundsToNearest fl) {x y : ℚ} (hxy : x ≤ y) : fl x ≤ fl y := by
  by_contra hlt
  push Not at hlt
  have h1 := h x y
  have h2 := h y x
  have a1 : fl x + fl y ≤ 2 * x := by
    by_contra hc
    push Not at hc
    have : |x - fl y| < |x - fl x| := by
      rw [abs_lt]
      rcases abs_cases (x - fl x) with ⟨e, _⟩ | ⟨e, _⟩ <;> rw [e] <;> constructor <;> linarith
    linarith
  have a2 : 2 * y ≤ fl x + fl y := by
    by_contra hc
    push Not at hc
    have : |y - fl x| < |y - fl y| := by
      rw [abs_lt]
      rcases abs_cases (y - fl y) with ⟨e, _⟩ | ⟨e, _⟩ <;> rw [e] <;> constructor <;> linarith
    linarith
  have : x = y := by linarith
  subst this
  exact lt_irrefl _ hlt

theorem fl_zero {fl : ℚ → ℚ} {ε : ℚ} (h : RoundsWithin fl ε) : fl 0 = 0 := by
  have := h 0
  simp only [sub_zero, abs_zero, mul_zero] at this
  exact abs_nonpos_iff.1 this

/-- One coordinate of a row between two others, with rounding. -/
theorem fl_between {fl : ℚ → ℚ} (hn : RoundsToNearest fl) (h0 : fl 0 = 0) {U : ℚ} (hU : Shrinks fl U) (hU1 : U ≤ 1) {a b u : ℚ} (ha : fl a = a)
    (hb : fl b = b) (hu : 0 ≤ u ∧ u ≤ U) :
    min a b ≤ fl (a + fl (fl (b - a) * u)) ∧ fl (a + fl (fl (b - a) * u)) ≤ max a b := by
  have hu1 : u ≤ 1 := hu.2.trans hU1
  set D := fl (b - a) with hD
  have hDD : fl D = D := fl_idem hn _
  rcases le_total a b with h | h
  · rw [min_eq_left h, max_eq_right h]
    have hD0 : 0 ≤ D := by rw [← h0]; exact fl_mono hn (by linarith)
    have hp0 : 0 ≤ fl (D * u) := by rw [← h0]; exact fl_mono hn (mul_nonneg hD0 hu.1)
    refine ⟨by conv_lhs => rw [← ha]
               exact fl_mono hn (by linarith), ?_⟩
    conv_rhs => rw [← hb]
    refine fl_mono hn ?_
    have hpD : fl (D * u) ≤ D := by
      conv_rhs => rw [← hDD]
      exact fl_mono hn (by nlinarith)
    by_contra hc
    push Not at hc
    have hlt : b - a < fl (D * u) := by linarith
    have heq : fl (D * u) = D := by
      by_contra hne
      have hlt' : fl (D * u) < D := lt_of_le_of_ne hpD hne
      have := hn (b - a) (D * u)
      rw [← hD, abs_of_nonpos (by linarith), abs_of_nonpos (by linarith)] at this
      linarith
    have hD0' : D ≠ 0 := by
      intro hz
      rw [hz, zero_mul, h0] at hlt
      linarith
    refine hU D hDD hD0' (le_antisymm ?_ ?_)
    · conv_rhs => rw [← hDD]
      exact fl_mono hn (by nlinarith)
    · conv_lhs => rw [← heq]
      exact fl_mono hn (by nlinarith)
  · rw [min_eq_right h, max_eq_left h]
    have hD0 : D ≤ 0 := by rw [← h0]; exact fl_mono hn (by linarith)
    have hp0 : fl (D * u) ≤ 0 := by rw [← h0]; exact fl_mono hn (by nlinarith [hu.1])
    refine ⟨?_, by conv_rhs => rw [← ha]
                   exact fl_mono hn (by linarith)⟩
    conv_lhs => rw [← hb]
    refine fl_mono hn ?_
    have hpD : D ≤ fl (D * u) := by
      conv_lhs => rw [← hDD]
      exact fl_mono hn (by nlinarith)
    by_contra hc
    push Not at hc
    have hlt : fl (D * u) < b - a := by linarith
    have heq : fl (D * u) = D := by
      by_contra hne
      have hlt' : D < fl (D * u) := lt_of_le_of_ne hpD (Ne.symm hne)
      have := hn (b - a) (D * u)
      rw [← hD, abs_of_nonneg (by linarith), abs_of_nonneg (by linarith)] at this
      linarith
    have hD0' : D ≠ 0 := by
      intro hz
      rw [hz, zero_mul, h0] at hlt
      linarith
    refine hU D hDD hD0' (le_antisymm ?_ ?_)
    · conv_rhs => rw [← heq]
      exact fl_mono hn (by nlinarith)
    · conv_lhs => rw [← hDD]
      exact fl_mono hn (by nlinarith)

/-! ## Relative errors -/

/-- `y` is `x` up to a factor between `(1 - ε) ^ n` and `(1 + ε) ^ n`. -/
def NearBy (ε : ℚ) (n : Nat) (x y : ℚ) : Prop := ∃ t, (1 - ε) ^ n ≤ t ∧ t ≤ (1 + ε) ^ n ∧ y = x * t

theorem nearBy_fl {fl : ℚ → ℚ} {ε : ℚ} (h : RoundsWithin fl ε) (h0 : 0 ≤ ε) (x : ℚ) : NearBy ε 1 x (fl x) := by
  by_cases hx : x = 0
  · subst hx
    exact ⟨1, by simpa using h0, by simpa using h0, by rw [fl_zero h, zero_mul]⟩
  · have hb := h x
    have hx' : 0 < |x| := abs_pos.2 hx
    have : |fl x / x - 1| ≤ ε := by
      have e : fl x / x - 1 = (fl x - x) / x := by field_simp
      rw [e, abs_div, div_le_iff₀ hx']
      exact hb
    have := abs_le.1 this
    exact ⟨fl x / x, by rw [pow_one]; linarith, by rw [pow_one]; linarith, by field_simp⟩

theorem NearBy.trans {ε : ℚ} (h0 : 0 ≤ ε) (h1 : ε ≤ 1) {n m : Nat} {x y z : ℚ} (h : NearBy ε n x y) (k : NearBy ε m y z) : NearBy ε (n + m) x z := by
  obtain ⟨t, a, b, rfl⟩ := h
  obtain ⟨s, c, e, rfl⟩ := k
  have p1 : 0 ≤ (1 - ε) ^ n := pow_nonneg (by linarith) _
  have p2 : 0 ≤ (1 - ε) ^ m := pow_nonneg (by linarith) _
  refine ⟨t * s, ?_, ?_, by ring⟩
  · rw [pow_add]
    exact mul_le_mul a c p2 (p1.trans a)
  · rw [pow_add]
    exact mul_le_mul b e (p2.trans c) (pow_nonneg (by linarith) _)

theorem NearBy.mono {ε : ℚ} (h0 : 0 ≤ ε) (h1 : ε ≤ 1) {n m : Nat} (hnm : n ≤ m) {x y : ℚ} (h : NearBy ε n x y) : NearBy ε m x y := by
  obtain ⟨t, a, b, e⟩ := h
  exact ⟨t, (pow_le_pow_of_le_one (by linarith) (by linarith) hnm).trans a, b.trans (pow_le_pow_right₀ (by linarith) hnm), e⟩

theorem forall₂_scale {ε : ℚ} (h0 : 0 ≤ ε) (h1 : ε ≤ 1) {t : ℚ} (ht : 1 - ε ≤ t ∧ t ≤ 1 + ε) {n m : Nat} (hnm : n + 1 ≤ m) {l l' : List ℚ}
    (h : List.Forall₂ (NearBy ε n) l l') : List.Forall₂ (NearBy ε m) l (l'.map (· * t)) := by
  induction h with
  | nil => exact .nil
  | cons hx _ ih =>
    refine .cons (NearBy.mono h0 h1 hnm (hx.trans h0 h1 ⟨t, ?_, ?_, rfl⟩)) ih
    · rw [pow_one]; exact ht.1
    · rw [pow_one]; exact ht.2

theorem sum_map_times (l : List ℚ) (t : ℚ) : (l.map (· * t)).sum = l.sum * t := by
  induction l with
  | nil => simp
  | cons x l ih => rw [List.map_cons, List.sum_cons, List.sum_cons, ih]; ring

/-- A rounded sum is the exact sum of summands which are slightly changed. -/
theorem sumsUp_near {fl : ℚ → ℚ} {ε : ℚ} (h : RoundsWithin fl ε) (h0 : 0 ≤ ε) (h1 : ε ≤ 1) {l : List ℚ} {s : ℚ} (hs : SumsUp fl l s) :
    ∃ l', List.Forall₂ (NearBy ε (l.length - 1)) l l' ∧ s = l'.sum := by
  induction hs with
  | nil => exact ⟨[], .nil, rfl⟩
  | single x => exact ⟨[x], .cons ⟨1, by simp, by simp, by ring⟩ .nil, by simp⟩
  | @add l m a b hl hm _ _ ih1 ih2 =>
    obtain ⟨l', f1, e1⟩ := ih1
    obtain ⟨m', f2, e2⟩ := ih2
    obtain ⟨t, ta, tb, te⟩ := nearBy_fl h h0 (a + b)
    rw [pow_one] at ta tb
    have n1 : 0 < l.length := List.length_pos_iff.2 hl
    have n2 : 0 < m.length := List.length_pos_iff.2 hm
    refine ⟨l'.map (· * t) ++ m'.map (· * t), ?_, ?_⟩
    · rw [List.length_append]
      exact List.rel_append (forall₂_scale h0 h1 ⟨ta, tb⟩ (by omega) f1) (forall₂_scale h0 h1 ⟨ta, tb⟩ (by omega) f2)
    · rw [te, List.sum_append, sum_map_times, sum_map_times, e1, e2]
      ring

theorem forall₂_sum {P : ℚ → ℚ → Prop} {ε : ℚ} {n : Nat} (hP : ∀ x y, P x y → NearBy ε n x y) {l l' : List ℚ} (h : List.Forall₂ P l l')
    (hl : ∀ x ∈ l, 0 ≤ x) : l.sum * (1 - ε) ^ n ≤ l'.sum ∧ l'.sum ≤ l.sum * (1 + ε) ^ n := by
  induction h with
  | nil => simp
  | @cons x y l l' hxy _ ih =>
    obtain ⟨t, a, b, e⟩ := hP _ _ hxy
    have hx := hl x List.mem_cons_self
    have := ih (fun z hz => hl z (List.mem_cons_of_mem _ hz))
    rw [List.sum_cons, List.sum_cons, e]
    have c1 := mul_le_mul_of_nonneg_left a hx
    have c2 := mul_le_mul_of_nonneg_left b hx
    constructor <;> nlinarith [this.1, this.2]

/-- The rounded sum of numbers of one sign. -/
theorem sumsUp_nonneg {fl : ℚ → ℚ} {ε : ℚ} (h : RoundsWithin fl ε) (h0 : 0 ≤ ε) (h1 : ε ≤ 1) {l : List ℚ} {s : ℚ} (hs : SumsUp fl l s)
    (hl : ∀ x ∈ l, 0 ≤ x) : l.sum * (1 - ε) ^ (l.length - 1) ≤ s ∧ s ≤ l.sum * (1 + ε) ^ (l.length - 1) := by
  obtain ⟨l', f, rfl⟩ := sumsUp_near h h0 h1 hs
  exact forall₂_sum (fun _ _ h => h) f hl

theorem simplexError_factor {ε : ℚ} (h0 : 0 ≤ ε) (h1 : ε < 1) {m : Nat} {a b : ℚ} (ha : (1 - ε) ^ (m - 1) ≤ a ∧ a ≤ (1 + ε) ^ (m - 1))
    (hb : (1 - ε) ^ (m + 1) ≤ b ∧ b ≤ (1 + ε) ^ (m + 1)) : |b / a - 1| ≤ simplexError ε m := by
  have q0 : 0 < 1 - ε := by linarith
  have p0 : 0 < 1 + ε := by linarith
  have qp : 1 - ε ≤ 1 + ε := by linarith
  have a0 : 0 < a := lt_of_lt_of_le (pow_pos q0 _) ha.1
  have r1 : 1 ≤ (1 + ε) / (1 - ε) := by rw [le_div_iff₀ q0]; linarith
  set R := ((1 + ε) / (1 - ε)) ^ (m + 1) with hR
  have hR1 : 1 ≤ R := one_le_pow₀ r1
  have up : b / a ≤ R := by
    rw [div_le_iff₀ a0, hR, div_pow]
    have : (1 + ε) ^ (m + 1) ≤ (1 + ε) ^ (m + 1) / (1 - ε) ^ (m + 1) * a := by
      rw [div_mul_eq_mul_div, le_div_iff₀ (pow_pos q0 _)]
      refine mul_le_mul_of_nonneg_left ?_ (pow_pos p0 _).le
      exact (pow_le_pow_of_le_one q0.le (by linarith) (by omega : m - 1 ≤ m + 1)).trans ha.1
    exact hb.2.trans this
  have lo : 1 / R ≤ b / a := by
    rw [le_div_iff₀ a0, hR, div_pow, one_div_div, div_mul_eq_mul_div, div_le_iff₀ (pow_pos p0 _)]
    refine mul_le_mul hb.1 ?_ a0.le ((pow_pos q0 _).le.trans hb.1)
    exact ha.2.trans (pow_le_pow_right₀ (by linarith) (by omega))
  have hlo : 2 - R ≤ 1 / R := by
    rw [le_div_iff₀ (by linarith)]
    nlinarith [sq_nonneg (R - 1)]
  unfold simplexError
  rw [abs_le]
  constructor <;> linarith

theorem forall₂_abs_sum {γ : ℚ} {l l' : List ℚ} (h : List.Forall₂ (fun x y => |y - x| ≤ γ * |x|) l l') :
    |l'.sum - l.sum| ≤ γ * (l.map abs).sum := by
  induction h with
  | nil => simp
  | @cons x y l l' hxy _ ih =>
    rw [List.sum_cons, List.sum_cons, List.map_cons, List.sum_cons, mul_add]
    calc |y + l'.sum - (x + l.sum)| = |(y - x) + (l'.sum - l.sum)| := by congr 1; ring
      _ ≤ |y - x| + |l'.sum - l.sum| := abs_add_le _ _
      _ ≤ _ := add_le_add hxy ih

theorem simplex_terms {fl : ℚ → ℚ} {ε : ℚ} (h : RoundsWithin fl ε) (h0 : 0 ≤ ε) (h1 : ε < 1) {m : Nat} (hm : 1 ≤ m) {S s t : ℚ} (hS : S ≠ 0)
    (ht : (1 - ε) ^ (m - 1) ≤ t ∧ t ≤ (1 + ε) ^ (m - 1)) (hs : s = S * t) :
    ∀ {u v p' : List ℚ}, u.length = v.length →
      List.Forall₂ (NearBy ε (m - 1)) (List.zipWith (fun v x => fl (v * x)) v (u.map (fun x => fl (x / s)))) p' →
      List.Forall₂ (fun x y => |y - x| ≤ simplexError ε m * |x|) (List.zipWith (· * ·) (u.map (· / S)) v) p' := by
  have t0 : t ≠ 0 := (lt_of_lt_of_le (pow_pos (by linarith) _) ht.1).ne'
  intro u
  induction u with
  | nil =>
    intro v p' _ hf
    rw [List.map_nil, List.zipWith_nil_right] at hf
    rw [List.forall₂_nil_left_iff.1 hf]
    exact .nil
  | cons x u ih =>
    intro v p' hl hf
    cases v with
    | nil => simp at hl
    | cons v0 v =>
      rw [List.map_cons, List.zipWith_cons_cons] at hf
      cases hf with
      | @cons _ y _ p' hy hf =>
        refine .cons ?_ (ih (by simpa using hl) hf)
        obtain ⟨t1, a1, b1, e1⟩ := nearBy_fl h h0 (x / s)
        have g1 : NearBy ε 1 (v0 * (x / s)) (v0 * fl (x / s)) := ⟨t1, a1, b1, by rw [e1]; ring⟩
        obtain ⟨τ, a, b, e⟩ := (g1.trans h0 h1.le (nearBy_fl h h0 (v0 * fl (x / s)))).trans h0 h1.le hy
        have hexp : 1 + 1 + (m - 1) = m + 1 := by omega
        rw [hexp] at a b
        have hfac := simplexError_factor h0 h1 ht ⟨a, b⟩
        have : y - x / S * v0 = x / S * v0 * (τ / t - 1) := by
          rw [e, hs]
          field_simp
        rw [this, abs_mul, mul_comm]
        exact mul_le_mul_of_nonneg_right hfac (abs_nonneg _)

/-- A point of a simplex with rounding: weights from rounded sums and quotients, products and their sum rounded. -/
theorem simplex_point_near {fl : ℚ → ℚ} {ε : ℚ} (h : RoundsWithin fl ε) (h0 : 0 ≤ ε) (h1 : ε < 1) {u v : List ℚ} {s r : ℚ}
    (hl : u.length = v.length) (hu : ∀ x ∈ u, 0 ≤ x) (hS : u.sum ≠ 0) (hs : SumsUp fl u s)
    (hr : SumsUp fl (List.zipWith (fun v x => fl (v * x)) v (u.map (fun x => fl (x / s)))) r) :
    |r - (List.zipWith (· * ·) (u.map (· / u.sum)) v).sum| ≤
      simplexError ε u.length * ((List.zipWith (· * ·) (u.map (· / u.sum)) v).map abs).sum := by
  have hne : u ≠ [] := by rintro rfl; exact hS rfl
  have hS0 : 0 < u.sum := lt_of_le_of_ne (List.sum_nonneg hu) (Ne.symm hS)
  have hb := sumsUp_nonneg h h0 h1.le hs hu
  obtain ⟨p', f, rfl⟩ := sumsUp_near h h0 h1.le hr
  have hlen : (List.zipWith (fun v x => fl (v * x)) v (u.map (fun x => fl (x / s)))).length = u.length := by simp [hl]
  rw [hlen] at f
  refine forall₂_abs_sum (simplex_terms h h0 h1 (List.length_pos_iff.2 hne) hS (t := s / u.sum) ?_ ?_ hl f)
  · rw [le_div_iff₀ hS0, div_le_iff₀ hS0]
    constructor <;> linarith [hb.1, hb.2]
  · field_simp

theorem abs_weighted_sum {w v : List ℚ} {M : ℚ} (hw : ∀ x ∈ w, 0 ≤ x) (hv : ∀ x ∈ v, |x| ≤ M) (hl : w.length = v.length) :
    ((List.zipWith (· * ·) w v).map abs).sum ≤ w.sum * M := by
  induction w generalizing v with
  | nil => simp
  | cons x w ih =>
    cases v with
    | nil => simp at hl
    | cons y v =>
      have := ih (fun z hz => hw z (List.mem_cons_of_mem _ hz)) (fun z hz => hv z (List.mem_cons_of_mem _ hz)) (by simpa using hl)
      have hx := hw x List.mem_cons_self
      have hy := hv y List.mem_cons_self
      rw [List.zipWith_cons_cons, List.map_cons, List.sum_cons, List.sum_cons, abs_mul, abs_of_nonneg hx]
      nlinarith [mul_le_mul_of_nonneg_left hy hx]

end Verif

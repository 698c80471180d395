import Verif.Props.C133
import Verif.Model.RoundedChoice
import Verif.Lemmas.ReorderSimplex
import Mathlib.Algebra.Order.Ring.Pow

/-!
# C134: the weighted selection with the rounding of the machine
-/

namespace Verif

/-! ## Running sums -/

theorem seqSum_snoc {fl : ℚ → ℚ} {l : List ℚ} (hl : l ≠ []) (x : ℚ) : seqSum fl (l ++ [x]) = fl (seqSum fl l + x) := by
  cases l with
  | nil => exact absurd rfl hl
  | cons z l => simp [seqSum, List.foldl_append]

theorem seqSum_fixed {fl : ℚ → ℚ} (hA : RoundsToNearest fl) (h0 : fl 0 = 0) {l : List ℚ} (hl : ∀ x ∈ l, fl x = x) :
    fl (seqSum fl l) = seqSum fl l := by
  rcases List.eq_nil_or_concat l with rfl | ⟨l', x, rfl⟩
  · exact h0
  · rw [List.concat_eq_append] at *
    by_cases h : l' = []
    · subst h; exact hl x (by simp)
    · rw [seqSum_snoc h]; exact fl_idem hA _

theorem seqSum_take_succ {fl : ℚ → ℚ} (hA : RoundsToNearest fl) (h0 : fl 0 = 0) {p : List ℚ} (hp : ∀ x ∈ p, 0 ≤ x ∧ fl x = x) {i : Nat}
    (hi : i < p.length) : seqSum fl (p.take i) ≤ seqSum fl (p.take (i + 1)) ∧ (p[i] = 0 → seqSum fl (p.take (i + 1)) = seqSum fl (p.take i)) ∧
      (0 ≤ seqSum fl (p.take i) → p[i] ≤ seqSum fl (p.take (i + 1))) := by
  have hx := hp p[i] (List.getElem_mem hi)
  rw [← List.take_concat_get' p i hi]
  by_cases h : p.take i = []
  · rw [h]
    refine ⟨hx.1, fun e => ?_, fun _ => le_rfl⟩
    exact e
  · rw [seqSum_snoc h]
    have hf := seqSum_fixed hA h0 (l := p.take i) (fun x hx => (hp x (List.mem_of_mem_take hx)).2)
    refine ⟨?_, fun e => by rw [e, add_zero, hf], fun h1 => ?_⟩
    · calc seqSum fl (p.take i) = fl (seqSum fl (p.take i)) := hf.symm
        _ ≤ _ := fl_mono hA (by linarith [hx.1])
    · calc p[i] = fl p[i] := hx.2.symm
        _ ≤ _ := fl_mono hA (by linarith)

theorem seqSum_take_mono {fl : ℚ → ℚ} (hA : RoundsToNearest fl) (h0 : fl 0 = 0) {p : List ℚ} (hp : ∀ x ∈ p, 0 ≤ x ∧ fl x = x) :
    Monotone (fun i => seqSum fl (p.take i)) := by
  refine monotone_nat_of_le_succ fun i => ?_
  by_cases hi : i < p.length
  · exact (seqSum_take_succ hA h0 hp hi).1
  · rw [List.take_of_length_le (by omega), List.take_of_length_le (by omega)]

theorem seqSum_pos {fl : ℚ → ℚ} (hA : RoundsToNearest fl) (h0 : fl 0 = 0) {p : List ℚ} (hp : ∀ x ∈ p, 0 ≤ x ∧ fl x = x)
    (hpos : ∃ x ∈ p, 0 < x) : 0 < seqSum fl p := by
  obtain ⟨x, hx, hx0⟩ := hpos
  obtain ⟨i, hi, rfl⟩ := List.getElem_of_mem hx
  have hm := seqSum_take_mono hA h0 hp
  have h1 : 0 ≤ seqSum fl (p.take i) := hm (Nat.zero_le i)
  have h2 := (seqSum_take_succ hA h0 hp hi).2.2 h1
  have h3 : seqSum fl (p.take (i + 1)) ≤ seqSum fl (p.take p.length) := hm (by omega)
  rw [List.take_length] at h3
  linarith

theorem flCumsumFrom_get (fl : ℚ → ℚ) : ∀ (l pre : List ℚ), pre ≠ [] → flCumsumFrom fl (seqSum fl pre) l =
    (List.range l.length).map (fun i => seqSum fl (pre ++ l.take (i + 1)))
  | [], _, _ => rfl
  | x :: xs, pre, hpre => by
    have ih := flCumsumFrom_get fl xs (pre ++ [x]) (by simp)
    rw [List.length_cons, List.range_succ_eq_map, List.map_cons, List.map_map]
    unfold flCumsumFrom
    rw [← seqSum_snoc (fl := fl) hpre x, ih]
    simp [Function.comp_def]

theorem flCumsum_eq (fl : ℚ → ℚ) (p : List ℚ) : flCumsum fl p = (List.range p.length).map (fun i => seqSum fl (p.take (i + 1))) := by
  cases p with
  | nil => rfl
  | cons x xs =>
    rw [List.length_cons, List.range_succ_eq_map, List.map_cons, List.map_map]
    show x :: flCumsumFrom fl x xs = _
    have := flCumsumFrom_get fl xs [x] (by simp)
    rw [show seqSum fl [x] = x from rfl] at this
    rw [this]
    simp [Function.comp_def, seqSum]

/-! ## One draw -/

/-- The bounds of the draws: position `i` is chosen for draws from `drawBound i` up to `drawBound (i + 1)`. -/
def drawBound (fl : ℚ → ℚ) (p : List ℚ) (i : Nat) : ℚ := fl (seqSum fl (p.take i) / seqSum fl p)

theorem flChoiceIdx_eq {fl : ℚ → ℚ} {p : List ℚ} (hne : p ≠ []) (u : ℚ) :
    flChoiceIdx fl p u = ((List.range p.length).map (fun i => drawBound fl p (i + 1))).findIdx (fun x => decide (u < x)) := by
  have hl : (flCumsum fl p).getLastD 1 = seqSum fl p := by
    rw [flCumsum_eq]
    obtain ⟨m, hm⟩ : ∃ m, p.length = m + 1 := ⟨p.length - 1, by have := List.length_pos_iff.2 hne; omega⟩
    rw [hm, List.range_succ, List.map_append, List.map_singleton]
    simp only [List.getLastD_concat]
    rw [List.take_of_length_le (by omega)]
  unfold flChoiceIdx
  dsimp only
  rw [hl, flCumsum_eq, List.map_map]
  rfl

/-- **One draw with rounding.** The draws from zero to one are divided at the bounds `G i`; position `i` is chosen exactly between `G i` and
`G (i + 1)`; positions of probability zero have no draws at all; and the bounds are, up to rounding, the sums of the probabilities. -/
theorem C134_choice {fl : ℚ → ℚ} {ε : ℚ} (hA : RoundsToNearest fl) (hW : RoundsWithin fl ε) (he0 : 0 ≤ ε) (he1 : ε < 1) (h1 : fl 1 = 1)
    {p : List ℚ} (hp : ∀ x ∈ p, 0 ≤ x ∧ fl x = x) (hpos : ∃ x ∈ p, 0 < x) :
    ∃ G : Nat → ℚ, G 0 = 0 ∧ G p.length = 1 ∧ Monotone G ∧ (∀ i, p[i]? = some 0 → G (i + 1) = G i) ∧
      (∀ i, i ≤ p.length → |G i - (p.take i).sum / p.sum| ≤ simplexError ε p.length) ∧
      ∀ u, 0 ≤ u → u < 1 → ∀ i, flChoiceIdx fl p u = i ↔ i < p.length ∧ G i ≤ u ∧ u < G (i + 1) := by
  have h0 := fl_zero hW
  have hS := seqSum_pos hA h0 hp hpos
  have hmono : Monotone (drawBound fl p) := fun i j hij => fl_mono hA (div_le_div_of_nonneg_right (seqSum_take_mono hA h0 hp hij) hS.le)
  have hne : p ≠ [] := by rintro rfl; simp at hpos
  have hz : drawBound fl p 0 = 0 := by unfold drawBound; simp [seqSum, h0]
  have hone : drawBound fl p p.length = 1 := by
    unfold drawBound
    rw [List.take_length, div_self hS.ne', h1]
  refine ⟨drawBound fl p, hz, hone, hmono, ?_, ?_, ?_⟩
  · intro i hi
    obtain ⟨hlt, he⟩ := List.getElem?_eq_some_iff.1 hi
    unfold drawBound
    rw [(seqSum_take_succ hA h0 hp hlt).2.1 he]
  · intro i hi
    have hp0 : ∀ x ∈ p, 0 ≤ x := fun x hx => (hp x hx).1
    have ht0 : ∀ x ∈ p.take i, 0 ≤ x := fun x hx => hp0 x (List.mem_of_mem_take hx)
    have hb := sumsUp_nonneg hW he0 he1.le (seqSum_sumsUp fl (p.take i)) ht0
    have hc := sumsUp_nonneg hW he0 he1.le (seqSum_sumsUp fl p) hp0
    have hPpos : 0 < p.sum := by
      obtain ⟨x, hx, hx0⟩ := hpos
      exact lt_of_lt_of_le hx0 (List.single_le_sum hp0 x hx)
    have hT0 : 0 ≤ (p.take i).sum := List.sum_nonneg ht0
    have hTP : (p.take i).sum ≤ p.sum := by
      have := sum_take_mono hp0 (a := i) (b := p.length) hi
      rwa [List.take_length] at this
    have hlen : (p.take i).length - 1 ≤ p.length - 1 := by rw [List.length_take]; omega
    have hE := simplexError_nonneg he0 he1 p.length
    rcases hT0.eq_or_lt with hT | hT
    · rw [← hT, zero_mul, zero_mul] at hb
      have : seqSum fl (p.take i) = 0 := le_antisymm hb.2 hb.1
      unfold drawBound
      rw [this, ← hT, zero_div, zero_div, h0, sub_zero, abs_zero]
      exact hE
    · obtain ⟨t3, a3, b3, e3⟩ := nearBy_fl hW he0 (seqSum fl (p.take i) / seqSum fl p)
      rw [pow_one] at a3 b3
      have q0 : (0 : ℚ) < 1 - ε := by linarith
      have hm1 : 1 ≤ p.length := List.length_pos_iff.2 hne
      have f1 : (1 - ε) ^ (p.length - 1) ≤ seqSum fl (p.take i) / (p.take i).sum := by
        rw [le_div_iff₀ hT]
        calc (1 - ε) ^ (p.length - 1) * (p.take i).sum ≤ (1 - ε) ^ ((p.take i).length - 1) * (p.take i).sum :=
              mul_le_mul_of_nonneg_right (pow_le_pow_of_le_one q0.le (by linarith) hlen) hT0
          _ ≤ _ := by linarith [hb.1]
      have f2 : seqSum fl (p.take i) / (p.take i).sum ≤ (1 + ε) ^ (p.length - 1) := by
        rw [div_le_iff₀ hT]
        calc seqSum fl (p.take i) ≤ (1 + ε) ^ ((p.take i).length - 1) * (p.take i).sum := by linarith [hb.2]
          _ ≤ _ := mul_le_mul_of_nonneg_right (pow_le_pow_right₀ (by linarith) hlen) hT0
      have g1 : (1 - ε) ^ (p.length - 1) ≤ seqSum fl p / p.sum := by rw [le_div_iff₀ hPpos]; linarith [hc.1]
      have g2 : seqSum fl p / p.sum ≤ (1 + ε) ^ (p.length - 1) := by rw [div_le_iff₀ hPpos]; linarith [hc.2]
      have k := simplexError_factor he0 he1 (m := p.length) (a := seqSum fl p / p.sum)
        (b := seqSum fl (p.take i) / (p.take i).sum * t3) ⟨g1, g2⟩ ⟨?_, ?_⟩
      · have e : drawBound fl p i - (p.take i).sum / p.sum =
            ((seqSum fl (p.take i) / (p.take i).sum * t3) / (seqSum fl p / p.sum) - 1) * ((p.take i).sum / p.sum) := by
          unfold drawBound
          rw [e3]
          field_simp
        rw [e, abs_mul, abs_of_nonneg (div_nonneg hT0 hPpos.le)]
        have : (p.take i).sum / p.sum ≤ 1 := by rw [div_le_one hPpos]; exact hTP
        calc _ ≤ simplexError ε p.length * 1 := mul_le_mul k this (div_nonneg hT0 hPpos.le) hE
          _ = _ := mul_one _
      · have : (1 - ε) ^ (p.length + 1) ≤ (1 - ε) ^ (p.length - 1) * (1 - ε) := by
          rw [← pow_succ]
          exact pow_le_pow_of_le_one q0.le (by linarith) (by omega)
        refine this.trans (mul_le_mul f1 a3 q0.le ?_)
        exact (pow_nonneg q0.le _).trans f1
      · have : (1 + ε) ^ (p.length - 1) * (1 + ε) ≤ (1 + ε) ^ (p.length + 1) := by
          rw [← pow_succ]
          exact pow_le_pow_right₀ (by linarith) (by omega)
        refine le_trans (mul_le_mul f2 b3 (by linarith) (pow_nonneg (by linarith) _)) this
  · intro u hu0 hu1 i
    rw [flChoiceIdx_eq hne]
    set L := (List.range p.length).map (fun i => drawBound fl p (i + 1)) with hL
    have hlen : L.length = p.length := by simp [hL]
    have hget : ∀ j (hj : j < L.length), L[j] = drawBound fl p (j + 1) := by intro j hj; simp [hL]
    have hm1 : 1 ≤ p.length := List.length_pos_iff.2 hne
    have hex : L.findIdx (fun x => decide (u < x)) < L.length := by
      rw [List.findIdx_lt_length]
      refine ⟨L[p.length - 1]'(by omega), List.getElem_mem _, ?_⟩
      rw [hget, Nat.sub_add_cancel hm1, hone]
      simpa using hu1
    constructor
    · rintro rfl
      refine ⟨by omega, ?_, ?_⟩
      · rcases Nat.eq_zero_or_pos (L.findIdx (fun x => decide (u < x))) with hz' | hpos'
        · rw [hz', hz]; exact hu0
        · have := List.not_of_lt_findIdx (p := fun x => decide (u < x)) (xs := L) (i := L.findIdx (fun x => decide (u < x)) - 1) (by omega)
          rw [hget, Nat.sub_add_cancel hpos'] at this
          simpa using this
      · have := List.findIdx_getElem (p := fun x => decide (u < x)) (xs := L) (w := hex)
        rw [hget] at this
        simpa using this
    · rintro ⟨hi, a, b⟩
      rcases Nat.lt_trichotomy (L.findIdx (fun x => decide (u < x))) i with h | h | h
      · have := List.findIdx_getElem (p := fun x => decide (u < x)) (xs := L) (w := hex)
        rw [hget] at this
        have h2 : drawBound fl p (L.findIdx (fun x => decide (u < x)) + 1) ≤ drawBound fl p i := hmono (by omega)
        have h3 : u < drawBound fl p (L.findIdx (fun x => decide (u < x)) + 1) := by simpa using this
        linarith
      · exact h
      · have := List.not_of_lt_findIdx (p := fun x => decide (u < x)) (xs := L) h
        rw [hget] at this
        have h3 : ¬ u < drawBound fl p (i + 1) := by simpa using this
        exact absurd b h3

/-- **Never outside, never a probability of zero.** -/
theorem C134_positive {fl : ℚ → ℚ} {ε : ℚ} (hA : RoundsToNearest fl) (hW : RoundsWithin fl ε) (he0 : 0 ≤ ε) (he1 : ε < 1) (h1 : fl 1 = 1)
    {p : List ℚ} (hp : ∀ x ∈ p, 0 ≤ x ∧ fl x = x) (hpos : ∃ x ∈ p, 0 < x) {u : ℚ} (hu0 : 0 ≤ u) (hu1 : u < 1) :
    ∃ w, p[flChoiceIdx fl p u]? = some w ∧ 0 < w := by
  obtain ⟨G, _, _, _, hzero, _, hG⟩ := C134_choice hA hW he0 he1 h1 hp hpos
  obtain ⟨hlt, a, b⟩ := (hG u hu0 hu1 _).1 rfl
  refine ⟨p[flChoiceIdx fl p u], List.getElem?_eq_getElem hlt, ?_⟩
  refine lt_of_le_of_ne (hp _ (List.getElem_mem hlt)).1 fun h => ?_
  have := hzero _ (by rw [List.getElem?_eq_getElem hlt, ← h])
  linarith

/-! ## The check on the sum -/

theorem normalized_near {A : MachineArith} {ε : ℚ} (hW : RoundsWithin A.fl ε) (he0 : 0 ≤ ε) (he1 : ε < 1) (hsum : ∀ l, SumsUp A.fl l (A.sum l))
    {w : List ℚ} (hw : ∀ x ∈ w, 0 ≤ x) (hS : w.sum ≠ 0) : |(w.map (fun x => A.fl (x / A.sum w))).sum - 1| ≤ simplexError ε w.length := by
  have hpos : 0 < w.sum := lt_of_le_of_ne (List.sum_nonneg hw) (Ne.symm hS)
  have hne : w ≠ [] := by rintro rfl; exact hS rfl
  have hm1 : 1 ≤ w.length := List.length_pos_iff.2 hne
  have q0 : (0 : ℚ) < 1 - ε := by linarith
  have hb := sumsUp_nonneg hW he0 he1.le (hsum w) hw
  have g1 : (1 - ε) ^ (w.length - 1) ≤ A.sum w / w.sum := by rw [le_div_iff₀ hpos]; linarith [hb.1]
  have g2 : A.sum w / w.sum ≤ (1 + ε) ^ (w.length - 1) := by rw [div_le_iff₀ hpos]; linarith [hb.2]
  have hA0 : 0 < A.sum w := lt_of_lt_of_le (mul_pos hpos (pow_pos q0 _)) hb.1
  have hone : (w.map (· * (1 / w.sum))).sum = 1 := by
    rw [sum_map_times]
    field_simp
  have key : List.Forall₂ (fun x y => |y - x| ≤ simplexError ε w.length * |x|) (w.map (· * (1 / w.sum))) (w.map (fun x => A.fl (x / A.sum w))) := by
    rw [List.forall₂_map_left_iff, List.forall₂_map_right_iff, List.forall₂_same]
    intro x hx
    obtain ⟨t, a, b, e⟩ := nearBy_fl hW he0 (x / A.sum w)
    rw [pow_one] at a b
    have k := simplexError_factor he0 he1 (m := w.length) (a := A.sum w / w.sum) (b := t) ⟨g1, g2⟩
      ⟨(pow_le_pow_of_le_one q0.le (by linarith) (by omega : 1 ≤ w.length + 1)).trans (by simpa using a),
        b.trans (by simpa using pow_le_pow_right₀ (by linarith : (1 : ℚ) ≤ 1 + ε) (by omega : 1 ≤ w.length + 1))⟩
    have e' : A.fl (x / A.sum w) - x * (1 / w.sum) = (t / (A.sum w / w.sum) - 1) * (x * (1 / w.sum)) := by
      rw [e]
      field_simp
    rw [e', abs_mul]
    exact mul_le_mul_of_nonneg_right k (abs_nonneg _)
  have h := forall₂_abs_sum key
  rw [hone] at h
  have habs : ((w.map (· * (1 / w.sum))).map abs).sum = 1 := by
    have e : (w.map (· * (1 / w.sum))).map abs = w.map (· * (1 / w.sum)) := by
      rw [List.map_map]
      refine List.map_congr_left fun x hx => ?_
      exact abs_of_nonneg (mul_nonneg (hw x hx) (by positivity))
    rw [e, hone]
  rw [habs, mul_one] at h
  exact h

theorem flNpChoice_accepts {A : MachineArith} {ε δ tol : ℚ} (hW : RoundsWithin A.fl ε) (he0 : 0 ≤ ε) (he1 : ε < 1)
    (hsum : ∀ l, SumsUp A.fl l (A.sum l)) {ksum : List ℚ → ℚ} (hk : SumsNear δ ksum) {w : List ℚ} (hw : ∀ x ∈ w, 0 ≤ x) (hS : w.sum ≠ 0)
    (htol : choiceSlack ε δ w.length ≤ tol) (n : Nat) (u : Nat → ℚ) :
    flNpChoice A.fl ksum tol w.length n (w.map (fun x => A.fl (x / A.sum w))) u =
      .ok ((List.range n).map (fun i => flChoiceIdx A.fl (w.map (fun x => A.fl (x / A.sum w))) (u i))) := by
  have hs0 := (sumsUp_sign hW he1 (hsum w)).1 hw
  have hp0 : ∀ x ∈ w.map (fun x => A.fl (x / A.sum w)), 0 ≤ x := by
    intro x hx
    obtain ⟨z, hz, rfl⟩ := List.mem_map.1 hx
    exact fl_nonneg hW he1 (div_nonneg (hw z hz) hs0)
  have hnear := normalized_near hW he0 he1 hsum hw hS
  have hks := hk.2 _ hp0
  have hδ := hk.1
  unfold flNpChoice
  rw [if_neg (by simp), if_neg, if_neg]
  · rw [not_lt]
    refine le_trans ?_ htol
    generalize (w.map (fun x => A.fl (x / A.sum w))).sum = s at hnear hks
    generalize ksum (w.map (fun x => A.fl (x / A.sum w))) = t at hks
    have hs1 : s ≤ 1 + simplexError ε w.length := by linarith [(abs_le.1 hnear).2]
    have h1 : |t - 1| ≤ δ * (1 + simplexError ε w.length) + simplexError ε w.length := by
      have e : t - 1 = (t - s) + (s - 1) := by ring
      rw [e]
      refine (abs_add_le _ _).trans (add_le_add (hks.trans ?_) hnear)
      exact mul_le_mul_of_nonneg_left hs1 hδ
    have h2 := hW (t - 1)
    have h3 : |A.fl (t - 1)| ≤ (1 + ε) * |t - 1| := by
      have := abs_add_le (A.fl (t - 1) - (t - 1)) (t - 1)
      rw [sub_add_cancel] at this
      linarith
    exact h3.trans (mul_le_mul_of_nonneg_left h1 (by linarith))
  · simp only [List.any_eq_true, decide_eq_true_eq, not_exists, not_and, not_lt]
    exact hp0

/-- **Rounding does not make numpy reject the probabilities**, as long as there are not too many of them for its tolerance. -/
theorem C134_accepts {A : MachineArith} {ε δ tol : ℚ} (hW : RoundsWithin A.fl ε) (he0 : 0 ≤ ε) (he1 : ε < 1)
    (hsum : ∀ l, SumsUp A.fl l (A.sum l)) {ksum : List ℚ → ℚ} (hk : SumsNear δ ksum) {w : List ℚ} (hw : ∀ x ∈ w, 0 ≤ x) (hS : w.sum ≠ 0)
    (htol : choiceSlack ε δ w.length ≤ tol) (n : Nat) (u : Nat → ℚ) :
    ∃ p sel, flNormalizeWeights A w = .ok p ∧ flNpChoice A.fl ksum tol w.length n p u = .ok sel ∧ sel.length = n :=
  ⟨_, _, if_neg (fun h => hS ((sum_zero_iff hW he0 he1 hsum hw).1 h)), flNpChoice_accepts hW he0 he1 hsum hk hw hS htol n u, by simp⟩

/-- Six probabilities of a sixth, rounded, and a zero: the hypotheses hold; the sum with rounding is below one, and the last draw below one is
still the last position of a positive probability. -/
example : RoundsToNearest (binaryFl 53) ∧ RoundsWithin (binaryFl 53) (1 / 2 ^ 53) ∧ binaryFl 53 1 = 1 ∧
    (∀ x ∈ List.replicate 6 (binaryFl 53 (1 / 6)) ++ [0], 0 ≤ x ∧ binaryFl 53 x = x) ∧
    (∃ x ∈ List.replicate 6 (binaryFl 53 (1 / 6)) ++ [0], 0 < x) ∧ seqSum (binaryFl 53) (List.replicate 6 (binaryFl 53 (1 / 6)) ++ [0]) < 1 ∧
    flChoiceIdx (binaryFl 53) (List.replicate 6 (binaryFl 53 (1 / 6)) ++ [0]) (1 - 1 / 2 ^ 53) = 5 ∧
    flChoiceIdx (binaryFl 53) (List.replicate 6 (binaryFl 53 (1 / 6)) ++ [0]) (3 / 10) = 1 :=
  ⟨binaryFl_nearest (by norm_num), binaryFl_within 53, by decide +kernel, by decide +kernel, by decide +kernel, by decide +kernel, by decide +kernel,
    by decide +kernel⟩

/-- The slack is small: for 53 digits and a million simplices it is below the tolerance of numpy. -/
theorem simplexError_le {ε : ℚ} {m : Nat} (h0 : 0 ≤ ε) (h : 8 * (m + 1) * ε ≤ 1) : simplexError ε m ≤ 8 * (m + 1) * ε := by
  have hm : (0 : ℚ) ≤ m := Nat.cast_nonneg m
  have hε : ε ≤ 1 / 8 := by nlinarith
  have hr : (1 + ε) / (1 - ε) ≤ 1 / (1 - 4 * ε) := by
    rw [div_le_div_iff₀ (by linarith) (by linarith)]
    nlinarith
  have hp : ((1 + ε) / (1 - ε)) ^ (m + 1) ≤ (1 / (1 - 4 * ε)) ^ (m + 1) := pow_le_pow_left₀ (div_nonneg (by linarith) (by linarith)) hr _
  have hB := one_add_mul_le_pow (show (-2 : ℚ) ≤ -(4 * ε) by linarith) (m + 1)
  push_cast at hB
  have hx : 1 / 2 ≤ 1 + ((m : ℚ) + 1) * -(4 * ε) := by nlinarith
  have h3 : (1 / (1 - 4 * ε)) ^ (m + 1) ≤ 1 / (1 + ((m : ℚ) + 1) * -(4 * ε)) := by
    rw [one_div_pow]
    exact one_div_le_one_div_of_le (by linarith) (by simpa [sub_eq_add_neg] using hB)
  have h4 : 1 / (1 + ((m : ℚ) + 1) * -(4 * ε)) ≤ 1 + 8 * (m + 1) * ε := by
    rw [div_le_iff₀ (by linarith)]
    have : 0 ≤ (m + 1) * ε := by positivity
    nlinarith
  unfold simplexError
  linarith

/-! ## The selection of simplices -/

/-- A million simplices, doubles, and the tolerance of numpy. -/
theorem choiceSlack_doubles {m : Nat} (hm : m ≤ 1000000) : choiceSlack (1 / 2 ^ 53) (1 / 2 ^ 50) m ≤ 1 / 2 ^ 26 := by
  have hq : (m : ℚ) ≤ 1000000 := by exact_mod_cast hm
  have h := simplexError_le (ε := 1 / 2 ^ 53) (m := m) (by norm_num) (by norm_num; linarith)
  unfold choiceSlack
  have h2 : simplexError (1 / 2 ^ 53) m ≤ 8 * (1000000 + 1) * (1 / 2 ^ 53) := h.trans (by gcongr)
  norm_num at h2 ⊢
  linarith

theorem sumsNear_exact : SumsNear (1 / 2 ^ 50) List.sum :=
  ⟨by norm_num, fun l hl => by rw [sub_self, abs_zero]; exact mul_nonneg (by norm_num) (List.sum_nonneg hl)⟩

/-- Three weights of different sizes. -/
example : (∀ l, SumsUp doubles.fl l (doubles.sum l)) ∧ SumsNear (1 / 2 ^ 50) List.sum ∧ (∀ x ∈ [(1 : ℚ), 3, 7], 0 ≤ x) ∧ [(1 : ℚ), 3, 7].sum ≠ 0 ∧
    choiceSlack (1 / 2 ^ 53) (1 / 2 ^ 50) [(1 : ℚ), 3, 7].length ≤ 1 / 2 ^ 26 :=
  ⟨seqSum_sumsUp _, sumsNear_exact, by decide, by norm_num, choiceSlack_doubles (by simp)⟩

/-- The bound is needed in some form: with a tolerance of zero numpy would reject the rounded probabilities of these weights. -/
example : (do let p ← flNormalizeWeights doubles [1, 1, 1]; flNpChoice doubles.fl List.sum 0 3 1 p (fun _ => 1 / 2)) = .error .valueError := by
  decide +kernel

/-- Both not negative, and zero at the same time. -/
def SameSupport (a b : ℚ) : Prop := 0 ≤ a ∧ 0 ≤ b ∧ (a = 0 ↔ b = 0)

theorem SameSupport.refl {a : ℚ} (h : 0 ≤ a) : SameSupport a a := ⟨h, h, Iff.rfl⟩

theorem SameSupport.fl {fl : ℚ → ℚ} {ε : ℚ} (hW : RoundsWithin fl ε) (he1 : ε < 1) {a b : ℚ} (h : SameSupport a b) : SameSupport (fl a) b := by
  refine ⟨fl_nonneg hW he1 h.1, h.2.1, ?_⟩
  rw [← h.2.2]
  constructor
  · intro hz
    have := hW a
    rw [hz, zero_sub, abs_neg] at this
    by_contra hne
    have : 0 < |a| := abs_pos.2 hne
    nlinarith
  · rintro rfl
    exact fl_zero hW

theorem SameSupport.mul {a b c d : ℚ} (h : SameSupport a b) (k : SameSupport c d) : SameSupport (a * c) (b * d) :=
  ⟨mul_nonneg h.1 k.1, mul_nonneg h.2.1 k.2.1, by rw [mul_eq_zero, mul_eq_zero, h.2.2, k.2.2]⟩

theorem sameSupport_self {l : List ℚ} (h : ∀ x ∈ l, 0 ≤ x) : List.Forall₂ SameSupport l l :=
  List.forall₂_same.2 fun x hx => .refl (h x hx)

theorem sameSupport_prod {fl : ℚ → ℚ} {ε : ℚ} (hW : RoundsWithin fl ε) (he1 : ε < 1) : ∀ {ws : List ℚ} {a b : ℚ}, (∀ x ∈ ws, 0 ≤ x) → SameSupport a b →
    SameSupport (ws.foldl (fun a b => fl (a * b)) a) (b * ws.prod)
  | [], a, b, _, h => by simpa using h
  | x :: ws, a, b, hws, h => by
    rw [List.foldl_cons, List.prod_cons, ← mul_assoc]
    exact sameSupport_prod hW he1 (fun z hz => hws z (List.mem_cons_of_mem _ hz)) ((h.mul (.refl (hws x List.mem_cons_self))).fl hW he1)

theorem sameSupport_zip {fl : ℚ → ℚ} {ε : ℚ} (hW : RoundsWithin fl ε) (he1 : ε < 1) {w w' v v' : List ℚ} (h : List.Forall₂ SameSupport w w')
    (k : List.Forall₂ SameSupport v v') :
    List.Forall₂ SameSupport (List.zipWith (fun a b => fl (a * b)) w v) (List.zipWith (· * ·) w' v') := by
  induction h generalizing v v' with
  | nil => simp
  | cons hx _ ih =>
    cases k with
    | nil => simp
    | cons hy k => exact .cons ((hx.mul hy).fl hW he1) (ih k)

theorem sameSupport_sum {l l' : List ℚ} (h : List.Forall₂ SameSupport l l') : SameSupport l.sum l'.sum := by
  induction h with
  | nil => exact .refl le_rfl
  | @cons a b l l' hx _ ih =>
    rw [List.sum_cons, List.sum_cons]
    refine ⟨add_nonneg hx.1 ih.1, add_nonneg hx.2.1 ih.2.1, ?_⟩
    rw [add_eq_zero_iff_of_nonneg hx.1 ih.1, add_eq_zero_iff_of_nonneg hx.2.1 ih.2.1, hx.2.2, ih.2.2]

theorem allNeighbor_length {nDim k : Nat} {indices all : List (List Nat)} (h : allNeighborSimplicesRealIdx nDim indices k = .ok all) :
    all.length = indices.length * Nat.choose (k - 1) (nDim - 1) := by
  obtain ⟨-, -, h⟩ := allNeighbor_unfold h
  rw [← (mapM_ok_iff.1 h).length_eq, length_posSimplices]

theorem flDistribution_same {fl : ℚ → ℚ} {ε : ℚ} (hW : RoundsWithin fl ε) (he1 : ε < 1) {mode : SimplexSampling} {vol : List Row → ℚ}
    (hv : ∀ vs, 0 ≤ vol vs) (X : List Row) (S : List (List Nat)) :
    SameOutcome (List.Forall₂ SameSupport) (flSimplexDistribution fl mode vol X S) (simplexDistribution mode vol X S) := by
  have hrep : List.Forall₂ SameSupport (List.replicate S.length (fl (1 / (S.length : ℚ)))) (List.replicate S.length (1 / (S.length : ℚ))) := by
    have := SameSupport.fl hW he1 (SameSupport.refl (a := 1 / (S.length : ℚ)) (by positivity))
    generalize S.length = m at *
    generalize fl (1 / (m : ℚ)) = x at *
    generalize 1 / (m : ℚ) = z at *
    induction m with
    | zero => exact .nil
    | succ m ih => rw [List.replicate_succ, List.replicate_succ]; exact .cons this ih
  cases mode with
  | random => exact .ok hrep
  | deterministic => exact .ok hrep
  | unknown => exact .error _
  | volume =>
    refine SameOutcome.refl _ fun w hw => sameSupport_self fun x hx => ?_
    obtain ⟨s, _, hs⟩ := mapM_ok_mem hw hx
    obtain ⟨vs, _, hs⟩ := bind_ok.1 hs
    injection hs with hs
    exact hs ▸ hv vs

theorem flDetermineWeights_same {fl : ℚ → ℚ} {ε : ℚ} (hW : RoundsWithin fl ε) (he1 : ε < 1) {mode : SimplexSampling} {vol : List Row → ℚ}
    (hv : ∀ vs, 0 ≤ vol vs) (X : List Row) {bw : Option (List ℚ)} (hbw : ∀ w ∈ bw, ∀ x ∈ w, 0 ≤ x) (Xv : Option (List Row)) (S : List (List Nat)) (m : Nat) :
    SameOutcome (List.Forall₂ SameSupport) (flDetermineWeights fl mode vol X bw Xv S m) (determineWeights mode vol X bw Xv S m) := by
  cases bw with
  | none => cases Xv <;> exact flDistribution_same hW he1 hv _ _
  | some w =>
    refine SameOutcome.refl (x := determineWeights mode vol X (some w) Xv S m) fun l hl => sameSupport_self fun x hx => ?_
    unfold determineWeights at hl
    dsimp only at hl
    split at hl
    · cases hl
    · injection hl with hl
      subst hl
      obtain ⟨z, hz, hx⟩ := List.mem_flatMap.1 hx
      rw [List.eq_of_mem_replicate hx]
      exact hbw w rfl z hz

theorem flNodeWeights_same {fl : ℚ → ℚ} {ε : ℚ} (hW : RoundsWithin fl ε) (he1 : ε < 1) {sw : Option (List (List ℚ))}
    (hsw : ∀ w ∈ sw, ∀ r ∈ w, ∀ x ∈ r, 0 ≤ x) (a k nDim m : Nat) :
    SameOutcome (List.Forall₂ SameSupport) (flNodeWeights fl sw a k nDim m) (nodeWeights sw a k nDim m) := by
  cases sw with
  | none => exact .ok (sameSupport_self fun x hx => by rw [List.eq_of_mem_replicate hx]; exact zero_le_one)
  | some sw =>
    unfold flNodeWeights nodeWeights
    dsimp only
    refine SameOutcome.bind (P := fun a b => a = b) (SameOutcome.refl _ fun _ _ => rfl) ?_
    rintro nidx _ - - rfl
    refine SameOutcome.mapM fun s _ => ?_
    cases s with
    | nil => exact .error _
    | cons b ps =>
      refine SameOutcome.bind (P := fun a b => a = b) (SameOutcome.refl _ fun _ _ => rfl) ?_
      rintro row _ hrow - rfl
      refine SameOutcome.bind (P := fun a b => a = b) (SameOutcome.refl _ fun _ _ => rfl) ?_
      rintro ws _ hws - rfl
      refine .ok ?_
      have := sameSupport_prod hW he1 (ws := ws) (fun x hx => hsw sw rfl row (getRow_mem hrow) x (takeRows_mem hws hx)) (SameSupport.refl zero_le_one)
      simpa using this

/-- **The selection with rounding is a selection.** For random selection and selection by volume, with weights which are not negative: what is
selected with rounding is what exact arithmetic selects for some other draws; and if one of the two raises an exception, so does the other. -/
theorem C134_simplices {A : MachineArith} {ε δ tol : ℚ} (hA : RoundsToNearest A.fl) (hW : RoundsWithin A.fl ε) (he0 : 0 ≤ ε) (he1 : ε < 1)
    (h1 : A.fl 1 = 1) (hsum : ∀ l, SumsUp A.fl l (A.sum l)) {ksum : List ℚ → ℚ} (hk : SumsNear δ ksum) {mode : SimplexSampling}
    (hmode : mode ≠ .deterministic) {vol : List Row → ℚ} (hv : ∀ vs, 0 ≤ vol vs) {choiceU : Nat → ℚ} (hu : ∀ i, 0 ≤ choiceU i ∧ choiceU i < 1)
    {X : List Row} {n : Nat} {bw : Option (List ℚ)} (hbw : ∀ w ∈ bw, ∀ x ∈ w, 0 ≤ x) {indices : List (List Nat)} {k : Nat}
    {Xv : Option (List Row)} {sw : Option (List (List ℚ))} (hsw : ∀ w ∈ sw, ∀ r ∈ w, ∀ x ∈ r, 0 ≤ x) {nDim : Nat}
    (htol : choiceSlack ε δ (indices.length * Nat.choose (k - 1) (nDim - 1)) ≤ tol) :
    ∃ choiceU' : Nat → ℚ, (∀ i, 0 ≤ choiceU' i ∧ choiceU' i < 1) ∧
      flSimplicesSel A ksum tol mode vol choiceU X n bw indices k Xv sw nDim = simplicesSel mode vol choiceU' X n bw indices k Xv sw nDim := by
  have h00 : ∀ i : Nat, (0 : ℚ) ≤ (fun _ : Nat => (0 : ℚ)) i ∧ (fun _ : Nat => (0 : ℚ)) i < 1 := fun _ => ⟨le_rfl, zero_lt_one⟩
  unfold flSimplicesSel simplicesSel
  cases hall : allNeighborSimplicesRealIdx nDim indices k with
  | error e => exact ⟨_, h00, rfl⟩
  | ok all =>
    have hlen : all.length = indices.length * Nat.choose (k - 1) (nDim - 1) := allNeighbor_length hall
    simp only [ok_bind]
    have hnw := flNodeWeights_same hW he1 hsw indices.length k nDim all.length
    generalize flNodeWeights A.fl sw indices.length k nDim all.length = r at hnw
    generalize nodeWeights sw indices.length k nDim all.length = r' at hnw
    cases hnw with
    | error e => exact ⟨_, h00, rfl⟩
    | @ok nw nw' hnw =>
      simp only [ok_bind]
      have hw := flDetermineWeights_same hW he1 (mode := mode) hv X hbw Xv all indices.length
      generalize flDetermineWeights A.fl mode vol X bw Xv all indices.length = r at hw
      generalize determineWeights mode vol X bw Xv all indices.length = r' at hw
      cases hw with
      | error e => exact ⟨_, h00, rfl⟩
      | @ok w w' hw =>
        simp only [ok_bind]
        rw [hw.length_eq, hnw.length_eq]
        by_cases hl : w'.length ≠ nw'.length
        · rw [if_pos hl]
          exact ⟨_, h00, by rw [if_pos hl]; rfl⟩
        · simp only [if_neg hl]
          have hz := sameSupport_zip hW he1 hw hnw
          generalize List.zipWith (fun a b => A.fl (a * b)) w nw = z at hz
          generalize List.zipWith (· * ·) w' nw' = z' at hz
          have hz0 : ∀ x ∈ z, 0 ≤ x := fun x hx => by
            obtain ⟨_, _, h⟩ := forall₂_mem_left hz hx
            exact h.1
          have hz0' : ∀ x ∈ z', 0 ≤ x := fun x hx => by
            obtain ⟨_, _, h⟩ := forall₂_mem_right hz hx
            exact h.2.1
          have hss := sameSupport_sum hz
          have hA0 := sum_zero_iff hW he0 he1 hsum hz0
          unfold flNormalizeWeights normalize
          by_cases hS : z'.sum = 0
          · rw [if_pos (hA0.2 (hss.2.2.2 hS))]
            exact ⟨_, h00, by rw [if_pos hS]; rfl⟩
          · have hS1 : z.sum ≠ 0 := fun h => hS (hss.2.2.1 h)
            have hSp : 0 < z'.sum := lt_of_le_of_ne hss.2.1 (Ne.symm hS)
            have hAp : 0 < A.sum z := lt_of_le_of_ne ((sumsUp_sign hW he1 (hsum z)).1 hz0) (Ne.symm fun h => hS1 (hA0.1 h))
            rw [if_neg (fun h => hS1 (hA0.1 h))]
            simp only [if_neg hS, ok_bind, if_neg hmode]
            by_cases hla : z'.length = all.length
            · have hlz : z.length = all.length := hz.length_eq.trans hla
              have hacc := flNpChoice_accepts hW he0 he1 hsum hk hz0 hS1 (tol := tol) (by rw [hlz, hlen]; exact htol) n choiceU
              rw [hlz] at hacc
              rw [hacc]
              have hps : (z'.map (· / z'.sum)).sum = 1 := by
                have := sum_map_times z' (1 / z'.sum)
                have e : z'.map (· / z'.sum) = z'.map (· * (1 / z'.sum)) := List.map_congr_left fun x _ => by ring
                rw [e, this]
                field_simp
              have hp0 : ∀ x ∈ z'.map (· / z'.sum), 0 ≤ x := by
                intro x hx
                obtain ⟨t, ht, rfl⟩ := List.mem_map.1 hx
                exact div_nonneg (hz0' t ht) hSp.le
              have hq : ∀ x ∈ z.map (fun x => A.fl (x / A.sum z)), 0 ≤ x ∧ A.fl x = x := by
                intro x hx
                obtain ⟨t, ht, rfl⟩ := List.mem_map.1 hx
                exact ⟨fl_nonneg hW he1 (div_nonneg (hz0 t ht) hAp.le), fl_idem hA _⟩
              have hqz : ∀ t ∈ z, A.fl (t / A.sum z) = 0 ↔ t = 0 := by
                intro t ht
                have h := SameSupport.fl hW he1 (SameSupport.refl (div_nonneg (hz0 t ht) hAp.le))
                rw [h.2.2, div_eq_zero_iff]
                exact or_iff_left hAp.ne'
              have hqpos : ∃ x ∈ z.map (fun x => A.fl (x / A.sum z)), 0 < x := by
                by_contra hc
                push Not at hc
                apply hS1
                refine List.sum_eq_zero fun t ht => ?_
                have hm : A.fl (t / A.sum z) ∈ z.map (fun x => A.fl (x / A.sum z)) := List.mem_map.2 ⟨t, ht, rfl⟩
                exact (hqz t ht).1 (le_antisymm (hc _ hm) (hq _ hm).1)
              have hex : ∀ i, ∃ v, 0 ≤ v ∧ v < 1 ∧ choiceIdx (z'.map (· / z'.sum)) v = flChoiceIdx A.fl (z.map (fun x => A.fl (x / A.sum z))) (choiceU i) := by
                intro i
                obtain ⟨x, hx, hxp⟩ := C134_positive hA hW he0 he1 h1 hq hqpos (hu i).1 (hu i).2
                rw [List.getElem?_map, Option.map_eq_some_iff] at hx
                obtain ⟨t, ht, rfl⟩ := hx
                have htm := List.mem_of_getElem? ht
                have ht0 : t ≠ 0 := fun h => hxp.ne' ((hqz t htm).2 h)
                obtain ⟨hlt, hte⟩ := List.getElem?_eq_some_iff.1 ht
                have hlt' : flChoiceIdx A.fl (z.map (fun x => A.fl (x / A.sum z))) (choiceU i) < z'.length := by rw [← hz.length_eq]; exact hlt
                have hrel := (List.forall₂_iff_get.1 hz).2 _ hlt hlt'
                simp only [List.get_eq_getElem] at hrel
                rw [hte] at hrel
                refine choiceIdx_attain hps hp0 (q := flChoiceIdx A.fl (z.map (fun x => A.fl (x / A.sum z))) (choiceU i))
                  (w := z'[flChoiceIdx A.fl (z.map (fun x => A.fl (x / A.sum z))) (choiceU i)] / z'.sum) ?_ ?_
                · rw [List.getElem?_map, List.getElem?_eq_getElem hlt']; rfl
                · exact div_pos (lt_of_le_of_ne hrel.2.1 fun h => ht0 (hrel.2.2.2 h.symm)) hSp
              choose v hv0 hv1 hve using hex
              refine ⟨v, fun i => ⟨hv0 i, hv1 i⟩, ?_⟩
              have hnp : npChoice all.length n (z'.map (· / z'.sum)) v = .ok ((List.range n).map (fun i => choiceIdx (z'.map (· / z'.sum)) (v i))) := by
                unfold npChoice
                rw [if_neg (by simpa using hla), if_neg, if_neg (by simp [hps])]
                simp only [List.any_eq_true, decide_eq_true_eq, not_exists, not_and, not_lt]
                exact hp0
              rw [hnp, ok_bind, ok_bind]
              simp only [hve]
            · refine ⟨_, h00, ?_⟩
              have hlz : z.length ≠ all.length := fun h => hla (hz.length_eq.symm.trans h)
              unfold flNpChoice npChoice
              rw [if_pos (by simpa using hlz), if_pos (by simpa using hla)]

/-- **SMOTE with rounding in all steps.** It returns what SMOTE returns with rounding after an exact selection, for other draws of the selection;
so the theorems on it (C132, C133), which hold for all draws, hold here. -/
theorem C134_smote {A : MachineArith} {ε δ tol : ℚ} (hA : RoundsToNearest A.fl) (hW : RoundsWithin A.fl ε) (he0 : 0 ≤ ε) (he1 : ε < 1)
    (h1 : A.fl 1 = 1) (hsum : ∀ l, SumsUp A.fl l (A.sum l)) {ksum : List ℚ → ℚ} (hk : SumsNear δ ksum) {par : SmoteParams}
    (hmode : par.ss.simplexSampling ≠ .deterministic) {vol : List Row → ℚ} (hv : ∀ vs, 0 ≤ vol vs) {dr : Draws} (hdr : dr.OK) {d : Nat}
    {knn : Nat → List Row → List (List Nat)} (hknn : KnnOK knn) {X : List Row} {y : List Int} {a b : Int} (hwf : WF d X y) (hmin : IsMinority y a b)
    (htol : choiceSlack ε δ (y.count a * Nat.choose (min (y.count a) (par.nNeighbors + 1) - 1)
      (min par.ss.nDim (min (y.count a) (par.nNeighbors + 1)) - 1)) ≤ tol) :
    ∃ dr' : Draws, dr'.OK ∧ sample defaultChecks d (flSmoteFullAlg A ksum tol par vol dr d knn) X y =
      sample defaultChecks d (flSmoteAlg A par vol dr' d knn) X y := by
  obtain ⟨s, hs, rfl, rfl⟩ := stats_of_isMinority hmin
  rw [sample_default hs]
  have hl := selectLabel_length hwf.1 s.minLabel
  obtain ⟨cu, hcu, he⟩ := C134_simplices hA hW he0 he1 h1 hsum hk hmode hv hdr.choice
    (X := selectLabel X y s.minLabel) (n := flRequested A.fl par.proportion (y.count s.majLabel) (y.count s.minLabel)) (bw := none) (by simp)
    (indices := knn (min (selectLabel X y s.minLabel).length (par.nNeighbors + 1)) (selectLabel X y s.minLabel))
    (k := min (selectLabel X y s.minLabel).length (par.nNeighbors + 1)) (Xv := none) (sw := none) (by simp)
    (nDim := min par.ss.nDim (min (selectLabel X y s.minLabel).length (par.nNeighbors + 1))) (tol := tol) (by
      rw [(hknn _ _ (min_le_left _ _)).1, hl]
      exact htol)
  refine ⟨{ dr with choiceU := cu }, ⟨hcu, hdr.simplex⟩, ?_⟩
  rw [sample_default hs]
  congr 1
  obtain ⟨hm, hM, _⟩ := stats_min_mem hs
  unfold flSmoteFullAlg flSmoteAlg
  rw [stats_count hs hm, stats_count hs hM, flDetN_eq, ok_bind, ok_bind]
  dsimp only
  rw [he]

/-- **What remains for the user.** With rounding in all steps, random selection or selection by volume: two classes become equal, nothing is
removed, and a feature keeps its sign. -/
theorem C134_smote_rows {A : MachineArith} {ε δ tol : ℚ} (hA : RoundsToNearest A.fl) (hW : RoundsWithin A.fl ε) (he0 : 0 ≤ ε) (he1 : ε < 1)
    (h1 : A.fl 1 = 1) (hsum : ∀ l, SumsUp A.fl l (A.sum l)) {ksum : List ℚ → ℚ} (hk : SumsNear δ ksum) {N : Nat} (hN : ExactUpTo A.fl N)
    {par : SmoteParams} (hmode : par.ss.simplexSampling ≠ .deterministic) {vol : List Row → ℚ} (hv : ∀ vs, 0 ≤ vol vs) {dr : Draws} (hdr : dr.OK)
    {d : Nat} {knn : Nat → List Row → List (List Nat)} (hknn : KnnOK knn) {X X' : List Row} {y y' : List Int} {a b : Int} (hwf : WF d X y)
    (hmin : IsMinority y a b) (hy : y.length ≤ N) (hp : par.proportion ≤ 1)
    (htol : choiceSlack ε δ (y.count a * Nat.choose (min (y.count a) (par.nNeighbors + 1) - 1)
      (min par.ss.nDim (min (y.count a) (par.nNeighbors + 1)) - 1)) ≤ tol)
    (h : sample defaultChecks d (flSmoteFullAlg A ksum tol par vol dr d knn) X y = .ok (X', y')) :
    (∃ n, Extends X y a n X' y') ∧ (∀ r ∈ X', r.length = d) ∧ y'.count a ≤ y'.count b ∧
    (par.proportion = 1 → 2 < y.count a → y'.count a = y'.count b) ∧
    ∀ c, c < d → (∀ r ∈ selectLabel X y a, 0 ≤ r.getD c 0) → ∀ x ∈ X'.drop X.length, 0 ≤ x.getD c 0 := by
  obtain ⟨dr', hdr', he⟩ := C134_smote hA hW he0 he1 h1 hsum hk hmode hv hdr hknn hwf hmin htol (d := d)
  rw [he] at h
  obtain ⟨e1, e2, e3⟩ := C133_smote hwf hmin h
  obtain ⟨b1, b2⟩ := C133_smote_balance hA hN hwf hmin hy hp h
  refine ⟨?_, e3, b1, b2, fun c hc => (C132_smote_sign hW he1 hsum hdr' hmin h hc).1⟩
  by_cases h2 : 2 < y.count a
  · exact ⟨_, e2 h2⟩
  · obtain ⟨rfl, rfl⟩ := e1 (by omega)
    exact ⟨0, [], by simp⟩

/-- The example of C01 with doubles in all steps. -/
example : KnnOK exKnn ∧ WF 2 exX exY ∧ IsMinority exY 1 0 ∧ roundDraws.OK ∧ exPar.ss.simplexSampling ≠ .deterministic ∧
    choiceSlack (1 / 2 ^ 53) (1 / 2 ^ 50) (exY.count 1 * Nat.choose (min (exY.count 1) (exPar.nNeighbors + 1) - 1)
      (min exPar.ss.nDim (min (exY.count 1) (exPar.nNeighbors + 1)) - 1)) ≤ 1 / 2 ^ 26 ∧
    (sample defaultChecks 2 (flSmoteFullAlg doubles List.sum (1 / 2 ^ 26) exPar (fun _ => 1) roundDraws 2 exKnn) exX exY).toOption.map
      (fun r => (r.2.count 1, r.2.count 0)) = some (5, 5) :=
  ⟨exKnn_ok, ⟨by decide, by decide⟩, by unfold IsMinority; decide, roundDraws_ok, by decide, choiceSlack_doubles (by decide), by decide +kernel⟩

end Verif

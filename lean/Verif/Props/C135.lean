import Verif.Props.C134

/-!
# C135 The deterministic selection of simplices with the rounding of floating-point numbers
-/

namespace Verif

/-! ## The removal indices -/

/-- The rounded points of `linspace` keep a distance of one and stay below the end. -/
theorem flSpaced_points {fl : ℚ → ℚ} {ε : ℚ} (hW : RoundsWithin fl ε) (he0 : 0 ≤ ε) {m r : Nat} (hN : ExactUpTo fl m) (hr : r ≤ m)
    (hm : 2 * ((m : ℚ) * m) * ε ≤ 1) : (∀ i j : Nat, i < j → j < r → fl ((i : ℚ) * fl ((m : ℚ) / r)) + 1 ≤ fl ((j : ℚ) * fl ((m : ℚ) / r))) ∧
    ∀ j : Nat, j < r → 0 ≤ fl ((j : ℚ) * fl ((m : ℚ) / r)) ∧ fl ((j : ℚ) * fl ((m : ℚ) / r)) < m := by
  rcases Nat.eq_zero_or_pos r with rfl | hr0
  · exact ⟨fun _ _ _ h => absurd h (Nat.not_lt_zero _), fun _ h => absurd h (Nat.not_lt_zero _)⟩
  have hr0' : (0 : ℚ) < r := by exact_mod_cast hr0
  rcases Nat.lt_or_ge r m with hlt | hge
  · have hmr : (r : ℚ) + 1 ≤ m := by exact_mod_cast hlt
    have hr1 : (1 : ℚ) ≤ r := by exact_mod_cast hr0
    have hε : ε ≤ 1 / 8 := by
      have h4 : (4 : ℚ) ≤ m * m := by nlinarith
      have := mul_le_mul_of_nonneg_right h4 he0
      linarith
    have hb := abs_le.1 (hW ((m : ℚ) / r))
    rw [abs_of_nonneg (by positivity)] at hb
    set s := fl ((m : ℚ) / r) with hs
    have hlo : (m : ℚ) * (1 - ε) ≤ r * s := by
      have h : (m : ℚ) / r * (1 - ε) ≤ s := by linarith [hb.1]
      have h' := mul_le_mul_of_nonneg_left h hr0'.le
      have e : (r : ℚ) * ((m : ℚ) / r * (1 - ε)) = m * (1 - ε) := by field_simp
      linarith
    have hhi : r * s ≤ (m : ℚ) * (1 + ε) := by
      have h : s ≤ (m : ℚ) / r * (1 + ε) := by linarith [hb.2]
      have h' := mul_le_mul_of_nonneg_left h hr0'.le
      have e : (r : ℚ) * ((m : ℚ) / r * (1 + ε)) = m * (1 + ε) := by field_simp
      linarith
    have hs0 : 0 ≤ s := by
      by_contra hc
      push Not at hc
      nlinarith
    have h2r : 2 * (r : ℚ) * ε ≤ 1 := by nlinarith
    have hstep : 1 ≤ s * (1 - 2 * r * ε) := by
      have a1 : (r : ℚ) ≤ m * (1 - ε) * (1 - 2 * r * ε) := by
        have b1 : 1 - (2 * r + 1) * ε ≤ (1 - ε) * (1 - 2 * r * ε) := by nlinarith [mul_nonneg (mul_nonneg hr0'.le he0) he0]
        have b2 : (m : ℚ) * (1 - (2 * r + 1) * ε) ≤ m * ((1 - ε) * (1 - 2 * r * ε)) := mul_le_mul_of_nonneg_left b1 (by linarith)
        have b3 : (m : ℚ) * ((2 * r + 1) * ε) ≤ m * (2 * m * ε) := mul_le_mul_of_nonneg_left (mul_le_mul_of_nonneg_right (by linarith) he0) (by linarith)
        linarith
      have a2 : m * (1 - ε) * (1 - 2 * r * ε) ≤ r * s * (1 - 2 * r * ε) := mul_le_mul_of_nonneg_right hlo (by linarith)
      have a3 : (r : ℚ) * 1 ≤ r * (s * (1 - 2 * r * ε)) := by linarith
      exact le_of_mul_le_mul_left a3 hr0'
    have hflb : ∀ j : Nat, (j : ℚ) * s * (1 - ε) ≤ fl ((j : ℚ) * s) ∧ fl ((j : ℚ) * s) ≤ (j : ℚ) * s * (1 + ε) := by
      intro j
      have hj : (0 : ℚ) ≤ (j : ℚ) * s := mul_nonneg (Nat.cast_nonneg j) hs0
      have h := abs_le.1 (hW ((j : ℚ) * s))
      rw [abs_of_nonneg hj] at h
      exact ⟨by linarith [h.1], by linarith [h.2]⟩
    refine ⟨fun i j hij hj => ?_, fun j hj => ⟨?_, ?_⟩⟩
    · have hij' : (i : ℚ) + 1 ≤ j := by exact_mod_cast hij
      have hj' : (j : ℚ) + 1 ≤ r := by exact_mod_cast hj
      have h1 := (hflb i).2
      have h2 := (hflb j).1
      have c1 : s * (1 - 2 * r * ε) ≤ s * ((j : ℚ) - i - (i + j) * ε) := by
        refine mul_le_mul_of_nonneg_left ?_ hs0
        nlinarith
      linarith
    · exact le_trans (mul_nonneg (mul_nonneg (Nat.cast_nonneg j) hs0) (by linarith)) (hflb j).1
    · have hj' : (j : ℚ) ≤ r - 1 := by
        have : (j : ℚ) + 1 ≤ r := by exact_mod_cast hj
        linarith
      refine lt_of_le_of_lt (hflb j).2 ?_
      have c1 : (r : ℚ) * ((j : ℚ) * s * (1 + ε)) ≤ (r - 1) * (m * (1 + ε)) * (1 + ε) := by
        have d1 : (j : ℚ) * (r * s) ≤ (r - 1) * (m * (1 + ε)) := mul_le_mul hj' hhi (mul_nonneg hr0'.le hs0) (by linarith)
        have d2 := mul_le_mul_of_nonneg_right d1 (by linarith : (0 : ℚ) ≤ 1 + ε)
        linarith
      have c2 : ((r : ℚ) - 1) * ((1 + ε) * (1 + ε)) < r := by
        have e1 : (1 + ε) * (1 + ε) ≤ 1 + 3 * ε := by nlinarith
        have e2 : ((r : ℚ) - 1) * ((1 + ε) * (1 + ε)) ≤ (r - 1) * (1 + 3 * ε) := mul_le_mul_of_nonneg_left e1 (by linarith)
        have e3 : (3 * ((r : ℚ) - 1) + 1) * ε ≤ 2 * ((m : ℚ) * m) * ε := mul_le_mul_of_nonneg_right (by nlinarith) he0
        rcases he0.eq_or_lt with rfl | hpos
        · linarith
        · linarith
      have c3 : (r : ℚ) * ((j : ℚ) * s * (1 + ε)) < r * m := by
        refine lt_of_le_of_lt c1 ?_
        have := mul_lt_mul_of_pos_right c2 (by linarith : (0 : ℚ) < m)
        linarith
      exact lt_of_mul_lt_mul_left c3 hr0'.le
  · obtain rfl : r = m := le_antisymm hr hge
    have e1 : fl ((r : ℚ) / r) = 1 := by
      rw [div_self hr0'.ne']
      exact_mod_cast hN 1 hr0
    have e2 : ∀ j : Nat, j < r → fl ((j : ℚ) * fl ((r : ℚ) / r)) = j := by
      intro j hj
      rw [e1, mul_one]
      exact hN j hj.le
    refine ⟨fun i j hij hj => ?_, fun j hj => ?_⟩
    · rw [e2 i (hij.trans hj), e2 j hj]
      exact_mod_cast hij
    · rw [e2 j hj]
      exact ⟨Nat.cast_nonneg j, by exact_mod_cast hj⟩

theorem flSpacedFloors_ok {fl : ℚ → ℚ} {ε : ℚ} (hW : RoundsWithin fl ε) (he0 : 0 ≤ ε) {m r : Nat} (hN : ExactUpTo fl m) (hr : r ≤ m)
    (hm : 2 * ((m : ℚ) * m) * ε ≤ 1) :
    (flSpacedFloors fl m r).length = r ∧ (flSpacedFloors fl m r).Nodup ∧ ∀ i ∈ flSpacedFloors fl m r, i < m := by
  obtain ⟨h1, h2⟩ := flSpaced_points hW he0 hN hr hm
  refine ⟨by simp [flSpacedFloors], ?_, ?_⟩
  · unfold flSpacedFloors
    refine List.Nodup.map_on ?_ List.nodup_range
    have key : ∀ a b : Nat, a < b → b < r →
        (⌊fl ((a : ℚ) * fl ((m : ℚ) / r))⌋).toNat ≠ (⌊fl ((b : ℚ) * fl ((m : ℚ) / r))⌋).toNat := by
      intro a b hab hb h
      have a0 := Int.floor_nonneg.2 (h2 a (hab.trans hb)).1
      have b0 := Int.floor_nonneg.2 (h2 b hb).1
      have := Int.floor_le_floor (h1 a b hab hb)
      rw [Int.floor_add_one] at this
      omega
    intro a ha b hb h
    rw [List.mem_range] at ha hb
    rcases lt_trichotomy a b with hab | hab | hab
    · exact absurd h (key a b hab hb)
    · exact hab
    · exact absurd h.symm (key b a hab ha)
  · intro i hi
    unfold flSpacedFloors at hi
    obtain ⟨j, hj, rfl⟩ := List.mem_map.1 hi
    rw [List.mem_range] at hj
    obtain ⟨b1, b2⟩ := h2 j hj
    have c1 := Int.floor_nonneg.2 b1
    have c2 : ⌊fl ((j : ℚ) * fl ((m : ℚ) / r))⌋ < (m : ℤ) := by rw [Int.floor_lt]; exact_mod_cast b2
    omega

/-! ## The counts -/

/-- **The counts with rounding.** For products whose sum is near `n`, the rounded removal indices remove what is too much: the assertion of the code
holds, the counts sum up to `n`, and each is the product rounded up, or one less. -/
theorem C135_counts {fl : ℚ → ℚ} {ε : ℚ} (hW : RoundsWithin fl ε) (he0 : 0 ≤ ε) {n : Nat} {q : List ℚ} (h0 : ∀ x ∈ q, 0 ≤ x)
    (hN : ExactUpTo fl q.length) (hm : 2 * ((q.length : ℚ) * q.length) * ε ≤ 1) (hlo : (n : ℚ) - 1 < q.sum) (hhi : q.sum ≤ (n : ℚ) + 1) :
    ∃ c, flDeterministicCounts fl n q = .ok c ∧ c.sum = n ∧
      List.Forall₂ (fun x (t : Int) => 0 ≤ t ∧ t ≤ ⌈x⌉ ∧ ⌈x⌉ - 1 ≤ t) q c := by
  obtain ⟨b1, b2, b3⟩ := ceil_sum_bounds q h0
  set sc := q.map (fun x => ⌈x⌉) with hsc
  have hscnn : ∀ c ∈ sc, 0 ≤ c := by
    intro c hc
    rw [hsc, List.mem_map] at hc
    obtain ⟨x, hx, rfl⟩ := hc
    exact Int.ceil_nonneg (h0 x hx)
  have hge : (n : ℤ) ≤ sc.sum := by
    have : ((n : ℤ) : ℚ) - 1 < (sc.sum : ℚ) := by push_cast; linarith
    have : ((n : ℤ) - 1 : ℤ) < sc.sum := by exact_mod_cast this
    omega
  have hfor : ∀ q' : List ℚ, (∀ x ∈ q', 0 ≤ x) →
      List.Forall₂ (fun (x : ℚ) (t : Int) => 0 ≤ t ∧ t ≤ ⌈x⌉ ∧ ⌈x⌉ - 1 ≤ t) q'
        (q'.map (fun x => ⌈x⌉)) := by
    intro q' hq'
    induction q' with
    | nil => simp
    | cons x q' ih =>
      exact List.Forall₂.cons ⟨Int.ceil_nonneg (hq' x (by simp)), le_rfl, by show ⌈x⌉ - 1 ≤ ⌈x⌉; omega⟩
        (ih (fun a ha => hq' a (by simp [ha])))
  unfold flDeterministicCounts
  simp only [← hsc]
  by_cases hz : sc.sum - (n : ℤ) = 0
  · rw [if_pos hz]
    exact ⟨sc, rfl, by omega, hfor q h0⟩
  · rw [if_neg hz, if_neg (by omega)]
    set tmp := sc.filter (fun c => decide (c > 0)) with htmp
    set r := (sc.sum - (n : ℤ)).toNat with hr
    have hrm : r ≤ tmp.length := by
      have hpos : 0 < tmp.length := by
        by_contra hne
        have hnil : tmp = [] := List.length_eq_zero_iff.1 (by omega)
        have : ∀ c ∈ sc, c = 0 := by
          intro c hc
          by_contra hcn
          have h1 := hscnn c hc
          have : c ∈ tmp := by rw [htmp, List.mem_filter]; exact ⟨hc, by simp; omega⟩
          rw [hnil] at this; simp at this
        have hs0 : sc.sum = 0 := by
          rw [List.sum_eq_zero this]
        omega
      have hlt := b3 hpos
      have hlt2 : (sc.sum : ℚ) < (n : ℚ) + 1 + (tmp.length : ℚ) := by linarith
      have : sc.sum < (n : ℤ) + 1 + (tmp.length : ℤ) := by exact_mod_cast hlt2
      omega
    have htl : tmp.length ≤ q.length := (List.length_filter_le _ _).trans_eq (by rw [hsc, List.length_map])
    obtain ⟨hfl, hfn, hlt⟩ := flSpacedFloors_ok hW he0 (fun k hk => hN k (hk.trans htl)) hrm (by
      have e : (tmp.length : ℚ) ≤ q.length := by exact_mod_cast htl
      refine le_trans ?_ hm
      have := Nat.cast_nonneg (α := ℚ) tmp.length
      gcongr)
    have hany : (flSpacedFloors fl tmp.length r).any (fun i => decide (tmp.length ≤ i)) = false := by
      rw [List.any_eq_false]
      intro i hi
      have := hlt i hi
      simp; omega
    rw [hany]
    simp only [Bool.false_eq_true, if_false]
    have hsum := decrementAt_sum hfn hlt
    rw [hfl] at hsum
    obtain ⟨s1, s2⟩ := scatter_spec sc _ (decrementAt_forall (flSpacedFloors fl tmp.length r) tmp)
    rw [← htmp, hsum] at s1
    have hfin : (scatterNonZero sc (decrementAt (flSpacedFloors fl tmp.length r) tmp)).sum = (n : ℤ) := by
      rw [s1]; omega
    rw [if_pos hfin]
    refine ⟨_, rfl, hfin, ?_⟩
    rw [hsc, List.forall₂_map_left_iff] at s2
    refine forall2_imp_mem s2 ?_
    intro x t hx ht
    have h3 := Int.ceil_nonneg (h0 x hx)
    rcases ht with ⟨h1, h2⟩ | ⟨h1, h2⟩
    · rcases h2 with rfl | rfl <;> omega
    · omega

/-- Bounds on the rounded products. -/
theorem products_near {fl : ℚ → ℚ} {ε : ℚ} (hW : RoundsWithin fl ε) (n : Nat) {p : List ℚ} (hp : ∀ x ∈ p, 0 ≤ x) :
    |(p.map (fun x => fl ((n : ℚ) * x))).sum - n * p.sum| ≤ ε * (n * p.sum) := by
  induction p with
  | nil => simp
  | cons x p ih =>
    have h1 := ih fun z hz => hp z (List.mem_cons_of_mem _ hz)
    have hx := mul_nonneg (Nat.cast_nonneg (α := ℚ) n) (hp x List.mem_cons_self)
    have h2 := hW ((n : ℚ) * x)
    rw [abs_of_nonneg hx] at h2
    rw [List.map_cons, List.sum_cons, List.sum_cons]
    rw [abs_le] at h1 h2 ⊢
    constructor <;> linarith [h1.1, h1.2, h2.1, h2.2]

/-- **The deterministic selection with rounding never fails.** For weights which are not negative and not all zero, and not too many of them:
exactly `n` positions are selected, none of weight zero, and each one as often as its rounded share of `n`, rounded up, or one time less. -/
theorem C135_sample {A : MachineArith} {ε : ℚ} (hW : RoundsWithin A.fl ε) (he0 : 0 ≤ ε) (he1 : ε < 1)
    (hsum : ∀ l, SumsUp A.fl l (A.sum l)) {w : List ℚ} (hw : ∀ x ∈ w, 0 ≤ x) (hS : w.sum ≠ 0) (hN : ExactUpTo A.fl w.length)
    (hm : 2 * ((w.length : ℚ) * w.length) * ε ≤ 1) {n : Nat} (hn : n * choiceSlack ε ε w.length < 1) :
    ∃ p sel, flNormalizeWeights A w = .ok p ∧ p.length = w.length ∧ flDeterministicSample A.fl n p = .ok sel ∧ sel.length = n ∧
      (∀ i ∈ sel, ∃ x, w[i]? = some x ∧ 0 < x) ∧
      ∀ i x, p[i]? = some x → (sel.count i : ℤ) ≤ ⌈A.fl ((n : ℚ) * x)⌉ ∧ ⌈A.fl ((n : ℚ) * x)⌉ - 1 ≤ sel.count i := by
  have hA0 := sum_zero_iff hW he0 he1 hsum hw
  have hAp : 0 < A.sum w := lt_of_le_of_ne ((sumsUp_sign hW he1 (hsum w)).1 hw) (Ne.symm fun h => hS (hA0.1 h))
  have hnear := normalized_near hW he0 he1 hsum hw hS
  set p := w.map (fun x => A.fl (x / A.sum w)) with hpdef
  have hp0 : ∀ x ∈ p, 0 ≤ x := by
    intro x hx
    obtain ⟨t, ht, rfl⟩ := List.mem_map.1 hx
    exact fl_nonneg hW he1 (div_nonneg (hw t ht) hAp.le)
  have hpl : p.length = w.length := by rw [hpdef, List.length_map]
  have hq0 : ∀ x ∈ p.map (fun x => A.fl ((n : ℚ) * x)), 0 ≤ x := by
    intro x hx
    obtain ⟨t, ht, rfl⟩ := List.mem_map.1 hx
    exact fl_nonneg hW he1 (mul_nonneg (Nat.cast_nonneg n) (hp0 t ht))
  have hE := simplexError_nonneg he0 he1 w.length
  have hprod := abs_le.1 (products_near hW n hp0)
  have hps := abs_le.1 hnear
  have hn0 := Nat.cast_nonneg (α := ℚ) n
  have hbound : |(p.map (fun x => A.fl ((n : ℚ) * x))).sum - n| < 1 := by
    refine lt_of_le_of_lt ?_ hn
    set E := simplexError ε w.length with hEd
    have b1 : (n : ℚ) * p.sum ≤ n * (1 + E) := mul_le_mul_of_nonneg_left (by linarith [hps.2]) hn0
    have b2 : (n : ℚ) * (1 - E) ≤ n * p.sum := mul_le_mul_of_nonneg_left (by linarith [hps.1]) hn0
    have b3 : ε * (n * p.sum) ≤ ε * (n * (1 + E)) := mul_le_mul_of_nonneg_left b1 he0
    have b4 : (n : ℚ) * (ε * (1 + E) + E) ≤ n * choiceSlack ε ε w.length := by
      refine mul_le_mul_of_nonneg_left ?_ hn0
      unfold choiceSlack
      rw [← hEd]
      have : 0 ≤ ε * (ε * (1 + E) + E) := mul_nonneg he0 (add_nonneg (mul_nonneg he0 (by linarith)) hE)
      linarith
    rw [abs_le]
    constructor <;> linarith [hprod.1, hprod.2]
  obtain ⟨c, hc, hcs, hf⟩ := C135_counts hW he0 hq0 (by rw [List.length_map, hpl]; exact hN) (by rw [List.length_map, hpl]; exact hm) (n := n)
    (by linarith [(abs_lt.1 hbound).1]) (by linarith [(abs_lt.1 hbound).2])
  have hc0 : ∀ t ∈ c, 0 ≤ t := by
    intro t ht
    obtain ⟨x, _, hx⟩ := forall2_mem_right hf ht
    exact hx.1
  have hcv : countsToVector c = .ok (c.zipIdx.flatMap (fun (c, i) => List.replicate c.toNat i)) := by
    unfold countsToVector
    rw [if_neg]
    rw [List.any_eq_true]
    rintro ⟨t, ht, hlt⟩
    have := hc0 t ht
    simp at hlt; omega
  have hcl : c.length = p.length := by rw [← hf.length_eq, List.length_map]
  refine ⟨p, _, if_neg (fun h => hS (hA0.1 h)), hpl, by unfold flDeterministicSample; rw [hc, ok_bind, hcv], ?_, ?_, ?_⟩
  · have := length_expand c 0 hc0
    rw [hcs] at this
    exact_mod_cast this
  · intro i hi
    obtain ⟨t, ht, htp⟩ := mem_expand hi
    obtain ⟨hil, hti⟩ := List.getElem?_eq_some_iff.1 ht
    have hiw : i < w.length := by omega
    refine ⟨w[i], List.getElem?_eq_getElem hiw, lt_of_le_of_ne (hw _ (List.getElem_mem _)) fun hz => ?_⟩
    have := (List.forall₂_iff_get.1 hf).2 i (by simpa using (by omega : i < p.length)) hil
    simp only [List.get_eq_getElem, List.getElem_map, hpdef] at this
    rw [hti, ← hz, zero_div, fl_zero hW, mul_zero, fl_zero hW, Int.ceil_zero] at this
    omega
  · intro i x hx
    obtain ⟨hip, hpx⟩ := List.getElem?_eq_some_iff.1 hx
    have hic : i < c.length := by omega
    have := (List.forall₂_iff_get.1 hf).2 i (by simpa using hip) hic
    simp only [List.get_eq_getElem, List.getElem_map] at this
    rw [hpx] at this
    have hcount := count_expand c 0 i
    rw [zero_add] at hcount
    rw [hcount, List.getElem?_eq_getElem hic, Option.getD_some]
    omega

/-- Doubles, up to a million weights and sixty million picks. -/
theorem countSlack_doubles {m n : Nat} (hm : m ≤ 1000000) (hn : n ≤ 60000000) :
    n * choiceSlack (1 / 2 ^ 53) (1 / 2 ^ 53) m < 1 ∧ 2 * ((m : ℚ) * m) * (1 / 2 ^ 53) ≤ 1 := by
  have hq : (m : ℚ) ≤ 1000000 := by exact_mod_cast hm
  have hq0 : (0 : ℚ) ≤ m := Nat.cast_nonneg m
  have hnq : (n : ℚ) ≤ 60000000 := by exact_mod_cast hn
  constructor
  · have h := simplexError_le (ε := 1 / 2 ^ 53) (m := m) (by norm_num) (by norm_num; linarith)
    have h2 : simplexError (1 / 2 ^ 53) m ≤ 8 * (1000000 + 1) * (1 / 2 ^ 53) := h.trans (by gcongr)
    have h3 : choiceSlack (1 / 2 ^ 53) (1 / 2 ^ 53) m ≤ 1 / 10 ^ 9 := by
      unfold choiceSlack
      norm_num at h2 ⊢
      linarith
    have h4 : (n : ℚ) * choiceSlack (1 / 2 ^ 53) (1 / 2 ^ 53) m ≤ n * (1 / 10 ^ 9) := mul_le_mul_of_nonneg_left h3 (Nat.cast_nonneg n)
    norm_num at h4 ⊢
    linarith
  · nlinarith

/-- Twelve picks from three weights. -/
example : (∀ x ∈ [(1 : ℚ), 4, 7], 0 ≤ x) ∧ [(1 : ℚ), 4, 7].sum ≠ 0 ∧ ExactUpTo (binaryFl 53) (2 ^ 53) ∧
    ((12 : Nat) : ℚ) * choiceSlack (1 / 2 ^ 53) (1 / 2 ^ 53) [(1 : ℚ), 4, 7].length < 1 ∧
    2 * (([(1 : ℚ), 4, 7].length : ℚ) * [(1 : ℚ), 4, 7].length) * (1 / 2 ^ 53) ≤ 1 :=
  ⟨by decide, by norm_num, C133_integers (by norm_num), countSlack_doubles (by simp) (by norm_num)⟩

/-- The products of the same example. -/
example : (∀ x ∈ [(1 : ℚ), 4, 7 + 1 / 2 ^ 50], 0 ≤ x) ∧ ((12 : Nat) : ℚ) - 1 < [(1 : ℚ), 4, 7 + 1 / 2 ^ 50].sum ∧
    [(1 : ℚ), 4, 7 + 1 / 2 ^ 50].sum ≤ ((12 : Nat) : ℚ) + 1 ∧ flDeterministicCounts (binaryFl 53) 12 [(1 : ℚ), 4, 7 + 1 / 2 ^ 50] = .ok [0, 4, 8] :=
  ⟨by decide +kernel, by norm_num, by norm_num, by decide +kernel⟩

/-- **A whole share can be lost.** Twelve picks by the weights 1, 4 and 7 are 1, 4 and 7 picks in exact arithmetic; with 53 digits 12 times the
rounded 7/12 is above 7, is rounded up to 8, and the pick too much is taken from the first one, which is never picked. -/
theorem C135_share_lost : (do let p ← normalize [1, 4, 7]; deterministicSample 12 p) = .ok [0, 1, 1, 1, 1, 2, 2, 2, 2, 2, 2, 2] ∧
    (do let p ← flNormalizeWeights doubles [1, 4, 7]; flDeterministicSample doubles.fl 12 p) = .ok [1, 1, 1, 1, 2, 2, 2, 2, 2, 2, 2, 2] :=
  ⟨by decide +kernel, by decide +kernel⟩

theorem nodeWeights_length {sw : Option (List (List ℚ))} {nIndices k nDim m : Nat} {nw : List ℚ} (h : nodeWeights sw nIndices k nDim m = .ok nw)
    (hm : m = nIndices * Nat.choose (k - 1) (nDim - 1)) : nw.length = m := by
  cases sw with
  | none =>
    injection h with h
    rw [← h, List.length_replicate]
  | some sw =>
    obtain ⟨pos, hpos, h⟩ := bind_ok.1 h
    obtain ⟨-, -, rfl⟩ := baseIdx_ok hpos
    rw [mapM_ok_length h, length_posSimplices, hm]

/-- **The deterministic selection with rounding is a selection.** What it selects is what the random selection selects in exact arithmetic for some
draws, and it raises an exception only if the random selection does. -/
theorem C135_simplices {A : MachineArith} {ε tol : ℚ} (hW : RoundsWithin A.fl ε) (he0 : 0 ≤ ε) (he1 : ε < 1)
    (hsum : ∀ l, SumsUp A.fl l (A.sum l)) {ksum : List ℚ → ℚ} {vol : List Row → ℚ} (hv : ∀ vs, 0 ≤ vol vs) (choiceU : Nat → ℚ)
    {X : List Row} {n : Nat} {bw : Option (List ℚ)} (hbw : ∀ w ∈ bw, ∀ x ∈ w, 0 ≤ x) {indices : List (List Nat)} {k : Nat}
    {Xv : Option (List Row)} {sw : Option (List (List ℚ))} (hsw : ∀ w ∈ sw, ∀ r ∈ w, ∀ x ∈ r, 0 ≤ x) {nDim m : Nat}
    (hm : m = indices.length * Nat.choose (k - 1) (nDim - 1)) (hN : ExactUpTo A.fl m) (hmε : 2 * ((m : ℚ) * m) * ε ≤ 1)
    (hn : n * choiceSlack ε ε m < 1) :
    ∃ choiceU' : Nat → ℚ, (∀ i, 0 ≤ choiceU' i ∧ choiceU' i < 1) ∧
      flSimplicesSel A ksum tol .deterministic vol choiceU X n bw indices k Xv sw nDim = simplicesSel .random vol choiceU' X n bw indices k Xv sw nDim := by
  have h00 : ∀ i : Nat, (0 : ℚ) ≤ (fun _ : Nat => (0 : ℚ)) i ∧ (fun _ : Nat => (0 : ℚ)) i < 1 := fun _ => ⟨le_rfl, zero_lt_one⟩
  unfold flSimplicesSel simplicesSel
  have hmode : ∀ all, determineWeights .random vol X bw Xv all indices.length = determineWeights .deterministic vol X bw Xv all indices.length :=
    fun all => by unfold determineWeights simplexDistribution; rfl
  cases hall : allNeighborSimplicesRealIdx nDim indices k with
  | error e => exact ⟨_, h00, rfl⟩
  | ok all =>
    have hlen : all.length = indices.length * Nat.choose (k - 1) (nDim - 1) := allNeighbor_length hall
    simp only [ok_bind]
    have hnw := flNodeWeights_same hW he1 hsw indices.length k nDim all.length
    generalize flNodeWeights A.fl sw indices.length k nDim all.length = r at hnw
    generalize hr' : nodeWeights sw indices.length k nDim all.length = r' at hnw
    cases hnw with
    | error e => exact ⟨_, h00, rfl⟩
    | @ok nw nw' hnw =>
      simp only [ok_bind, hmode]
      have hw := flDetermineWeights_same hW he1 (mode := .deterministic) hv X hbw Xv all indices.length
      generalize flDetermineWeights A.fl .deterministic vol X bw Xv all indices.length = r at hw
      generalize determineWeights .deterministic vol X bw Xv all indices.length = r' at hw
      cases hw with
      | error e => exact ⟨_, h00, rfl⟩
      | @ok w w' hw =>
        simp only [ok_bind]
        rw [hw.length_eq, hnw.length_eq]
        by_cases hl : w'.length ≠ nw'.length
        · rw [if_pos hl]
          exact ⟨_, h00, by rw [if_pos hl]; rfl⟩
        · simp only [if_neg hl]
          have hz := sameSupport_zip hW he1 hw hnw
          have hzl' : (List.zipWith (· * ·) w' nw').length = min w'.length nw'.length := List.length_zipWith
          generalize List.zipWith (fun a b => A.fl (a * b)) w nw = z at hz
          generalize List.zipWith (· * ·) w' nw' = z' at hz hzl'
          have hz0 : ∀ x ∈ z, 0 ≤ x := fun x hx => by
            obtain ⟨_, _, h⟩ := forall₂_mem_left hz hx
            exact h.1
          have hz0' : ∀ x ∈ z', 0 ≤ x := fun x hx => by
            obtain ⟨_, _, h⟩ := forall₂_mem_right hz hx
            exact h.2.1
          have hss := sameSupport_sum hz
          have hA0 := sum_zero_iff hW he0 he1 hsum hz0
          unfold flNormalizeWeights normalize
          by_cases hS : z'.sum = 0
          · rw [if_pos (hA0.2 (hss.2.2.2 hS))]
            exact ⟨_, h00, by rw [if_pos hS]; rfl⟩
          · have hS1 : z.sum ≠ 0 := fun h => hS (hss.2.2.1 h)
            have hSp : 0 < z'.sum := lt_of_le_of_ne hss.2.1 (Ne.symm hS)
            have hAp : 0 < A.sum z := lt_of_le_of_ne ((sumsUp_sign hW he1 (hsum z)).1 hz0) (Ne.symm fun h => hS1 (hA0.1 h))
            have hnl := nodeWeights_length hr' hlen
            have hla : z'.length = all.length := by rw [hzl', ← hnl]; omega
            have hlz : z.length = all.length := hz.length_eq.trans hla
            obtain ⟨p, sel, hp, -, hsel, hsl, hpos, -⟩ := C135_sample hW he0 he1 hsum hz0 hS1 (by rw [hlz, hlen, ← hm]; exact hN)
              (by rw [hlz, hlen, ← hm]; exact hmε) (n := n) (by rw [hlz, hlen, ← hm]; exact hn)
            unfold flNormalizeWeights at hp
            rw [hp]
            simp only [if_neg hS, ok_bind, if_true, hsel, reduceCtorEq, if_false]
            have hps : (z'.map (· / z'.sum)).sum = 1 := by
              have := sum_map_times z' (1 / z'.sum)
              have e : z'.map (· / z'.sum) = z'.map (· * (1 / z'.sum)) := List.map_congr_left fun x _ => by ring
              rw [e, this]
              field_simp
            have hp0 : ∀ x ∈ z'.map (· / z'.sum), 0 ≤ x := by
              intro x hx
              obtain ⟨t, ht, rfl⟩ := List.mem_map.1 hx
              exact div_nonneg (hz0' t ht) hSp.le
            have hex : ∀ i : Nat, ∃ v, 0 ≤ v ∧ v < 1 ∧ ∀ j, sel[i]? = some j → choiceIdx (z'.map (· / z'.sum)) v = j := by
              intro i
              cases hi : sel[i]? with
              | none => exact ⟨0, le_rfl, zero_lt_one, by simp⟩
              | some j =>
                obtain ⟨x, hx, hxp⟩ := hpos j (List.mem_of_getElem? hi)
                obtain ⟨hlt, hxe⟩ := List.getElem?_eq_some_iff.1 hx
                have hlt' : j < z'.length := by rw [← hz.length_eq]; exact hlt
                have hrel := (List.forall₂_iff_get.1 hz).2 j hlt hlt'
                simp only [List.get_eq_getElem] at hrel
                rw [hxe] at hrel
                obtain ⟨v, v0, v1, hv⟩ := choiceIdx_attain hps hp0 (q := j) (w := z'[j] / z'.sum)
                  (by rw [List.getElem?_map, List.getElem?_eq_getElem hlt']; rfl)
                  (div_pos (lt_of_le_of_ne hrel.2.1 fun h => hxp.ne' (hrel.2.2.2 h.symm)) hSp)
                refine ⟨v, v0, v1, fun j' hj' => ?_⟩
                injection hj' with hj'
                rw [← hj']
                exact hv
            choose v hv0 hv1 hve using hex
            refine ⟨v, fun i => ⟨hv0 i, hv1 i⟩, ?_⟩
            have hnp : npChoice all.length n (z'.map (· / z'.sum)) v = .ok sel := by
              unfold npChoice
              rw [if_neg (by simpa using hla), if_neg, if_neg (by simp [hps])]
              · congr 1
                refine List.ext_getElem (by simp [hsl]) fun i h1 h2 => ?_
                rw [List.getElem_map, List.getElem_range]
                exact hve i _ (List.getElem?_eq_getElem h2)
              · simp only [List.any_eq_true, decide_eq_true_eq, not_exists, not_and, not_lt]
                exact hp0
            rw [hnp, ok_bind]

/-- **SMOTE with the deterministic selection and rounding in all steps.** It returns what SMOTE with the random selection returns for some draws, so
the theorems on it (C132, C133) hold here. -/
theorem C135_smote {A : MachineArith} {ε tol : ℚ} (hW : RoundsWithin A.fl ε) (he0 : 0 ≤ ε) (he1 : ε < 1)
    (hsum : ∀ l, SumsUp A.fl l (A.sum l)) {ksum : List ℚ → ℚ} {par : SmoteParams}
    (hmode : par.ss.simplexSampling = .deterministic) {vol : List Row → ℚ} (hv : ∀ vs, 0 ≤ vol vs) {dr : Draws} (hdr : dr.OK) {d : Nat}
    {knn : Nat → List Row → List (List Nat)} (hknn : KnnOK knn) {X : List Row} {y : List Int} {a b : Int} (hwf : WF d X y) (hmin : IsMinority y a b)
    {m : Nat} (hm : m = y.count a * Nat.choose (min (y.count a) (par.nNeighbors + 1) - 1)
      (min par.ss.nDim (min (y.count a) (par.nNeighbors + 1)) - 1)) (hN : ExactUpTo A.fl m) (hmε : 2 * ((m : ℚ) * m) * ε ≤ 1)
    (hn : flRequested A.fl par.proportion (y.count b) (y.count a) * choiceSlack ε ε m < 1) :
    ∃ dr' : Draws, dr'.OK ∧ sample defaultChecks d (flSmoteFullAlg A ksum tol par vol dr d knn) X y =
      sample defaultChecks d (flSmoteAlg A { par with ss := { par.ss with simplexSampling := .random } } vol dr' d knn) X y := by
  obtain ⟨s, hs, rfl, rfl⟩ := stats_of_isMinority hmin
  rw [sample_default hs]
  have hl := selectLabel_length hwf.1 s.minLabel
  obtain ⟨cu, hcu, he⟩ := C135_simplices (tol := tol) hW he0 he1 hsum (ksum := ksum) hv dr.choiceU
    (X := selectLabel X y s.minLabel) (n := flRequested A.fl par.proportion (y.count s.majLabel) (y.count s.minLabel)) (bw := none) (by simp)
    (indices := knn (min (selectLabel X y s.minLabel).length (par.nNeighbors + 1)) (selectLabel X y s.minLabel))
    (k := min (selectLabel X y s.minLabel).length (par.nNeighbors + 1)) (Xv := none) (sw := none) (by simp)
    (nDim := min par.ss.nDim (min (selectLabel X y s.minLabel).length (par.nNeighbors + 1))) (m := m) (by
      rw [(hknn _ _ (min_le_left _ _)).1, hl]
      exact hm) hN hmε hn
  refine ⟨{ dr with choiceU := cu }, ⟨hcu, hdr.simplex⟩, ?_⟩
  rw [sample_default hs]
  congr 1
  obtain ⟨hm, hM, _⟩ := stats_min_mem hs
  unfold flSmoteFullAlg flSmoteAlg
  rw [stats_count hs hm, stats_count hs hM, flDetN_eq, ok_bind, ok_bind]
  dsimp only
  rw [hmode, he]

/-- **What remains for the user**, as for the other selections. -/
theorem C135_smote_rows {A : MachineArith} {ε tol : ℚ} (hA : RoundsToNearest A.fl) (hW : RoundsWithin A.fl ε) (he0 : 0 ≤ ε) (he1 : ε < 1)
    (hsum : ∀ l, SumsUp A.fl l (A.sum l)) {ksum : List ℚ → ℚ} {par : SmoteParams}
    (hmode : par.ss.simplexSampling = .deterministic) {vol : List Row → ℚ} (hv : ∀ vs, 0 ≤ vol vs) {dr : Draws} (hdr : dr.OK) {d : Nat}
    {knn : Nat → List Row → List (List Nat)} (hknn : KnnOK knn) {X X' : List Row} {y y' : List Int} {a b : Int} (hwf : WF d X y)
    (hmin : IsMinority y a b) {N : Nat} (hNy : ExactUpTo A.fl N) (hy : y.length ≤ N) (hp : par.proportion ≤ 1)
    {m : Nat} (hm : m = y.count a * Nat.choose (min (y.count a) (par.nNeighbors + 1) - 1)
      (min par.ss.nDim (min (y.count a) (par.nNeighbors + 1)) - 1)) (hN : m ≤ N) (hmε : 2 * ((m : ℚ) * m) * ε ≤ 1)
    (hn : flRequested A.fl par.proportion (y.count b) (y.count a) * choiceSlack ε ε m < 1)
    (h : sample defaultChecks d (flSmoteFullAlg A ksum tol par vol dr d knn) X y = .ok (X', y')) :
    (∃ n, Extends X y a n X' y') ∧ (∀ r ∈ X', r.length = d) ∧ y'.count a ≤ y'.count b ∧
    (par.proportion = 1 → 2 < y.count a → y'.count a = y'.count b) ∧
    ∀ c, c < d → (∀ r ∈ selectLabel X y a, 0 ≤ r.getD c 0) → ∀ x ∈ X'.drop X.length, 0 ≤ x.getD c 0 := by
  obtain ⟨dr', hdr', he⟩ := C135_smote (tol := tol) (ksum := ksum) hW he0 he1 hsum hmode hv hdr hknn hwf hmin hm (fun k hk => hNy k (hk.trans hN)) hmε hn (d := d)
  rw [he] at h
  have hpp : ({ par with ss := { par.ss with simplexSampling := .random } } : SmoteParams).proportion = par.proportion := rfl
  generalize ({ par with ss := { par.ss with simplexSampling := .random } } : SmoteParams) = par' at h hpp
  obtain ⟨e1, e2, e3⟩ := C133_smote hwf hmin h
  obtain ⟨b1, b2⟩ := C133_smote_balance hA hNy hwf hmin hy (hpp ▸ hp) h
  rw [hpp] at b2
  refine ⟨?_, e3, b1, b2, fun c hc => (C132_smote_sign hW he1 hsum hdr' hmin h hc).1⟩
  by_cases h2 : 2 < y.count a
  · exact ⟨_, e2 h2⟩
  · obtain ⟨rfl, rfl⟩ := e1 (by omega)
    exact ⟨0, [], by simp⟩

/-- The example of C01 with the deterministic selection and doubles in all steps. -/
example : KnnOK exKnn ∧ WF 2 exX exY ∧ IsMinority exY 1 0 ∧ roundDraws.OK ∧ ExactUpTo (binaryFl 53) (2 ^ 53) ∧
    flRequested (binaryFl 53) exPar.proportion (exY.count 0) (exY.count 1) * choiceSlack (1 / 2 ^ 53) (1 / 2 ^ 53)
      (exY.count 1 * Nat.choose (min (exY.count 1) (exPar.nNeighbors + 1) - 1) (min exPar.ss.nDim (min (exY.count 1) (exPar.nNeighbors + 1)) - 1)) < 1 ∧
    (sample defaultChecks 2 (flSmoteFullAlg doubles List.sum (1 / 2 ^ 26)
      { exPar with ss := { exPar.ss with simplexSampling := .deterministic } } (fun _ => 1) roundDraws 2 exKnn) exX exY).toOption.map
      (fun r => (r.2.count 1, r.2.count 0)) = some (5, 5) := by
  refine ⟨exKnn_ok, ⟨by decide, by decide⟩, by unfold IsMinority; decide, roundDraws_ok, C133_integers (by norm_num), ?_, ?_⟩
  · have h : flRequested (binaryFl 53) exPar.proportion (exY.count 0) (exY.count 1) = 2 := by decide +kernel
    have h2 := fun m (hm : m ≤ 1000000) => (countSlack_doubles (n := 2) hm (by norm_num)).1
    rw [h]
    exact h2 _ (by decide)
  · decide +kernel

end Verif

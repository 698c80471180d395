import Verif.Lemmas.Basic
import Mathlib.Data.Finset.Card
import Mathlib.Data.List.Dedup
import Mathlib.Data.Finset.Dedup

/-! # Lemmas on weighted choice and deterministic selection -/

namespace Verif

theorem cumsum_go_length (acc : ℚ) (p : List ℚ) : (cumsum.go acc p).length = p.length := by
  induction p generalizing acc with
  | nil => rfl
  | cons x xs ih => simp [cumsum.go, ih]

theorem cumsum_length (p : List ℚ) : (cumsum p).length = p.length := cumsum_go_length 0 p

theorem cumsum_go_getLastD (acc dflt : ℚ) (p : List ℚ) (h : p ≠ []) :
    (cumsum.go acc p).getLastD dflt = acc + p.sum := by
  induction p generalizing acc with
  | nil => exact absurd rfl h
  | cons x xs ih =>
    cases xs with
    | nil => simp [cumsum.go]
    | cons z zs =>
      have := ih (acc + x) (by simp)
      simp only [cumsum.go, List.getLastD_cons, List.sum_cons] at this ⊢
      linarith

/-- Where the search for the first cumulated weight above `u` stops. -/
theorem cumsum_go_findIdx (acc u : ℚ) (p : List ℚ) (h0 : acc ≤ u) (h1 : u < acc + p.sum) :
    ∃ i w, (cumsum.go acc p).findIdx (fun x => decide (u < x)) = i ∧ p[i]? = some w ∧ 0 < w ∧
      acc + (p.take i).sum ≤ u ∧ u < acc + (p.take (i + 1)).sum := by
  induction p generalizing acc with
  | nil => simp at h1; linarith
  | cons x xs ih =>
    by_cases hx : u < acc + x
    · refine ⟨0, x, ?_, by simp, by linarith, by simpa using h0, by simpa using hx⟩
      simp [cumsum.go, List.findIdx_cons, hx]
    · push Not at hx
      obtain ⟨i, w, h2, h3, h4, h5, h6⟩ := ih (acc + x) hx (by simp at h1; linarith)
      refine ⟨i + 1, w, ?_, by simpa using h3, h4, ?_, ?_⟩
      · have : ¬ (u < acc + x) := not_lt.2 hx
        simp [cumsum.go, List.findIdx_cons, this, h2]
      · simp; linarith
      · simp; linarith

theorem cumsum_go_findIdx_none (acc u : ℚ) (p : List ℚ) (hp : ∀ w ∈ p, 0 ≤ w)
    (h : acc + p.sum ≤ u) :
    (cumsum.go acc p).findIdx (fun x => decide (u < x)) = p.length := by
  induction p generalizing acc with
  | nil => simp [cumsum.go]
  | cons x xs ih =>
    have hs : 0 ≤ xs.sum := List.sum_nonneg (fun w hw => hp w (by simp [hw]))
    simp only [List.sum_cons] at h
    have hx : ¬ (u < acc + x) := by linarith
    have := ih (acc + x) (fun w hw => hp w (by simp [hw])) (by linarith)
    simp [cumsum.go, List.findIdx_cons, hx, this]

theorem choiceIdx_spec {p : List ℚ} {u : ℚ} (h1 : p.sum = 1) (hu0 : 0 ≤ u) (hu1 : u < 1) :
    ∃ w, p[choiceIdx p u]? = some w ∧ 0 < w ∧
      (p.take (choiceIdx p u)).sum ≤ u ∧ u < (p.take (choiceIdx p u + 1)).sum := by
  have hne : p ≠ [] := by rintro rfl; simp at h1
  obtain ⟨i, w, h2, h3, h4, h5, h6⟩ := cumsum_go_findIdx 0 u p hu0 (by rw [h1]; linarith)
  have hlast : (cumsum p).getLastD 1 = 1 := by
    have := cumsum_go_getLastD 0 1 p hne
    rw [h1] at this; simpa [cumsum] using this
  have hi : choiceIdx p u = i := by
    unfold choiceIdx
    simp only [hlast, div_one]
    simpa [cumsum] using h2
  rw [hi]
  exact ⟨w, h3, h4, by simpa using h5, by simpa using h6⟩

/-! ### deterministic_sample -/

theorem spacedFloors_lt {m r i : Nat} (hr : r ≤ m) (hi : i ∈ spacedFloors m r) : i < m := by
  unfold spacedFloors at hi
  rw [List.mem_map] at hi
  obtain ⟨j, hj, rfl⟩ := hi
  rw [List.mem_range] at hj
  have hr0 : (0 : ℚ) < r := by exact_mod_cast (by omega : 0 < r)
  have hm0 : (0 : ℚ) < m := by exact_mod_cast (by omega : 0 < m)
  have hlt : (j : ℚ) * ((m : ℚ) / r) < m := by
    rw [mul_div_assoc', div_lt_iff₀ hr0, mul_comm]
    exact mul_lt_mul_of_pos_left (by exact_mod_cast hj) hm0
  have h0 : 0 ≤ ⌊(j : ℚ) * ((m : ℚ) / r)⌋ := Int.floor_nonneg.2 (by positivity)
  have h1 : ⌊(j : ℚ) * ((m : ℚ) / r)⌋ < (m : ℤ) := by
    rw [Int.floor_lt]; exact_mod_cast hlt
  omega

theorem spacedFloors_length (m r : Nat) : (spacedFloors m r).length = r := by
  simp [spacedFloors]

theorem spacedFloors_nodup {m r : Nat} (hr : r ≤ m) : (spacedFloors m r).Nodup := by
  unfold spacedFloors
  refine List.Nodup.map_on ?_ List.nodup_range
  have key : ∀ a b : Nat, a < b → b < r →
      (⌊(a : ℚ) * ((m : ℚ) / r)⌋).toNat ≠ (⌊(b : ℚ) * ((m : ℚ) / r)⌋).toNat := by
    intro a b hab hb h
    have hr0 : (0 : ℚ) < r := by exact_mod_cast (by omega : 0 < r)
    have hq : (1 : ℚ) ≤ (m : ℚ) / r := by
      rw [le_div_iff₀ hr0]; simpa using (by exact_mod_cast hr : (r : ℚ) ≤ m)
    have h0 : 0 ≤ ⌊(a : ℚ) * ((m : ℚ) / r)⌋ := Int.floor_nonneg.2 (by positivity)
    have h0' : 0 ≤ ⌊(b : ℚ) * ((m : ℚ) / r)⌋ := Int.floor_nonneg.2 (by positivity)
    have hstep : ⌊(a : ℚ) * ((m : ℚ) / r)⌋ + 1 ≤ ⌊(b : ℚ) * ((m : ℚ) / r)⌋ := by
      rw [Int.le_floor]
      push_cast
      have h1 := Int.floor_le ((a : ℚ) * ((m : ℚ) / r))
      have h2 : ((a : ℚ) + 1) * ((m : ℚ) / r) ≤ (b : ℚ) * ((m : ℚ) / r) :=
        mul_le_mul_of_nonneg_right (by exact_mod_cast hab) (by positivity)
      nlinarith
    omega
  intro a ha b hb h
  rw [List.mem_range] at ha hb
  rcases lt_trichotomy a b with hab | hab | hab
  · exact absurd h (key a b hab hb)
  · exact hab
  · exact absurd h.symm (key b a hab ha)

theorem decrementAt_length (idx : List Nat) (tmp : List Int) :
    (decrementAt idx tmp).length = tmp.length := by simp [decrementAt]

theorem sum_decrement_aux (idx : List Nat) (tmp : List Int) (s : Nat) :
    ((tmp.zipIdx s).map (fun (c, i) => if i ∈ idx then c - 1 else c)).sum
      = tmp.sum - ((List.range' s tmp.length).countP (fun i => decide (i ∈ idx)) : ℤ) := by
  induction tmp generalizing s with
  | nil => simp
  | cons c tmp ih =>
    simp only [List.zipIdx_cons, List.map_cons, List.sum_cons, List.length_cons, List.range'_succ,
      List.countP_cons, ih]
    by_cases h : s ∈ idx <;> simp [h] <;> ring

theorem countP_mem_eq {idx : List Nat} {n : Nat} (hnd : idx.Nodup) (hlt : ∀ i ∈ idx, i < n) :
    (List.range n).countP (fun i => decide (i ∈ idx)) = idx.length := by
  rw [List.countP_eq_length_filter]
  have hnd2 : ((List.range n).filter (fun i => decide (i ∈ idx))).Nodup :=
    List.Nodup.filter _ List.nodup_range
  rw [← List.toFinset_card_of_nodup hnd2, ← List.toFinset_card_of_nodup hnd]
  congr 1
  ext i
  simp
  exact fun h => hlt i h

theorem decrementAt_sum {idx : List Nat} {tmp : List Int} (hnd : idx.Nodup)
    (hlt : ∀ i ∈ idx, i < tmp.length) : (decrementAt idx tmp).sum = tmp.sum - idx.length := by
  have := sum_decrement_aux idx tmp 0
  rw [← List.range_eq_range', countP_mem_eq hnd hlt] at this
  exact this

theorem decrementAt_forall (idx : List Nat) (tmp : List Int) :
    List.Forall₂ (fun c t => t = c ∨ t = c - 1) tmp (decrementAt idx tmp) := by
  unfold decrementAt
  have : ∀ s, List.Forall₂ (fun (c t : Int) => t = c ∨ t = c - 1) tmp
      ((tmp.zipIdx s).map (fun (c, i) => if i ∈ idx then c - 1 else c)) := by
    induction tmp with
    | nil => intro s; simp
    | cons c tmp ih =>
      intro s
      simp only [List.zipIdx_cons, List.map_cons]
      refine List.Forall₂.cons ?_ (ih (s + 1))
      by_cases h : s ∈ idx <;> simp [h]
  exact this 0

theorem scatter_spec (sc tmp : List Int)
    (h : List.Forall₂ (fun c t => t = c ∨ t = c - 1) (sc.filter (fun c => decide (c > 0))) tmp) :
    (scatterNonZero sc tmp).sum = sc.sum - (sc.filter (fun c => decide (c > 0))).sum + tmp.sum ∧
      List.Forall₂ (fun c t => (c > 0 ∧ (t = c ∨ t = c - 1)) ∨ (c ≤ 0 ∧ t = c)) sc
        (scatterNonZero sc tmp) := by
  induction sc generalizing tmp with
  | nil => simp only [List.filter_nil, List.forall₂_nil_left_iff] at h; subst h; simp [scatterNonZero]
  | cons c sc ih =>
    by_cases hc : c > 0
    · simp only [List.filter_cons, hc, decide_true, if_true] at h ⊢
      cases h with
      | cons h1 h2 =>
        obtain ⟨i1, i2⟩ := ih _ h2
        simp only [scatterNonZero, hc, if_true, List.sum_cons]
        refine ⟨by rw [i1]; ring, List.Forall₂.cons (Or.inl ⟨hc, h1⟩) i2⟩
    · have hc' : c ≤ 0 := not_lt.1 hc
      simp only [List.filter_cons, hc, decide_false, Bool.false_eq_true, if_false] at h ⊢
      obtain ⟨i1, i2⟩ := ih _ h
      simp only [scatterNonZero, hc, if_false, List.sum_cons]
      exact ⟨by rw [i1]; ring, List.Forall₂.cons (Or.inr ⟨hc', rfl⟩) i2⟩

theorem ceil_sum_bounds (q : List ℚ) (h0 : ∀ x ∈ q, 0 ≤ x) :
    (q.sum : ℚ) ≤ ((q.map (fun x => ⌈x⌉)).sum : ℤ) ∧
    ((((q.map (fun x => ⌈x⌉)).sum : ℤ) : ℚ) ≤
      q.sum + (((q.map (fun x => ⌈x⌉)).filter (fun c => decide (c > 0))).length : ℚ)) ∧
    (0 < ((q.map (fun x => ⌈x⌉)).filter (fun c => decide (c > 0))).length →
      ((((q.map (fun x => ⌈x⌉)).sum : ℤ) : ℚ) <
      q.sum + (((q.map (fun x => ⌈x⌉)).filter (fun c => decide (c > 0))).length : ℚ))) := by
  induction q with
  | nil => simp
  | cons x q ih =>
    obtain ⟨i1, i2, i3⟩ := ih (fun a ha => h0 a (by simp [ha]))
    have hx := h0 x (by simp)
    have hc1 := Int.le_ceil x
    have hc2 := Int.ceil_lt_add_one x
    by_cases hp : ⌈x⌉ > 0
    · simp only [List.map_cons, List.sum_cons, List.filter_cons, hp, decide_true, if_true,
        List.length_cons]
      push_cast
      refine ⟨by linarith, by linarith, fun _ => by linarith⟩
    · have hx0 : x = 0 := by
        have : x ≤ 0 := by
          have : (⌈x⌉ : ℚ) ≤ 0 := by exact_mod_cast not_lt.1 hp
          linarith
        linarith
      subst hx0
      simp only [List.map_cons, List.sum_cons, List.filter_cons, hp, decide_false,
        Bool.false_eq_true, if_false]
      simp only [Int.ceil_zero, zero_add]
      exact ⟨i1, i2, i3⟩

theorem forall2_imp_mem {α β : Type} {R S : α → β → Prop} {l : List α} {m : List β}
    (h : List.Forall₂ R l m) (himp : ∀ a b, a ∈ l → R a b → S a b) : List.Forall₂ S l m := by
  induction h with
  | nil => exact List.Forall₂.nil
  | cons h _ ih =>
    exact List.Forall₂.cons (himp _ _ (by simp) h) (ih (fun a b ha => himp a b (by simp [ha])))

/-- Exactness of the deterministic counts, for any non-negative products `q_i` whose total is within
one of `n` (exact arithmetic has total exactly `n`). -/
theorem deterministicCounts_ok {n : Nat} {q : List ℚ} (h0 : ∀ x ∈ q, 0 ≤ x)
    (hlo : (n : ℚ) - 1 < q.sum) (hhi : q.sum ≤ (n : ℚ) + 1) :
    ∃ c, deterministicCounts n q = .ok c ∧ c.sum = n ∧
      List.Forall₂ (fun x (t : Int) => 0 ≤ t ∧ t ≤ ⌈x⌉ ∧ ⌈x⌉ - 1 ≤ t) q c := by
  obtain ⟨b1, b2, b3⟩ := ceil_sum_bounds q h0
  set sc := q.map (fun x => ⌈x⌉) with hsc
  have hscnn : ∀ c ∈ sc, 0 ≤ c := by
    intro c hc
    rw [hsc, List.mem_map] at hc
    obtain ⟨x, hx, rfl⟩ := hc
    exact Int.ceil_nonneg (h0 x hx)
  have hge : (n : ℤ) ≤ sc.sum := by
    have : ((n : ℤ) : ℚ) - 1 < (sc.sum : ℚ) := by push_cast; linarith
    have : ((n : ℤ) - 1 : ℤ) < sc.sum := by exact_mod_cast this
    omega
  have hfor : ∀ q' : List ℚ, (∀ x ∈ q', 0 ≤ x) →
      List.Forall₂ (fun (x : ℚ) (t : Int) => 0 ≤ t ∧ t ≤ ⌈x⌉ ∧ ⌈x⌉ - 1 ≤ t) q'
        (q'.map (fun x => ⌈x⌉)) := by
    intro q' hq'
    induction q' with
    | nil => simp
    | cons x q' ih =>
      exact List.Forall₂.cons ⟨Int.ceil_nonneg (hq' x (by simp)), le_rfl, by show ⌈x⌉ - 1 ≤ ⌈x⌉; omega⟩
        (ih (fun a ha => hq' a (by simp [ha])))
  unfold deterministicCounts
  simp only [← hsc]
  by_cases hz : sc.sum - (n : ℤ) = 0
  · rw [if_pos hz]
    exact ⟨sc, rfl, by omega, hfor q h0⟩
  · rw [if_neg hz, if_neg (by omega)]
    set tmp := sc.filter (fun c => decide (c > 0)) with htmp
    set r := (sc.sum - (n : ℤ)).toNat with hr
    have hrm : r ≤ tmp.length := by
      have hpos : 0 < tmp.length := by
        by_contra hne
        have hnil : tmp = [] := List.length_eq_zero_iff.1 (by omega)
        have : ∀ c ∈ sc, c = 0 := by
          intro c hc
          by_contra hcn
          have h1 := hscnn c hc
          have : c ∈ tmp := by rw [htmp, List.mem_filter]; exact ⟨hc, by simp; omega⟩
          rw [hnil] at this; simp at this
        have hs0 : sc.sum = 0 := by
          rw [List.sum_eq_zero this]
        omega
      have hlt := b3 hpos
      have hlt2 : (sc.sum : ℚ) < (n : ℚ) + 1 + (tmp.length : ℚ) := by linarith
      have : sc.sum < (n : ℤ) + 1 + (tmp.length : ℤ) := by exact_mod_cast hlt2
      omega
    have hlt : ∀ i ∈ spacedFloors tmp.length r, i < tmp.length := fun i hi => spacedFloors_lt hrm hi
    have hany : (spacedFloors tmp.length r).any (fun i => decide (tmp.length ≤ i)) = false := by
      rw [List.any_eq_false]
      intro i hi
      have := hlt i hi
      simp; omega
    rw [hany]
    simp only [Bool.false_eq_true, if_false]
    have hsum := decrementAt_sum (spacedFloors_nodup hrm) hlt
    rw [spacedFloors_length] at hsum
    obtain ⟨s1, s2⟩ := scatter_spec sc _ (decrementAt_forall (spacedFloors tmp.length r) tmp)
    rw [← htmp, hsum] at s1
    have hfin : (scatterNonZero sc (decrementAt (spacedFloors tmp.length r) tmp)).sum = (n : ℤ) := by
      rw [s1]; omega
    rw [if_pos hfin]
    refine ⟨_, rfl, hfin, ?_⟩
    rw [hsc, List.forall₂_map_left_iff] at s2
    refine forall2_imp_mem s2 ?_
    intro x t hx ht
    have h3 := Int.ceil_nonneg (h0 x hx)
    rcases ht with ⟨h1, h2⟩ | ⟨h1, h2⟩
    · rcases h2 with rfl | rfl <;> omega
    · omega

theorem deterministicCounts_length {q : List ℚ} {c : List Int}
    (h : List.Forall₂ (fun x (t : Int) => 0 ≤ t ∧ t ≤ ⌈x⌉ ∧ ⌈x⌉ - 1 ≤ t) q c) :
    c.length = q.length := h.length_eq.symm

theorem length_expand (c : List Int) (s : Nat) (h : ∀ x ∈ c, 0 ≤ x) :
    (((c.zipIdx s).flatMap (fun (c, i) => List.replicate c.toNat i)).length : ℤ) = c.sum := by
  induction c generalizing s with
  | nil => simp
  | cons x c ih =>
    have := ih (s + 1) (fun a ha => h a (by simp [ha]))
    have hx := h x (by simp)
    simp only [List.zipIdx_cons, List.flatMap_cons, List.length_append, List.length_replicate,
      List.sum_cons]
    push_cast
    rw [this]
    omega

theorem count_expand (c : List Int) (s j : Nat) :
    ((c.zipIdx s).flatMap (fun (c, i) => List.replicate c.toNat i)).count (s + j)
      = ((c[j]?).getD 0).toNat := by
  induction c generalizing s j with
  | nil => simp
  | cons x c ih =>
    simp only [List.zipIdx_cons, List.flatMap_cons, List.count_append]
    cases j with
    | zero =>
      have hz : List.count s ((c.zipIdx (s+1)).flatMap (fun (c, i) => List.replicate c.toNat i)) = 0 := by
        rw [List.count_eq_zero]
        intro hmem
        rw [List.mem_flatMap] at hmem
        obtain ⟨⟨a, i⟩, hai, hm⟩ := hmem
        have := List.mem_zipIdx hai
        simp at hm
        omega
      simp [hz]
    | succ j =>
      have := ih (s + 1) j
      have hne : s ≠ s + (j + 1) := by omega
      rw [show s + (j + 1) = s + 1 + j by omega, this]
      have : List.count (s + 1 + j) (List.replicate x.toNat s) = 0 := by
        rw [List.count_replicate]; simp; omega
      simp [this]

theorem mem_expand {c : List Int} {i : Nat}
    (h : i ∈ (c.zipIdx).flatMap (fun (c, i) => List.replicate c.toNat i)) :
    ∃ t, c[i]? = some t ∧ 0 < t := by
  rw [List.mem_flatMap] at h
  obtain ⟨⟨a, j⟩, hai, hm⟩ := h
  simp only [List.mem_replicate] at hm
  obtain ⟨hm, rfl⟩ := hm
  rw [List.mem_zipIdx_iff_getElem?] at hai
  exact ⟨a, hai, by omega⟩

end Verif

import Verif.Lemmas.Basic
import Verif.Spec.Geometry

/-! # Geometry lemmas -/

namespace Verif

theorem sum_le_of_forall {l m : List ℚ} (h : List.Forall₂ (· ≤ ·) l m) : l.sum ≤ m.sum := by
  induction h with
  | nil => simp
  | cons h _ ih => simp; linarith

theorem exists_le_of_wsum (w : List ℚ) (v : List ℚ) (hlen : w.length = v.length)
    (h0 : ∀ c ∈ w, 0 ≤ c) (h1 : 0 < w.sum) (x : ℚ)
    (hx : (List.zipWith (· * ·) w v).sum ≤ w.sum * x) : ∃ a ∈ v, a ≤ x := by
  by_contra hne
  simp only [not_exists, not_and, not_le] at hne
  have : ∀ (w v : List ℚ), w.length = v.length → (∀ c ∈ w, 0 ≤ c) → (∀ a ∈ v, x < a) →
      w.sum * x ≤ (List.zipWith (· * ·) w v).sum ∧
        (0 < w.sum → w.sum * x < (List.zipWith (· * ·) w v).sum) := by
    intro w
    induction w with
    | nil => intro v _ _ _; simp
    | cons c w ih =>
      intro v hl h0 hv
      cases v with
      | nil => simp at hl
      | cons a v =>
        simp only [List.length_cons, Nat.add_right_cancel_iff] at hl
        obtain ⟨i1, i2⟩ := ih v hl (fun c hc => h0 c (by simp [hc])) (fun a ha => hv a (by simp [ha]))
        have hc : 0 ≤ c := h0 c (by simp)
        have ha : x < a := hv a (by simp)
        simp only [List.sum_cons, List.zipWith_cons_cons]
        have h2 : c * x ≤ c * a := mul_le_mul_of_nonneg_left ha.le hc
        refine ⟨by nlinarith, fun hp => ?_⟩
        rcases hc.eq_or_lt with rfl | hc
        · have : 0 < w.sum := by simpa using hp
          have := i2 this
          nlinarith
        · have : c * x < c * a := mul_lt_mul_of_pos_left ha hc
          nlinarith
  have := (this w v hlen h0 hne).2 h1
  linarith

theorem wsum_neg (w v : List ℚ) :
    (List.zipWith (· * ·) w (v.map (- ·))).sum = - (List.zipWith (· * ·) w v).sum := by
  induction w generalizing v with
  | nil => simp
  | cons c w ih => cases v with
    | nil => simp
    | cons a v => simp [ih]; ring

/-- The convex hull is contained in the bounding box. -/
theorem InHull.inBox {d : Nat} {S : List Row} {x : Row} (h : InHull d S x) : InBox d S x := by
  obtain ⟨V, w, hV, hl, h0, h1, hx, hc⟩ := h
  refine ⟨hx, fun k hk => ?_⟩
  have hk' := hc k hk
  set v := V.map (fun r => r.getD k 0) with hv
  have hzip : List.zipWith (fun c (r : Row) => c * r.getD k 0) w V
      = List.zipWith (· * ·) w v := by
    rw [hv, List.zipWith_map_right]
  rw [hzip] at hk'
  constructor
  · obtain ⟨a, ha, hle⟩ := exists_le_of_wsum w v (by simp [hv, hl]) h0 (by rw [h1]; norm_num)
      (x.getD k 0) (by rw [h1, hk']; simp)
    rw [hv, List.mem_map] at ha
    obtain ⟨r, hr, rfl⟩ := ha
    exact ⟨r, hV r hr, hle⟩
  · obtain ⟨a, ha, hle⟩ := exists_le_of_wsum w (v.map (- ·)) (by simp [hv, hl]) h0
      (by rw [h1]; norm_num) (-(x.getD k 0)) (by rw [h1, wsum_neg, hk']; simp)
    simp only [hv, List.map_map, List.mem_map, Function.comp] at ha
    obtain ⟨r, hr, rfl⟩ := ha
    exact ⟨r, hV r hr, by linarith⟩

theorem InHull.mono {d : Nat} {S T : List Row} {x : Row} (h : InHull d S x)
    (hST : ∀ r ∈ S, r ∈ T) : InHull d T x := by
  obtain ⟨V, w, hV, hw⟩ := h
  exact ⟨V, w, fun v hv => hST v (hV v hv), hw⟩

@[simp] theorem Row.add_length (a b : Row) : (Row.add a b).length = min a.length b.length := by
  simp [Row.add]
@[simp] theorem Row.sub_length (a b : Row) : (Row.sub a b).length = min a.length b.length := by
  simp [Row.sub]
@[simp] theorem Row.mul_length (a b : Row) : (Row.mul a b).length = min a.length b.length := by
  simp [Row.mul]
@[simp] theorem Row.smul_length (c : ℚ) (a : Row) : (Row.smul c a).length = a.length := by
  simp [Row.smul]

theorem Row.add_getD {a b : Row} {k : Nat} (ha : k < a.length) (hb : k < b.length) :
    (Row.add a b).getD k 0 = a.getD k 0 + b.getD k 0 := by
  simp [Row.add, List.getD, ha, hb]
theorem Row.sub_getD {a b : Row} {k : Nat} (ha : k < a.length) (hb : k < b.length) :
    (Row.sub a b).getD k 0 = a.getD k 0 - b.getD k 0 := by
  simp [Row.sub, List.getD, ha, hb]
theorem Row.mul_getD {a b : Row} {k : Nat} (ha : k < a.length) (hb : k < b.length) :
    (Row.mul a b).getD k 0 = a.getD k 0 * b.getD k 0 := by
  simp [Row.mul, List.getD, ha, hb]
theorem Row.smul_getD (c : ℚ) (a : Row) (k : Nat) :
    (Row.smul c a).getD k 0 = c * a.getD k 0 := by
  simp only [Row.smul, List.getD, List.getElem?_map]
  cases a[k]? <;> simp

theorem rowSum_length {d : Nat} {rows : List Row} (h : ∀ r ∈ rows, r.length = d) :
    (rowSum d rows).length = d := by
  induction rows with
  | nil => simp [rowSum]
  | cons r rows ih =>
    have h1 := ih (fun r hr => h r (by simp [hr]))
    have h2 := h r (by simp)
    simp only [rowSum, List.foldr_cons, Row.add_length] at h1 ⊢
    rw [h1, h2]; simp

theorem rowSum_getD {d k : Nat} {rows : List Row} (h : ∀ r ∈ rows, r.length = d) (hk : k < d) :
    (rowSum d rows).getD k 0 = (rows.map (fun r => r.getD k 0)).sum := by
  induction rows with
  | nil => simp [rowSum, List.getD, hk]
  | cons r rows ih =>
    have h1 := ih (fun r hr => h r (by simp [hr]))
    have h2 := h r (by simp)
    have h3 : (rowSum d rows).length = d := rowSum_length (fun r hr => h r (by simp [hr]))
    have : rowSum d (r :: rows) = Row.add r (rowSum d rows) := rfl
    rw [this, Row.add_getD (by omega) (by omega), h1]
    simp

/-- The weighted sum computed by the sampler is a convex combination. -/
theorem rowSum_convex {d : Nat} {w : List ℚ} {V : List Row} (hl : w.length = V.length)
    (h0 : ∀ c ∈ w, 0 ≤ c) (h1 : w.sum = 1) (hV : ∀ v ∈ V, v.length = d) :
    IsConvexComb d w V (rowSum d (List.zipWith Row.smul w V)) := by
  have hlen : ∀ r ∈ List.zipWith Row.smul w V, r.length = d := by
    intro r hr
    obtain ⟨i, hi, rfl⟩ := List.getElem_of_mem hr
    simp only [List.getElem_zipWith, Row.smul_length]
    exact hV _ (List.getElem_mem _)
  refine ⟨hl, h0, h1, rowSum_length hlen, fun k hk => ?_⟩
  rw [rowSum_getD hlen hk]
  congr 1
  rw [List.map_zipWith]
  simp only [Row.smul_getD]

/-- A point between two points. -/
theorem segment_convex {d : Nat} {a b x : Row} {t : ℚ} (ha : a.length = d) (hb : b.length = d)
    (ht0 : 0 ≤ t) (ht1 : t ≤ 1) (hx : x = Row.add a (Row.smul t (Row.sub b a))) :
    IsConvexComb d [1 - t, t] [a, b] x := by
  subst hx
  refine ⟨rfl, ?_, by simp, by simp [ha, hb], fun k hk => ?_⟩
  · intro c hc
    simp at hc
    rcases hc with rfl | rfl <;> linarith
  · rw [Row.add_getD (by omega) (by simp; omega), Row.smul_getD, Row.sub_getD (by omega) (by omega)]
    simp; ring

end Verif

import Verif.Lemmas.Geometry
import Mathlib.Algebra.BigOperators.Ring.List

/-! # Convex combinations of points of a hull -/

namespace Verif

theorem wsum_append (k : Nat) (w w' : List ℚ) (V V' : List Row) (hl : w.length = V.length) :
    (List.zipWith (fun c (r : Row) => c * r.getD k 0) (w ++ w') (V ++ V')).sum =
      (List.zipWith (fun c (r : Row) => c * r.getD k 0) w V).sum +
      (List.zipWith (fun c (r : Row) => c * r.getD k 0) w' V').sum := by
  rw [List.zipWith_append hl, List.sum_append]

theorem wsum_scale (k : Nat) (c : ℚ) (w : List ℚ) (V : List Row) :
    (List.zipWith (fun c (r : Row) => c * r.getD k 0) (w.map (c * ·)) V).sum =
      c * (List.zipWith (fun c (r : Row) => c * r.getD k 0) w V).sum := by
  induction w generalizing V with
  | nil => simp
  | cons a w ih =>
    cases V with
    | nil => simp
    | cons v V =>
      simp only [List.map_cons, List.zipWith_cons_cons, List.sum_cons, ih]
      ring

theorem hull_flatten {d : Nat} {S : List Row} : ∀ (V : List Row) (w : List ℚ), w.length = V.length → (∀ c ∈ w, 0 ≤ c) →
    (∀ v ∈ V, InHull d S v) → ∃ (V' : List Row) (w' : List ℚ), (∀ v ∈ V', v ∈ S) ∧ w'.length = V'.length ∧
      (∀ c ∈ w', 0 ≤ c) ∧ w'.sum = w.sum ∧ ∀ k, k < d →
        (List.zipWith (fun c (r : Row) => c * r.getD k 0) w V).sum =
        (List.zipWith (fun c (r : Row) => c * r.getD k 0) w' V').sum := by
  intro V
  induction V with
  | nil =>
    intro w hl _ _
    have : w = [] := List.length_eq_zero_iff.1 (by simpa using hl)
    subst this
    exact ⟨[], [], by simp, rfl, by simp, rfl, by simp⟩
  | cons v V ih =>
    intro w hl h0 hV
    cases w with
    | nil => simp at hl
    | cons c w =>
      obtain ⟨V', w', e1, e2, e3, e4, e5⟩ := ih w (by simpa using hl) (fun c hc => h0 c (by simp [hc]))
        (fun v hv => hV v (by simp [hv]))
      obtain ⟨Vv, wv, f1, f2, f3, f4, f5, f6⟩ := hV v (by simp)
      have hc := h0 c (by simp)
      refine ⟨Vv ++ V', wv.map (c * ·) ++ w', ?_, ?_, ?_, ?_, ?_⟩
      · intro x hx
        rcases List.mem_append.1 hx with h | h
        · exact f1 x h
        · exact e1 x h
      · simp [f2, e2]
      · intro x hx
        rcases List.mem_append.1 hx with h | h
        · obtain ⟨z, hz, rfl⟩ := List.mem_map.1 h
          exact mul_nonneg hc (f3 z hz)
        · exact e3 x h
      · rw [List.sum_append, List.sum_map_mul_left, List.map_id', f4, e4, List.sum_cons]
        ring
      · intro k hk
        rw [wsum_append k _ _ _ _ (by simp [f2]), wsum_scale, List.zipWith_cons_cons, List.sum_cons, f6 k hk, e5 k hk]

/-- A convex combination of points of the hull of `S` is in the hull of `S`. -/
theorem InHull.trans {d : Nat} {S T : List Row} {x : Row} (h : InHull d T x) (hT : ∀ t ∈ T, InHull d S t) : InHull d S x := by
  obtain ⟨V, w, hV, h1, h2, h3, h4, h5⟩ := h
  obtain ⟨V', w', e1, e2, e3, e4, e5⟩ := hull_flatten V w h1 h2 (fun v hv => hT v (hV v hv))
  exact ⟨V', w', e1, e2, e3, by rw [e4, h3], h4, fun k hk => by rw [h5 k hk, e5 k hk]⟩

theorem inHull_self {d : Nat} {S : List Row} {x : Row} (hx : x ∈ S) (hl : x.length = d) : InHull d S x :=
  ⟨[x], [1], by simpa using hx, by simp, by simp, by simp, hl, by simp⟩

theorem wsum_replicate (k : Nat) (c : ℚ) (V : List Row) :
    (List.zipWith (fun c (r : Row) => c * r.getD k 0) (List.replicate V.length c) V).sum =
      c * (V.map (fun r => r.getD k 0)).sum := by
  induction V with
  | nil => simp
  | cons v V ih =>
    rw [List.length_cons, List.replicate_succ, List.zipWith_cons_cons, List.sum_cons, ih, List.map_cons, List.sum_cons]
    ring

end Verif

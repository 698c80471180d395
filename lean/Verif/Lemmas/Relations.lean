import Verif.Spec.Relations
import Verif.Lemmas.Interp
import Verif.Lemmas.SimplexAlg
import Verif.Lemmas.Hull
import Verif.Props.C19
import Verif.Props.C91

/-! # Lemmas: linear relations among the features -/

namespace Verif

theorem fulfils_comb {d : Nat} {m : Nat → ℚ} {c : ℚ} : ∀ (w : List ℚ) (V : List Row), w.length = V.length →
    (∀ v ∈ V, Fulfils d m c v) →
    ((List.range d).map (fun k => m k * (List.zipWith (fun c r => c * r.getD k 0) w V).sum)).sum = w.sum * c := by
  intro w
  induction w with
  | nil => intro V _ _; simp
  | cons u w ih =>
    intro V hl hV
    cases V with
    | nil => simp at hl
    | cons v V =>
      have h1 := ih V (by simpa using hl) (fun q hq => hV q (List.mem_cons_of_mem _ hq))
      have h2 : ((List.range d).map (fun k => m k * v.getD k 0)).sum = c := hV v (List.mem_cons_self ..)
      simp only [List.zipWith_cons_cons, List.sum_cons]
      rw [add_mul, ← h1, ← h2, ← List.sum_map_mul_left, ← List.sum_map_add]
      refine congrArg _ (List.map_congr_left fun k _ => ?_)
      ring

theorem InHull.fulfils {d : Nat} {m : Nat → ℚ} {c : ℚ} {S : List Row} {x : Row} (h : InHull d S x)
    (hS : ∀ r ∈ S, Fulfils d m c r) : Fulfils d m c x := by
  obtain ⟨V, w, hV, h1, _, h3, _, h5⟩ := h
  have h6 := fulfils_comb w V h1 (fun v hv => hS v (hV v hv))
  rw [h3, one_mul] at h6
  rw [Fulfils, ← h6]
  refine congrArg _ (List.map_congr_left fun k hk => ?_)
  rw [h5 k (List.mem_range.1 hk)]

theorem meets_comb {d : Nat} {m : Nat → ℚ} {c : ℚ} : ∀ (w : List ℚ) (V : List Row), w.length = V.length → (∀ q ∈ w, 0 ≤ q) →
    (∀ v ∈ V, Meets d m c v) →
    ((List.range d).map (fun k => m k * (List.zipWith (fun c r => c * r.getD k 0) w V).sum)).sum ≤ w.sum * c := by
  intro w
  induction w with
  | nil => intro V _ _ _; simp
  | cons q w ih =>
    intro V hl hw hV
    match V with
    | [] => simp at hl
    | v :: V =>
      have h1 := ih V (by simpa using hl) (fun x hx => hw x (List.mem_cons_of_mem _ hx)) (fun x hx => hV x (List.mem_cons_of_mem _ hx))
      have h2 : q * ((List.range d).map (fun k => m k * v.getD k 0)).sum ≤ q * c :=
        mul_le_mul_of_nonneg_left (hV v (List.mem_cons_self ..)) (hw q (List.mem_cons_self ..))
      have e : ((List.range d).map (fun k => m k * (List.zipWith (fun c r => c * r.getD k 0) (q :: w) (v :: V)).sum)).sum
          = q * ((List.range d).map (fun k => m k * v.getD k 0)).sum
            + ((List.range d).map (fun k => m k * (List.zipWith (fun c r => c * r.getD k 0) w V).sum)).sum := by
        rw [← List.sum_map_mul_left, ← List.sum_map_add]
        refine congrArg _ (List.map_congr_left fun k _ => ?_)
        simp only [List.zipWith_cons_cons, List.sum_cons]
        ring
      rw [e, List.sum_cons, add_mul]
      exact add_le_add h2 h1

theorem InHull.meets {d : Nat} {m : Nat → ℚ} {c : ℚ} {S : List Row} {x : Row} (h : InHull d S x)
    (hS : ∀ r ∈ S, Meets d m c r) : Meets d m c x := by
  obtain ⟨V, w, hV, h1, h2, h3, _, h5⟩ := h
  have h6 := meets_comb w V h1 h2 (fun v hv => hS v (hV v hv))
  rw [h3, one_mul] at h6
  refine le_trans (le_of_eq ?_) h6
  refine congrArg _ (List.map_congr_left fun k hk => ?_)
  rw [h5 k (List.mem_range.1 hk)]

theorem fulfils_iff_meets {d : Nat} {m : Nat → ℚ} {c : ℚ} {x : Row} : Fulfils d m c x ↔ Meets d m c x ∧ Meets d (fun k => - m k) (-c) x := by
  have e : ((List.range d).map (fun k => - m k * x.getD k 0)).sum = - ((List.range d).map (fun k => m k * x.getD k 0)).sum := by
    rw [← neg_one_mul, ← List.sum_map_mul_left]
    refine congrArg _ (List.map_congr_left fun k _ => ?_)
    ring
  unfold Fulfils Meets
  rw [e, neg_le_neg_iff]
  exact le_antisymm_iff

theorem KeepsConditions.relations {d : Nat} {a : Int} {X X' : List Row} {y y' : List Int} (h : KeepsConditions d a X y X' y') :
    KeepsRelations d a X y X' y' := by
  intro m c hc r hr
  exact fulfils_iff_meets.2 ⟨h m c (fun q hq => (fulfils_iff_meets.1 (hc q hq)).1) r hr,
    h _ _ (fun q hq => (fulfils_iff_meets.1 (hc q hq)).2) r hr⟩

theorem fulfils_indicator {d k : Nat} (hk : k < d) {c : ℚ} {x : Row} :
    Fulfils d (fun j => if j = k then 1 else 0) c x ↔ x.getD k 0 = c := by
  have : ((List.range d).map (fun j => (if j = k then (1 : ℚ) else 0) * x.getD j 0)).sum = x.getD k 0 := by
    induction d with
    | zero => omega
    | succ d ih =>
      rw [List.range_succ, List.map_append, List.sum_append]
      by_cases h : d = k
      · subst h
        have h0 : ((List.range d).map (fun j => (if j = d then (1 : ℚ) else 0) * x.getD j 0)).sum = 0 := by
          refine List.sum_eq_zero fun q hq => ?_
          obtain ⟨j, hj, rfl⟩ := List.mem_map.1 hq
          rw [List.mem_range] at hj
          rw [if_neg (by omega), zero_mul]
        rw [h0]
        simp
      · rw [ih (by omega)]
        simp [h]
  rw [Fulfils, this]

theorem KeepsRelations.constants {d : Nat} {a : Int} {X X' : List Row} {y y' : List Int} (h : KeepsRelations d a X y X' y') :
    KeepsConstants d a X y X' y' := by
  intro k c hk hc r hr
  exact (fulfils_indicator hk).1 (h _ c (fun q hq => (fulfils_indicator hk).2 (hc q hq)) r hr)

theorem meets_upper {d k : Nat} (hk : k < d) {c : ℚ} {x : Row} : Meets d (fun j => if j = k then 1 else 0) c x ↔ x.getD k 0 ≤ c := by
  rw [Meets, show ((List.range d).map (fun j => (if j = k then (1 : ℚ) else 0) * x.getD j 0)).sum = x.getD k 0 from (fulfils_indicator hk).2 rfl]

theorem meets_lower {d k : Nat} (hk : k < d) {c : ℚ} {x : Row} : Meets d (fun j => - if j = k then 1 else 0) (-c) x ↔ c ≤ x.getD k 0 := by
  have h : Fulfils d (fun j => if j = k then 1 else 0) (x.getD k 0) x := (fulfils_indicator hk).2 rfl
  have e : ((List.range d).map (fun j => - (if j = k then (1 : ℚ) else 0) * x.getD j 0)).sum = - x.getD k 0 := by
    rw [← h, ← neg_one_mul, ← List.sum_map_mul_left]
    refine congrArg _ (List.map_congr_left fun k _ => ?_)
    ring
  rw [Meets, e, neg_le_neg_iff]

theorem KeepsConditions.ranges {d : Nat} {a : Int} {X X' : List Row} {y y' : List Int} (h : KeepsConditions d a X y X' y') :
    KeepsRanges d a X y X' y' := by
  intro k lo hi hk hc r hr
  exact ⟨(meets_lower hk).1 (h _ _ (fun q hq => (meets_lower hk).2 (hc q hq).1) r hr),
    (meets_upper hk).1 (h _ _ (fun q hq => (meets_upper hk).2 (hc q hq).2) r hr)⟩

theorem KeepsRanges.constants {d : Nat} {a : Int} {X X' : List Row} {y y' : List Int} (h : KeepsRanges d a X y X' y') :
    KeepsConstants d a X y X' y' := by
  intro k c hk hc r hr
  obtain ⟨h1, h2⟩ := h k c c hk (fun q hq => by rw [hc q hq]; exact ⟨le_refl _, le_refl _⟩) r hr
  exact le_antisymm h2 h1

theorem keepsConditions_refl (d : Nat) (a : Int) (X : List Row) (y : List Int) : KeepsConditions d a X y X y := fun _ _ h => h

theorem keepsConditions_same {d : Nat} {a : Int} {X X' : List Row} {y y' : List Int} (h : X' = X ∧ y' = y) :
    KeepsConditions d a X y X' y' := by
  obtain ⟨rfl, rfl⟩ := h
  exact keepsConditions_refl d a _ _

theorem keepsConditions_append {d n : Nat} {a : Int} {X X' new : List Row} {y y' : List Int} (hl : X.length = y.length)
    (hX : X' = X ++ new) (hy : y' = y ++ List.replicate n a) (hn : new.length = n)
    (h : ∀ x ∈ new, InHull d (classRows X y a) x) : KeepsConditions d a X y X' y' := by
  subst hX; subst hy; subst hn
  intro m c hc r hr
  rw [classRows_append hl, classRows_replicate, List.mem_append] at hr
  rcases hr with hr | hr
  · exact hc r hr
  · exact (h r hr).meets hc

theorem OversampledBy.keeps {d n : Nat} {a : Int} {X X' : List Row} {y y' : List Int} {P : Row → Prop} (hl : X.length = y.length)
    (h : OversampledBy X y a n P X' y') (hP : ∀ x, P x → InHull d (classRows X y a) x) : KeepsConditions d a X y X' y' := by
  obtain ⟨new, h1, h2, h3, h4⟩ := h
  exact keepsConditions_append hl h1 h2 h3 (fun x hx => hP x (h4 x hx))

theorem Oversampled.keeps {d n : Nat} {a : Int} {X X' : List Row} {y y' : List Int} {P : Row → Prop} (hl : X.length = y.length)
    (h : Oversampled X y a n P X' y') (hP : ∀ x, P x → InHull d (classRows X y a) x) : KeepsConditions d a X y X' y' := by
  rcases h with h | h
  · exact keepsConditions_same h
  · exact OversampledBy.keeps hl h hP

/-- A convex combination of a listed row and of rows of the list. -/
theorem inHull_base {d : Nat} {A nbrs : List Row} {base x : Row} {w : List ℚ} (hb : base ∈ A) (hn : ∀ r ∈ nbrs, r ∈ A)
    (h : IsConvexComb d w (base :: nbrs) x) : InHull d A x := by
  refine ⟨_, w, ?_, h⟩
  intro v hv
  rcases List.mem_cons.1 hv with rfl | hv
  · exact hb
  · exact hn v hv

theorem forall2_getElem_mem {α : Type} {A nbrs : List Row} {is : List α} {f : α → Nat}
    (h : List.Forall₂ (fun i r => A[f i]? = some r) is nbrs) : ∀ r ∈ nbrs, r ∈ A := by
  intro r hr
  obtain ⟨i, _, hi⟩ := forall₂_mem_right h hr
  exact List.mem_of_getElem? hi

/-- A point of the segment between two points of the hull. -/
theorem inHull_segment {d : Nat} {S : List Row} {p q x : Row} {t : ℚ} (hp : InHull d S p) (hq : InHull d S q) (hl : x.length = d)
    (h0 : 0 ≤ t) (h1 : t ≤ 1) (h : ∀ k, k < d → x.getD k 0 = (1 - t) * p.getD k 0 + t * q.getD k 0) : InHull d S x := by
  have : InHull d [p, q] x := by
    refine ⟨[p, q], [1 - t, t], fun v hv => hv, rfl, ?_, by simp, hl, ?_⟩
    · intro c hc
      simp only [List.mem_cons, List.not_mem_nil, or_false] at hc
      rcases hc with rfl | rfl
      · linarith
      · exact h0
    · intro k hk
      rw [h k hk]
      simp
  refine this.trans ?_
  intro r hr
  simp only [List.mem_cons, List.not_mem_nil, or_false] at hr
  rcases hr with rfl | rfl
  · exact hp
  · exact hq

/-- The two ways in which a call does nothing: at most two minority rows, or nothing asked for. -/
theorem sample_cases {d : Nat} {alg : Stats → List Row → List Int → Res (List Row × List Int)} {X X' : List Row} {y y' : List Int}
    {a b : Int} {p : ℚ} (hmin : IsMinority y a b)
    (hz : ∀ s : Stats, detNToSample (.num p) (s.count s.majLabel) (s.count s.minLabel) = .ok 0 → alg s X y = .ok (X, y))
    (h : sample defaultChecks d alg X y = .ok (X', y')) :
    (X' = X ∧ y' = y) ∨ (2 < y.count a ∧ 0 < requested p (y.count b) (y.count a)) := by
  obtain ⟨s, hs, rfl, rfl⟩ := stats_of_isMinority hmin
  rw [sample_default hs] at h
  split at h
  · injection h with h
    obtain ⟨rfl, rfl⟩ := Prod.mk.inj h
    exact Or.inl ⟨rfl, rfl⟩
  · rename_i h3
    rcases Nat.eq_zero_or_pos (requested p (y.count s.majLabel) (y.count s.minLabel)) with h0 | h0
    · have h4 := hz s (by
        rw [stats_count hs (stats_min_mem hs).1, stats_count hs (stats_min_mem hs).2.1, detN_eq_requested, h0])
      rw [h4] at h
      injection h with h
      obtain ⟨rfl, rfl⟩ := Prod.mk.inj h
      exact Or.inl ⟨rfl, rfl⟩
    · exact Or.inr ⟨by omega, h0⟩

theorem sample_more {d : Nat} {alg : Stats → List Row → List Int → Res (List Row × List Int)} {X X' : List Row} {y y' : List Int}
    {a b : Int} (hmin : IsMinority y a b) (h : sample defaultChecks d alg X y = .ok (X', y')) :
    (X' = X ∧ y' = y) ∨ 2 < y.count a := by
  obtain ⟨s, hs, rfl, rfl⟩ := stats_of_isMinority hmin
  rw [sample_default hs] at h
  split at h
  · injection h with h
    obtain ⟨rfl, rfl⟩ := Prod.mk.inj h
    exact Or.inl ⟨rfl, rfl⟩
  · exact Or.inr (by omega)

end Verif

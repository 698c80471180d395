import Verif.Model.Clusters
import Verif.Spec.Clusters
import Verif.Lemmas.Unique
import Verif.Lemmas.SelWeights
import Verif.Lemmas.SimplexAlg
import Verif.Props.C09

/-! # Sampling within clusters -/

namespace Verif

theorem sublist_drop_of_positions {row ps vs : List Nat} {s m : Nat} (hs : ps.Sublist (List.range' s m))
    (hf : List.Forall₂ (fun p v => row[p]? = some v) ps vs) : vs.Sublist (row.drop s) := by
  induction m generalizing s ps vs with
  | zero =>
    rw [List.range'_zero, List.sublist_nil] at hs
    subst hs
    cases hf
    exact List.nil_sublist _
  | succ m ih =>
    rw [List.range'_succ] at hs
    cases hs with
    | cons _ hs =>
      exact (ih hs hf).trans (by rw [← List.drop_drop]; exact List.drop_sublist _ _)
    | cons_cons _ hs =>
      cases hf with
      | @cons _ v _ vs' hv hf =>
        have hlt := (List.getElem?_eq_some_iff.1 hv).1
        rw [List.drop_eq_getElem_cons hlt, (List.getElem?_eq_some_iff.1 hv).2]
        exact (ih hs hf).cons_cons _

/-- Soundness of `sample_simplex` without noise and without weights of vertices or simplices. -/
theorem sampleSimplex_simplexOf_vw {ss : SSParams} {vol : List Row → ℚ} {dr : Draws} {d : Nat}
    {X : List Row} {indices : List (List Nat)} {k n : Nat} {a : SSArgs} {out : List Row}
    (hX : ∀ r ∈ X, r.length = d) (hV : ∀ V, a.Xv = some V → ∀ r ∈ V, r.length = d)
    (hvw : ∀ ws, a.vertexWeights = some ws → ∀ c ∈ ws, 0 ≤ c ∧ c ≤ 1)
    (hsame : a.sameVertices = true → a.Xv = some X) (hdr : dr.OK)
    (hI : indices.length ≤ X.length) (hg : ss.gaussian = .none)
    (hbw : ∀ w, a.baseWeights = some w → w.length = indices.length ∧ ∀ x ∈ w, 0 ≤ x)
    (hsw : ∀ m, a.simplexWeights = some m → ∀ r ∈ m, ∀ x ∈ r, 0 ≤ x)
    (hvol : ∀ vs, 0 ≤ vol vs) (h : sampleSimplex ss vol dr d X indices k n a = .ok out) :
    out.length = n ∧ ∀ x ∈ out, SimplexOf d (min ss.nDim k) X (a.Xv.getD X) indices
      (fun b => ∀ w, a.baseWeights = some w → ∃ c, w[b]? = some c ∧ 0 < c) x := by
  obtain ⟨g1, g2⟩ := sampleSimplex_weighted (cap := fun _ => 1) hX hV hvw hsame hdr hI hg
    hbw hsw hvol ⟨fun _ _ => le_refl _, fun ws hws i c hc => (hvw ws hws c (List.mem_of_getElem? hc)).2⟩ h
  refine ⟨g1, fun x hx => ?_⟩
  obtain ⟨b, ps, vs, ⟨⟨row, hrow, hf⟩, hsub, hlen, hw, _⟩, base, nbrs, w0, wr, hbase, hnb, hcx, _⟩ := g2 x hx
  exact ⟨b, base, row, vs, nbrs, w0 :: wr, hbase, hw, hrow, sublist_drop_of_positions hsub hf,
    by rw [← hf.length_eq]; exact hlen, hnb, hcx⟩

theorem sampleSimplex_simplexOf {ss : SSParams} {vol : List Row → ℚ} {dr : Draws} {d : Nat}
    {X : List Row} {indices : List (List Nat)} {k n : Nat} {a : SSArgs} {out : List Row}
    (hX : ∀ r ∈ X, r.length = d) (hV : ∀ V, a.Xv = some V → ∀ r ∈ V, r.length = d)
    (hvw : a.vertexWeights = none) (hsame : a.sameVertices = true → a.Xv = some X) (hdr : dr.OK)
    (hI : indices.length ≤ X.length) (hg : ss.gaussian = .none)
    (hbw : ∀ w, a.baseWeights = some w → w.length = indices.length ∧ ∀ x ∈ w, 0 ≤ x) (hsw : a.simplexWeights = none)
    (hvol : ∀ vs, 0 ≤ vol vs) (h : sampleSimplex ss vol dr d X indices k n a = .ok out) :
    out.length = n ∧ ∀ x ∈ out, SimplexOf d (min ss.nDim k) X (a.Xv.getD X) indices
      (fun b => ∀ w, a.baseWeights = some w → ∃ c, w[b]? = some c ∧ 0 < c) x := by
  exact sampleSimplex_simplexOf_vw hX hV (by rw [hvw]; intro ws hws; cases hws) hsame hdr hI hg hbw
    (by rw [hsw]; intro ws hws; cases hws) hvol h

/-- A simplex with one vertex gives a copy. -/
theorem SimplexOf.copy {d : Nat} {X V : List Row} {table : List (List Nat)} {ok : Nat → Prop} {x : Row}
    (hX : ∀ r ∈ X, r.length = d) (h : SimplexOf d 1 X V table ok x) : x ∈ X := by
  obtain ⟨b, base, row, nbIdx, nbrs, w, hb, _, _, _, hlen, hf, h1, h2, h3, h4, h5⟩ := h
  have hn : nbIdx = [] := List.length_eq_zero_iff.1 (by omega)
  subst hn
  cases hf
  have hx : x = base := by
    match w, h1 with
    | [c], _ =>
      simp at h3
      subst h3
      refine row_ext h4 (hX base (List.mem_of_getElem? hb)) (fun k hk => ?_)
      rw [h5 k hk]
      simp
  rw [hx]
  exact List.mem_of_getElem? hb

/-- A simplex with fewer vertices lies in a hull. -/
theorem SimplexOf.inHull {d nDim : Nat} {X V : List Row} {table : List (List Nat)} {ok : Nat → Prop} {x : Row}
    (h : SimplexOf d nDim X V table ok x) : InHull d (X ++ V) x := by
  obtain ⟨b, base, row, nbIdx, nbrs, w, hb, _, _, _, hlen, hf, hc⟩ := h
  refine ⟨base :: nbrs, w, ?_, hc⟩
  intro r hr
  rcases List.mem_cons.1 hr with rfl | hr
  · exact List.mem_append_left _ (List.mem_of_getElem? hb)
  · obtain ⟨i, _, hi⟩ := forall₂_mem_right hf hr
    exact List.mem_append_right _ (List.mem_of_getElem? hi)

theorem npUnique_eq_filter_range {l : List Nat} {m : Nat} (h : ∀ c ∈ l, c < m) :
    npUnique l = (List.range m).filter (fun c => decide (c ∈ l)) := by
  have hs1 := npUnique_sorted l
  have hs2 : ((List.range m).filter (fun c => decide (c ∈ l))).Pairwise (· < ·) := List.pairwise_lt_range.filter _
  refine List.Perm.eq_of_pairwise (le := (· < ·)) ?_ hs1 hs2 ?_
  · intro a b _ _ h1 h2; omega
  · rw [List.perm_ext_iff_of_nodup (npUnique_nodup l) (hs2.imp (fun h => ne_of_lt h))]
    intro a
    rw [mem_npUnique, List.mem_filter, List.mem_range, decide_eq_true_eq]
    exact ⟨fun ha => ⟨h a ha, ha⟩, fun ha => ha.2⟩

theorem flatMap_filter_of_nil {α β : Type} {l : List α} {p : α → Bool} {f : α → List β} (h : ∀ a ∈ l, p a = false → f a = []) :
    (l.filter p).flatMap f = l.flatMap f := by
  induction l with
  | nil => rfl
  | cons a l ih =>
    have := ih (fun b hb => h b (by simp [hb]))
    rw [List.filter_cons]
    cases hp : p a with
    | true => simp [this]
    | false => simp [this, h a (by simp) hp]

/-- The answers per cluster, in order. -/
theorem sampleInClusters_sound {ss : SSParams} {vol : List Row → ℚ} {drs : Nat → Draws} {d : Nat}
    {task : Nat → Res ClusterTask} {sel : List Nat} {m : Nat} {P : Nat → Row → Prop} {out : List Row}
    (hsel : ∀ c ∈ sel, c < m)
    (hP : ∀ c t i out, c ∈ sel → task c = .ok t →
      sampleSimplex ss vol (drs i) d t.rows t.indices t.k (sel.count c) t.args = .ok out →
        out.length = sel.count c ∧ ∀ x ∈ out, P c x)
    (h : sampleInClusters ss vol drs d task sel = .ok out) :
    ∃ parts : Nat → List Row, out = (List.range m).flatMap parts ∧
      ∀ c, c < m → (parts c).length = sel.count c ∧ ∀ x ∈ parts c, P c x := by
  unfold sampleInClusters at h
  obtain ⟨pl, hpl, h⟩ := bind_ok.1 h
  split at h
  · cases h
  have h := pure_ok.1 h
  have hu := npUnique_eq_filter_range hsel
  have hlen : pl.length = (npUnique sel).length := by
    rw [mapM_ok_length hpl]; simp [npUniqueCounts]
  have hget : ∀ (i : Nat) (c : Nat), (npUnique sel)[i]? = some c → ∃ o, pl[i]? = some o ∧
      o.length = sel.count c ∧ ∀ x ∈ o, P c x := by
    intro i c hc
    obtain ⟨o, ho, ho2⟩ := mapM_ok_get (i := i) (a := ((c, sel.count c), i)) hpl (by
      rw [List.getElem?_zipIdx]; simp [npUniqueCounts, hc])
    refine ⟨o, ho, ?_⟩
    dsimp only at ho2
    obtain ⟨t, ht, ho2⟩ := bind_ok.1 ho2
    exact hP c t i o (mem_npUnique.1 (List.mem_of_getElem? hc)) ht ho2
  refine ⟨fun c => if c ∈ sel then pl.getD ((npUnique sel).idxOf c) [] else [], ?_, ?_⟩
  · rw [← h, ← flatMap_filter_of_nil (p := fun c => decide (c ∈ sel)) (by intro c _ hc; simp at hc; simp [hc]), ← hu,
      List.flatMap_def]
    congr 1
    apply List.ext_getElem?
    intro i
    rw [List.getElem?_map]
    by_cases hi : i < (npUnique sel).length
    · rw [List.getElem?_eq_getElem hi, List.getElem?_eq_getElem (by omega)]
      have hmem : (npUnique sel)[i] ∈ sel := mem_npUnique.1 (List.getElem_mem hi)
      simp only [Option.map_some, if_pos hmem]
      rw [(npUnique_nodup sel).idxOf_getElem i hi, List.getD_eq_getElem?_getD, List.getElem?_eq_getElem (by omega)]
      rfl
    · rw [List.getElem?_eq_none (by omega), List.getElem?_eq_none (by omega)]
      rfl
  · intro c _
    dsimp only
    by_cases hc : c ∈ sel
    · rw [if_pos hc]
      have hc' := mem_npUnique.2 hc
      obtain ⟨o, ho, h1, h2⟩ := hget ((npUnique sel).idxOf c) c (by
        rw [List.getElem?_eq_getElem (List.idxOf_lt_length_iff.2 hc'), List.getElem_idxOf])
      rw [List.getD_eq_getElem?_getD, ho]
      exact ⟨h1, h2⟩
    · rw [if_neg hc, List.count_eq_zero_of_not_mem hc]
      simp

theorem sampleInClusters_ok {ss : SSParams} {vol : List Row → ℚ} {drs : Nat → Draws} {d : Nat}
    {task : Nat → Res ClusterTask} {sel : List Nat} (hne : sel ≠ [])
    (h : ∀ c i, c ∈ sel → ∃ t, task c = .ok t ∧ ∃ out,
      sampleSimplex ss vol (drs i) d t.rows t.indices t.k (sel.count c) t.args = .ok out) :
    ∃ out, sampleInClusters ss vol drs d task sel = .ok out := by
  unfold sampleInClusters
  obtain ⟨pl, hpl⟩ := mapM_exists_ok (l := (npUniqueCounts sel).zipIdx) (f := fun p => do
    let t ← task p.1.1
    sampleSimplex ss vol (drs p.2) d t.rows t.indices t.k p.1.2 t.args) (by
      rintro ⟨⟨c, k⟩, i⟩ hp
      have hp' := List.mem_zipIdx_iff_getElem?.1 hp
      have hm := List.mem_of_getElem? hp'
      simp only [npUniqueCounts, List.mem_map, Prod.mk.injEq] at hm
      obtain ⟨c', hc', rfl, rfl⟩ := hm
      obtain ⟨t, ht, o, ho⟩ := h c' i (mem_npUnique.1 hc')
      exact ⟨o, by dsimp only; rw [ht, ok_bind]; exact ho⟩)
  rw [hpl, ok_bind]
  have : pl.length ≠ 0 := by
    rw [mapM_ok_length hpl]
    simp only [npUniqueCounts, List.length_zipIdx, List.length_map]
    intro h0
    apply hne
    rw [List.length_eq_zero_iff] at h0
    rw [List.eq_nil_iff_forall_not_mem]
    intro c hc
    have := mem_npUnique.2 hc
    rw [h0] at this
    simp at this
  rw [if_neg this]
  exact ⟨_, rfl⟩

/-- `V[np.where(labels == c)[0]]` are the entries labelled `c`. -/
theorem takeRows_labelPositions {α : Type} {V : List α} {labels : List Int} (h : V.length = labels.length) (c : Int) :
    takeRows V (labelPositions labels c) = .ok (classRows V labels c) := by
  unfold takeRows
  rw [mapM_ok_iff]
  unfold labelPositions classRows
  have key : ∀ (V : List α) (labels full : List Int) (fullV : List α) (s : Nat), V.length = labels.length →
      full.drop s = labels → fullV.drop s = V →
      List.Forall₂ (fun i r => getRow fullV i = .ok r)
        ((List.range' s labels.length).filter (fun i => decide (full[i]? = some c)))
        (((V.zip labels).filter (fun p => decide (p.2 = c))).map Prod.fst) := by
    intro V
    induction V with
    | nil =>
      intro labels full fullV s hl h1 h2
      have : labels = [] := List.length_eq_zero_iff.1 (by simpa using hl.symm)
      subst this
      exact .nil
    | cons v V ih =>
      intro labels full fullV s hl h1 h2
      cases labels with
      | nil => simp at hl
      | cons l labels =>
        have hl1 : full[s]? = some l := by
          have := congrArg (fun z => z[0]?) h1
          simpa using this
        have hv1 : fullV[s]? = some v := by
          have := congrArg (fun z => z[0]?) h2
          simpa using this
        have ih' := ih labels full fullV (s + 1) (by simpa using hl)
          (by have := congrArg (List.drop 1) h1; simpa [Nat.add_comm] using this)
          (by have := congrArg (List.drop 1) h2; simpa [Nat.add_comm] using this)
        rw [List.length_cons, List.range'_succ, List.zip_cons_cons, List.filter_cons, List.filter_cons, hl1]
        by_cases hc : l = c
        · simp only [hc, decide_true, if_true, List.map_cons]
          exact .cons (getRow_ok.2 hv1) ih'
        · simp only [Option.some.injEq, hc, decide_false, Bool.false_eq_true, if_false]
          exact ih'
  have := key V labels labels V 0 h rfl rfl
  rwa [← List.range_eq_range'] at this

/-- Selecting by a mask and then taking the rows is taking the rows and then selecting. -/
theorem takeRows_classRows {α : Type} {V R : List α} {idx : List Nat} {ls : List Int} (h : takeRows V idx = .ok R) (a : Int) :
    takeRows V (classRows idx ls a) = .ok (classRows R ls a) := by
  unfold takeRows at h ⊢
  rw [mapM_ok_iff] at h ⊢
  unfold classRows
  induction h generalizing ls with
  | nil => simp
  | @cons i r idx R hir _ ih =>
    cases ls with
    | nil => simp
    | cons l ls =>
      rw [List.zip_cons_cons, List.zip_cons_cons, List.filter_cons, List.filter_cons]
      by_cases hl : l = a
      · simp only [hl, decide_true, if_true, List.map_cons]
        exact .cons hir ih
      · simp only [hl, decide_false, Bool.false_eq_true, if_false]
        exact ih

theorem classRows_length_eq {α β : Type} {V : List α} {W : List β} {labels : List Int} (h : V.length = W.length) (c : Int) :
    (classRows V labels c).length = (classRows W labels c).length := by
  unfold classRows
  induction V generalizing W labels with
  | nil =>
    have : W = [] := List.length_eq_zero_iff.1 (by simpa using h.symm)
    subst this; rfl
  | cons v V ih =>
    cases W with
    | nil => simp at h
    | cons w W =>
      cases labels with
      | nil => rfl
      | cons l labels =>
        have := ih (W := W) (labels := labels) (by simpa using h)
        simp only [List.length_map] at this ⊢
        rw [List.zip_cons_cons, List.zip_cons_cons, List.filter_cons, List.filter_cons]
        by_cases hl : l = c
        · simp [hl, this]
        · simp [hl, this]

theorem classRows_length {α : Type} {V : List α} {y : List Int} (h : V.length = y.length) (l : Int) :
    (classRows V y l).length = y.count l := by
  rw [← selectLabel_eq_classRows]; exact selectLabel_length h l

theorem mem_of_mem_classRows {α : Type} {V : List α} {y : List Int} {l : Int} {v : α} (h : v ∈ classRows V y l) : v ∈ V := by
  rw [← selectLabel_eq_classRows] at h; exact selectLabel_mem h

theorem mem_of_mem_clusterRows {X : List Row} {y labels : List Int} {a c : Int} {r : Row} (h : r ∈ clusterRows X y labels a c) :
    r ∈ X := mem_of_mem_classRows (mem_of_mem_classRows h)

/-- The shares are what `fix_density` computes from finite entries. -/
theorem fixDensity_fin (l : List ℚ) : fixDensity (l.map XF.fin) = shares l := by
  unfold fixDensity shares
  have : (l.map XF.fin).map XF.toNum = l := by
    rw [List.map_map]; simp [Function.comp_def, XF.toNum]
  simp only [this, List.length_map]
  split
  · rw [List.map_replicate, List.sum_replicate]; simp
  · rfl

theorem npChoice_drawn {m n : Nat} {w : List ℚ} {u : Nat → ℚ} {sel : List Nat} (hu : ∀ i, 0 ≤ u i ∧ u i < 1)
    (h : npChoice m n w u = .ok sel) : DrawnByShares w u n sel := by
  unfold npChoice at h
  split at h
  · cases h
  split at h
  · cases h
  split at h
  · cases h
  rename_i h1
  injection h with h
  subst h
  refine ⟨by simp, fun i c hc => ?_⟩
  rw [List.getElem?_map, Option.map_eq_some_iff] at hc
  obtain ⟨j, hj, rfl⟩ := hc
  have hj' : j = i := by
    obtain ⟨hlt, hji⟩ := List.getElem?_eq_some_iff.1 hj
    rw [← hji, List.getElem_range]
  subst hj'
  obtain ⟨w', hw, _, h2, h3⟩ := choiceIdx_spec (not_not.1 h1) (hu j).1 (hu j).2
  exact ⟨(List.getElem?_eq_some_iff.1 hw).1, h2, h3⟩

/-- The number of distinct rows excluded, the sum of all distances is the sum over pairs of different positions. -/
theorem sum_filter_ne {l : List Nat} (hl : l.Nodup) {i : Nat} (hi : i ∈ l) (f : Nat → ℚ) :
    ((l.filter (fun j => decide (j ≠ i))).map f).sum = (l.map f).sum - f i := by
  induction l with
  | nil => simp at hi
  | cons a l ih =>
    rw [List.nodup_cons] at hl
    rw [List.filter_cons]
    rcases List.mem_cons.1 hi with rfl | hi
    · have : l.filter (fun j => decide (j ≠ i)) = l := by
        rw [List.filter_eq_self]; intro j hj; simp; rintro rfl; exact hl.1 hj
      simp only [ne_eq, not_true_eq_false, decide_false, Bool.false_eq_true, if_false] at this ⊢
      rw [this]; simp
    · have hne : a ≠ i := by rintro rfl; exact hl.1 hi
      have := ih hl.2 hi
      simp only [hne, ne_eq, not_false_eq_true, decide_true, if_true, List.map_cons, List.sum_cons] at this ⊢
      rw [this]; ring

theorem map_range_getD {α β : Type} (l : List α) (dflt : α) (f : α → β) :
    (List.range l.length).map (fun i => f (l.getD i dflt)) = l.map f := by
  apply List.ext_getElem?
  intro i
  rw [List.getElem?_map, List.getElem?_map]
  by_cases hi : i < l.length
  · rw [List.getElem?_range hi, List.getElem?_eq_getElem hi]
    simp [List.getD_eq_getElem?_getD, hi]
  · rw [List.getElem?_eq_none (by simpa using hi), List.getElem?_eq_none (by omega)]
    rfl

theorem clusterSparsity_eq (pdist : Row → Row → ℚ) (d : Nat) (rows : List Row) :
    clusterSparsity pdist d rows = meanPairDist pdist rows ^ d / (rows.length : ℚ) := by
  unfold clusterSparsity meanPairDist
  have hsum : ((List.range rows.length).map (fun i => (((List.range rows.length).filter (fun j => decide (j ≠ i))).map
      (fun j => pdist (rows.getD i []) (rows.getD j []))).sum)).sum =
      (rows.map (fun p => (rows.map (fun q => pdist p q)).sum)).sum - (rows.map (fun p => pdist p p)).sum := by
    have h1 : ∀ i ∈ List.range rows.length, (((List.range rows.length).filter (fun j => decide (j ≠ i))).map
        (fun j => pdist (rows.getD i []) (rows.getD j []))).sum =
        (fun p => (rows.map (fun q => pdist p q)).sum - pdist p p) (rows.getD i []) := by
      intro i hi
      rw [sum_filter_ne List.nodup_range hi, map_range_getD rows [] (fun q => pdist (rows.getD i []) q)]
    rw [List.map_congr_left h1, map_range_getD rows [] (fun p => (rows.map (fun q => pdist p q)).sum - pdist p p)]
    have : ∀ (l : List Row), (l.map (fun p => (rows.map (fun q => pdist p q)).sum - pdist p p)).sum =
        (l.map (fun p => (rows.map (fun q => pdist p q)).sum)).sum - (l.map (fun p => pdist p p)).sum := by
      intro l
      induction l with
      | nil => simp
      | cons a l ih => simp only [List.map_cons, List.sum_cons, ih]; ring
    exact this rows
  simp only [hsum]
  congr 3
  ring

end Verif

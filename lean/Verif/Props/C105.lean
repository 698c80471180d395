import Verif.Props.C104

/-!
# C105: Assembled_SMOTE

The minority rows with a row of another class nearby (the border) are merged into groups; the others are one group. New rows are made
within the groups, which are drawn in proportion to their sizes.
-/

namespace Verif

/-! ## Specification -/

/-- Minority row `i` is on the border: one of the rows listed for it is not a minority row. -/
def OnBorder (knn : Nat → List Row → List Row → List (List Nat)) (k : Nat) (X : List Row) (y : List Int) (a : Int) (i : Nat) : Prop :=
  ∃ j ∈ (knn (min X.length (k + 1)) X (classRows X y a)).getD i [], y.getD j 0 ≠ a

instance (knn : Nat → List Row → List Row → List (List Nat)) (k : Nat) (X : List Row) (y : List Int) (a : Int) (i : Nat) :
    Decidable (OnBorder knn k X y a i) := by unfold OnBorder; infer_instance

/-- The minority rows on the border. -/
def borderRows (knn : Nat → List Row → List Row → List (List Nat)) (k : Nat) (X : List Row) (y : List Int) (a : Int) : List Row :=
  ((List.range (classRows X y a).length).filter (fun i => decide (OnBorder knn k X y a i))).map (fun i => (classRows X y a).getD i [])

/-- The minority rows which are not on the border. -/
def innerRows (knn : Nat → List Row → List Row → List (List Nat)) (k : Nat) (X : List Row) (y : List Int) (a : Int) : List Row :=
  ((List.range (classRows X y a).length).filter (fun i => decide (¬ OnBorder knn k X y a i))).map (fun i => (classRows X y a).getD i [])

/-- The groups: those of the border, followed by the other rows if there are any. -/
def assembledGroups (border inner : List Row) (clusters : List (List Nat)) : List (List Row) :=
  clusters.map (fun c => c.map (fun i => border.getD i [])) ++ if inner = [] then [] else [inner]

/-! ## Proofs -/

theorem count_all_iff {l : List Int} {a : Int} : l.count a = l.length ↔ ∀ b ∈ l, b = a := by
  rw [List.count_eq_length]
  exact ⟨fun h b hb => (h b hb).symm, fun h b hb => (h b hb).symm⟩

theorem assembledBorder_eq {knn : Nat → List Row → List Row → List (List Nat)} (hk : KnnQueryOK knn) {k : Nat} {X : List Row}
    {y : List Int} {a : Int} (hl : X.length = y.length) :
    assembledBorder k knn X y a (classRows X y a) =
      .ok ((List.range (classRows X y a).length).map (fun i => decide (OnBorder knn k X y a i))) := by
  obtain ⟨q1, q2⟩ := hk (min X.length (k + 1)) X (classRows X y a) (Nat.min_le_left _ _)
  unfold assembledBorder
  rw [mapM_ok_of (g := fun row : List Nat => decide (∃ j ∈ row, y.getD j 0 ≠ a))]
  · congr 1
    apply List.ext_getElem
    · rw [List.length_map, q1, List.length_map, List.length_range]
    · intro i h1 h2
      rw [List.length_map] at h1
      simp only [List.getElem_map, List.getElem_range]
      apply decide_eq_decide.2
      unfold OnBorder
      rw [List.getD_eq_getElem?_getD, List.getElem?_eq_getElem h1]
      rfl
  · intro row hrow
    obtain ⟨h1, h2⟩ := q2 row hrow
    rw [takeRows_map_getD 0 (fun j hj => by rw [← hl]; exact h2 j hj), ok_bind]
    apply pure_ok.2
    rw [← decide_not]
    apply decide_eq_decide.2
    have hml : (row.map (fun j => y.getD j 0)).length = min X.length (k + 1) := by rw [List.length_map, h1]
    rw [← hml, count_all_iff]
    simp only [List.mem_map, forall_exists_index, and_imp, forall_apply_eq_imp_iff₂]
    push Not
    rfl

theorem zip_map_range_filter {A : List Row} (p : Nat → Bool) :
    ((A.zip ((List.range A.length).map p)).filter (fun q => q.2)).map Prod.fst =
      ((List.range A.length).filter p).map (fun i => A.getD i []) := by
  rw [zip_eq_range (by simp) [] false, List.filter_map, List.map_map]
  have : ∀ i ∈ List.range A.length, ((fun q : Row × Bool => q.2) ∘ fun i => (A.getD i [], ((List.range A.length).map p).getD i false)) i = p i := by
    intro i hi
    rw [List.mem_range] at hi
    simp only [Function.comp]
    rw [List.getD_eq_getElem?_getD, List.getElem?_map, List.getElem?_range hi]
    rfl
  rw [List.filter_congr this]
  rfl

theorem filter_nonempty {N : Nat} {clusters : List (List Nat)} (h : IsPartition N clusters) :
    clusters.filter (fun c => decide (0 < c.length)) = clusters := by
  apply List.filter_eq_self.2
  intro c hc
  rw [decide_eq_true_eq]
  exact List.length_pos_iff.2 (h.2 c hc)

theorem partition_lengths {N : Nat} {clusters : List (List Nat)} (h : IsPartition N clusters) :
    (clusters.map List.length).sum = N := by
  have := h.1.length_eq
  rwa [List.length_flatten, List.length_range] at this

theorem borderRows_mem {knn : Nat → List Row → List Row → List (List Nat)} {k : Nat} {X : List Row} {y : List Int} {a : Int} {r : Row}
    (h : r ∈ borderRows knn k X y a) : r ∈ classRows X y a := by
  obtain ⟨i, hi, rfl⟩ := List.mem_map.1 h
  have := List.mem_range.1 (List.mem_filter.1 hi).1
  rw [List.getD_eq_getElem?_getD, List.getElem?_eq_getElem this]
  exact List.getElem_mem this

theorem innerRows_mem {knn : Nat → List Row → List Row → List (List Nat)} {k : Nat} {X : List Row} {y : List Int} {a : Int} {r : Row}
    (h : r ∈ innerRows knn k X y a) : r ∈ classRows X y a := by
  obtain ⟨i, hi, rfl⟩ := List.mem_map.1 h
  have := List.mem_range.1 (List.mem_filter.1 hi).1
  rw [List.getD_eq_getElem?_getD, List.getElem?_eq_getElem this]
  exact List.getElem_mem this

theorem border_inner_length (knn : Nat → List Row → List Row → List (List Nat)) (k : Nat) (X : List Row) (y : List Int) (a : Int) :
    (borderRows knn k X y a).length + (innerRows knn k X y a).length = (classRows X y a).length := by
  unfold borderRows innerRows
  rw [List.length_map, List.length_map]
  have := List.length_eq_length_filter_add (l := List.range (classRows X y a).length) (fun i => decide (OnBorder knn k X y a i))
  rw [List.length_range] at this
  have h2 : (List.range (classRows X y a).length).filter (fun i => decide (¬ OnBorder knn k X y a i)) =
      (List.range (classRows X y a).length).filter (fun i => ! decide (OnBorder knn k X y a i)) := by
    apply List.filter_congr
    intro i _
    rw [decide_not]
  rw [h2]
  exact this.symm

theorem groups_spec {border inner : List Row} {clusters : List (List Nat)} (h : IsPartition border.length clusters) :
    (∀ g ∈ assembledGroups border inner clusters, g ≠ [] ∧ ((∀ r ∈ g, r ∈ border) ∨ g = inner)) ∧
      ((assembledGroups border inner clusters).map (fun g => (g.length : ℚ))).sum = (border.length + inner.length : Nat) := by
  constructor
  · intro g hg
    unfold assembledGroups at hg
    rcases List.mem_append.1 hg with hg | hg
    · obtain ⟨c, hc, rfl⟩ := List.mem_map.1 hg
      refine ⟨by simpa using h.2 c hc, Or.inl ?_⟩
      intro r hr
      obtain ⟨i, hi, rfl⟩ := List.mem_map.1 hr
      have := h.lt hc hi
      rw [List.getD_eq_getElem?_getD, List.getElem?_eq_getElem this]
      exact List.getElem_mem this
    · split at hg
      · simp at hg
      · rw [List.mem_singleton.1 hg]
        exact ⟨by assumption, Or.inr rfl⟩
  · have hl := partition_lengths h
    have hb : ((clusters.map (fun c => c.map (fun i => border.getD i []))).map (fun g => (g.length : ℚ))).sum = (border.length : ℚ) := by
      rw [← hl, List.map_map]
      clear hl h
      induction clusters with
      | nil => rfl
      | cons c t ih => simpa [Function.comp_def] using ih
    unfold assembledGroups
    rw [List.map_append, List.sum_append, hb, Nat.cast_add]
    congr 1
    split
    · rename_i hi; rw [hi]; simp
    · simp

/-! ## Theorems -/

/-- Assembled_SMOTE on every two-class data set. Without a minority row on the border the input is returned. Otherwise it is followed
by as many minority rows as requested. The border is divided into groups, each of at least `pop` rows if there are several; the other
minority rows are one more group. Groups are drawn in proportion to their sizes, and every draw of a group gives a convex combination of
a row and its neighbours within the group. -/
theorem C105_assembled {par : NbParams} {pop : Nat} {aligned : List Row → List Row → Bool} {vol : List Row → ℚ} {cu : Nat → ℚ}
    {drs : Nat → Draws} {d : Nat} {dist : Row → Row → ℚ} {knn : Nat → List Row → List Row → List (List Nat)} {X : List Row}
    {y : List Int} {a b : Int} (hwf : WF d X y) (hk : KnnQueryOK knn) (hcu : ∀ i, 0 ≤ cu i ∧ cu i < 1)
    (hdr : ∀ i, (drs i).OK) (hu : ∀ t i j, 0 < (drs t).simplexU i j) (hmin : IsMinority y a b) (hg : par.ss.gaussian = .none)
    (hvol : ∀ vs, 0 ≤ vol vs) (hd : 1 ≤ par.ss.nDim)
    (hmode : par.ss.simplexSampling = .random ∨ par.ss.simplexSampling = .deterministic ∨
      (par.ss.simplexSampling = .volume ∧ ∀ vs, 0 < vol vs))
    (hwi : par.ss.within = .random ∨ (par.ss.within = .deterministic ∧ par.ss.nDim ≤ 2))
    (h3 : 2 < y.count a) (hn : 0 < requested par.proportion (y.count b) (y.count a)) :
    let border := borderRows knn par.nNeighbors X y a
    let inner := innerRows knn par.nNeighbors X y a
    if border = [] then sample defaultChecks d (assembledAlg par pop aligned vol cu drs d dist knn) X y = .ok (X, y)
    else ∃ (clusters : List (List Nat)) (selected : List Nat) (new : List Row),
      sample defaultChecks d (assembledAlg par pop aligned vol cu drs d dist knn) X y =
        .ok (X ++ new, y ++ List.replicate (requested par.proportion (y.count b) (y.count a)) a) ∧
      new.length = requested par.proportion (y.count b) (y.count a) ∧
      IsPartition border.length clusters ∧ (2 ≤ clusters.length → ∀ c ∈ clusters, pop ≤ c.length) ∧
      (∀ c ∈ clusters, JoinedCluster pop
        (fun c c' => aligned (c.map (fun i => border.getD i [])) (c'.map (fun i => border.getD i []))) c) ∧
      DrawnByShares ((assembledGroups border inner clusters).map (fun g => (g.length : ℚ) / (y.count a : ℚ))) cu
        (requested par.proportion (y.count b) (y.count a)) selected ∧
      ByCluster (assembledGroups border inner clusters).length selected (fun c =>
        SimplexOf d (min par.ss.nDim (min (par.nNeighbors + 1) ((assembledGroups border inner clusters).getD c []).length))
          ((assembledGroups border inner clusters).getD c []) ((assembledGroups border inner clusters).getD c [])
          (knn (min (par.nNeighbors + 1) ((assembledGroups border inner clusters).getD c []).length)
            ((assembledGroups border inner clusters).getD c []) ((assembledGroups border inner clusters).getD c []))
          (fun _ => True)) new := by
  intro border inner
  obtain ⟨s, hs, rfl, rfl⟩ := stats_of_isMinority hmin
  obtain ⟨hm, hM, hab⟩ := stats_min_mem hs
  have hA : (classRows X y s.minLabel).length = y.count s.minLabel := classRows_length hwf.1 s.minLabel
  have hval : ∀ r : List Bool → Res (List Row × List Int), (do
      let mask ← assembledBorder par.nNeighbors knn X y s.minLabel (classRows X y s.minLabel)
      r mask) = (r ((List.range (classRows X y s.minLabel).length).map
        (fun i => decide (OnBorder knn par.nNeighbors X y s.minLabel i))) : Res (List Row × List Int)) := by
    intro r
    rw [assembledBorder_eq hk hwf.1, ok_bind]
  have hin : (((classRows X y s.minLabel).zip ((List.range (classRows X y s.minLabel).length).map
      (fun i => decide (OnBorder knn par.nNeighbors X y s.minLabel i)))).filter (fun p => ! p.2)).map Prod.fst = inner := by
    rw [zip_eq_range (by simp) [] false, List.filter_map, List.map_map]
    have : ∀ i ∈ List.range (classRows X y s.minLabel).length, ((fun q : Row × Bool => ! q.2) ∘ fun i => ((classRows X y s.minLabel).getD i [],
        ((List.range (classRows X y s.minLabel).length).map
          (fun i => decide (OnBorder knn par.nNeighbors X y s.minLabel i))).getD i false)) i =
          decide (¬ OnBorder knn par.nNeighbors X y s.minLabel i) := by
      intro i hi
      rw [List.mem_range] at hi
      simp only [Function.comp]
      rw [List.getD_eq_getElem?_getD, List.getElem?_map, List.getElem?_range hi, decide_not]
      rfl
    rw [List.filter_congr this]
    rfl
  have hbo : (((classRows X y s.minLabel).zip ((List.range (classRows X y s.minLabel).length).map
      (fun i => decide (OnBorder knn par.nNeighbors X y s.minLabel i)))).filter (fun p => p.2)).map Prod.fst = border :=
    zip_map_range_filter _
  by_cases hb : border = []
  · rw [if_pos hb, sample_default hs, if_neg (by omega)]
    unfold assembledAlg
    rw [stats_count hs hm, stats_count hs hM, detN_eq_requested, ok_bind, if_neg (by omega)]
    simp only [selectLabel_eq_classRows]
    rw [hval]
    simp only [hbo]
    rw [if_pos (by rw [hb]; rfl)]
    rfl
  rw [if_neg hb, sample_default hs, if_neg (by omega)]
  unfold assembledAlg
  rw [stats_count hs hm, stats_count hs hM, detN_eq_requested, ok_bind, if_neg (by omega)]
  simp only [selectLabel_eq_classRows]
  rw [hval]
  simp only [hbo, hin]
  have hbl := List.length_pos_iff.2 hb
  have hne : ¬ border.length = 0 := by omega
  rw [if_neg hne]
  obtain ⟨clusters, hloop, hpart, hpop, hjoin⟩ := C35_assembled border.length
    (fun i j => dist (border.getD i []) (border.getD j [])) pop
    (fun c c' => aligned (c.map (fun i => border.getD i [])) (c'.map (fun i => border.getD i [])))
  obtain ⟨hgr, hgs⟩ := groups_spec (inner := inner) hpart
  set G := assembledGroups border inner clusters with hG
  have htot : border.length + inner.length = y.count s.minLabel := by rw [← hA]; exact border_inner_length ..
  rw [htot] at hgs
  have hgm : ∀ g ∈ G, ∀ r ∈ g, r.length = d := by
    intro g hgG r hr
    rcases (hgr g hgG).2 with h | h
    · exact hwf.2 r (mem_of_mem_classRows (borderRows_mem (h r hr)))
    · rw [h] at hr
      exact hwf.2 r (mem_of_mem_classRows (innerRows_mem hr))
  have hvec : (clusters.filter (fun c => decide (0 < c.length))).mapM (takeRows border) =
      .ok (clusters.map (fun c => c.map (fun i => border.getD i []))) := by
    rw [filter_nonempty hpart]
    apply mapM_ok_of
    intro c hc
    exact takeRows_map_getD [] (fun i hi => hpart.lt hc hi)
  have hG' : (if 0 < inner.length then clusters.map (fun c => c.map (fun i => border.getD i [])) ++ [inner]
      else clusters.map (fun c => c.map (fun i => border.getD i []))) = G := by
    rw [hG]
    unfold assembledGroups
    by_cases hi : inner = []
    · rw [if_neg (by rw [hi]; simp), if_pos hi, List.append_nil]
    · rw [if_pos (List.length_pos_iff.2 hi), if_neg hi]
  have hq : (0 : ℚ) < (y.count s.minLabel : ℚ) := by
    have : 0 < y.count s.minLabel := by omega
    exact_mod_cast this
  obtain ⟨sel, out, hout, hol, hdrawn, hselp, hby⟩ := drawClusters_spec (ss := par.ss) (vol := vol) (cu := cu) (drs := drs) (d := d)
    (ws := G.map (fun v => (v.length : ℚ)))
    (T := fun c => { rows := G.getD c [], indices := knn (min (par.nNeighbors + 1) (G.getD c []).length) (G.getD c []) (G.getD c []),
                     k := min (par.nNeighbors + 1) (G.getD c []).length })
    (task := fun c => do
      let rows ← getRow G c
      return { rows := rows, indices := knn (min (par.nNeighbors + 1) rows.length) rows rows,
               k := min (par.nNeighbors + 1) rows.length })
    hn (by
      intro x hx
      obtain ⟨v, _, rfl⟩ := List.mem_map.1 hx
      exact Nat.cast_nonneg _) (by rw [hgs]; exact hq) (by
      intro c x hx hxp
      rw [List.getElem?_map, Option.map_eq_some_iff] at hx
      obtain ⟨v, hv, rfl⟩ := hx
      have hg' : G.getD c [] = v := by rw [List.getD_eq_getElem?_getD, hv]; rfl
      have hvG := List.mem_of_getElem? hv
      have hvl := List.length_pos_iff.2 (hgr v hvG).1
      obtain ⟨t1, t2⟩ := hk (min (par.nNeighbors + 1) v.length) v v (Nat.min_le_right _ _)
      rw [hg']
      constructor
      · rw [getRow_ok.2 hv, ok_bind]; rfl
      · exact ⟨hgm v hvG, (hgr v hvG).1, t2, t1, by dsimp only; omega, rfl, hmode⟩)
    hcu hdr hu hg hvol hd hwi
  refine ⟨clusters, sel, out, ?_, hol, hpart, hpop, hjoin, ?_, ?_⟩
  · rw [hloop, ok_bind]
    unfold endedLoop
    dsimp only
    rw [ok_bind, hvec, ok_bind]
    rw [hG', hout, ok_bind]
    unfold withSamples
    rw [hol]
    rfl
  · rw [shares_nonzero (by rw [hgs]; exact hq.ne'), hgs, List.map_map] at hdrawn
    exact hdrawn
  · rw [List.length_map] at hby
    exact hby.imp (fun c _ x ⟨b, base, row, nbIdx, nbrs, w, e1, _, e3⟩ => ⟨b, base, row, nbIdx, nbrs, w, e1, trivial, e3⟩)

/-- No new row mixes minority rows on the border with others: it lies in the convex hull of the ones or of the others. -/
theorem C105_apart {par : NbParams} {pop : Nat} {aligned : List Row → List Row → Bool} {vol : List Row → ℚ} {cu : Nat → ℚ}
    {drs : Nat → Draws} {d : Nat} {dist : Row → Row → ℚ} {knn : Nat → List Row → List Row → List (List Nat)} {X X' : List Row}
    {y y' : List Int} {a b : Int} (hwf : WF d X y) (hk : KnnQueryOK knn) (hcu : ∀ i, 0 ≤ cu i ∧ cu i < 1)
    (hdr : ∀ i, (drs i).OK) (hu : ∀ t i j, 0 < (drs t).simplexU i j) (hmin : IsMinority y a b) (hg : par.ss.gaussian = .none)
    (hvol : ∀ vs, 0 ≤ vol vs) (hd : 1 ≤ par.ss.nDim)
    (hmode : par.ss.simplexSampling = .random ∨ par.ss.simplexSampling = .deterministic ∨
      (par.ss.simplexSampling = .volume ∧ ∀ vs, 0 < vol vs))
    (hwi : par.ss.within = .random ∨ (par.ss.within = .deterministic ∧ par.ss.nDim ≤ 2))
    (h3 : 2 < y.count a) (hn : 0 < requested par.proportion (y.count b) (y.count a))
    (h : sample defaultChecks d (assembledAlg par pop aligned vol cu drs d dist knn) X y = .ok (X', y')) :
    ∃ new, X' = X ++ new ∧ ∀ x ∈ new, InHull d (borderRows knn par.nNeighbors X y a) x ∨ InHull d (innerRows knn par.nNeighbors X y a) x := by
  have := C105_assembled (pop := pop) (aligned := aligned) (dist := dist) hwf hk hcu hdr hu hmin hg hvol hd hmode hwi h3 hn
  dsimp only at this
  split at this
  · rw [h] at this
    injection this with this
    exact ⟨[], by rw [(Prod.mk.inj this).1]; simp, by simp⟩
  · obtain ⟨clusters, sel, new, h1, _, hpart, _, _, _, hby⟩ := this
    rw [h] at h1
    injection h1 with h1
    refine ⟨new, (Prod.mk.inj h1).1, fun x hx => ?_⟩
    obtain ⟨j, hj, _, hx⟩ := hby.mem hx
    have hmem : (assembledGroups (borderRows knn par.nNeighbors X y a) (innerRows knn par.nNeighbors X y a) clusters).getD j [] ∈
        assembledGroups (borderRows knn par.nNeighbors X y a) (innerRows knn par.nNeighbors X y a) clusters := by
      rw [List.getD_eq_getElem?_getD, List.getElem?_eq_getElem hj]
      exact List.getElem_mem hj
    rcases ((groups_spec hpart).1 _ hmem).2 with hb | hb
    · left; exact hx.inHull.mono (by intro r hr; exact hb r (by simpa using hr))
    · right; rw [hb] at hx; exact hx.inHull.mono (by intro r hr; simpa using hr)

/-! ## A concrete data set -/

/-- Two inner minority rows, two border rows on each side. -/
def asX : List Row := [[0], [1], [2], [8], [10], [11], [12], [13], [14], [15], [9]]
def asY : List Int := [1, 1, 1, 1, 0, 0, 0, 0, 0, 0, 0]

example : WF 1 asX asY ∧ IsMinority asY 1 0 ∧ KnnQueryOK bruteQuery ∧
    borderRows bruteQuery 2 asX asY 1 = [[8]] ∧ innerRows bruteQuery 2 asX asY 1 = [[0], [1], [2]] ∧
    (match sample defaultChecks 1 (assembledAlg cbPar 2 (fun _ _ => false) (fun _ => 1) (fun i => if i = 0 then 0 else 1 / 2)
        (fun _ => exDraws) 1 cbDist bruteQuery) asX asY with
     | .ok r => decide (r.1.length = 14 ∧ (r.1.drop 11).getD 0 [] = [8] ∧ ∀ x ∈ r.1.drop 12, 0 < x.getD 0 0 ∧ x.getD 0 0 < 2)
     | .error _ => false) = true := by
  refine ⟨⟨rfl, by decide⟩, ⟨by decide, by decide, by decide, Or.inl (by decide)⟩, bruteQuery_ok,
    by decide +kernel, by decide +kernel, by decide +kernel⟩

end Verif

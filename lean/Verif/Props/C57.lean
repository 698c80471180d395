import Verif.Lemmas.Clusters
import Verif.Lemmas.SmoteExample
import Verif.Props.C34

/-!
# C57: kmeans_SMOTE and cluster_SMOTE interpolate only within clusters
-/

namespace Verif

/-! ## Specification -/

/-- The clusters with at least two rows of the class `a` in which the ratio of the other class to `a` (one added to both
counts) is below `irt`. -/
def acceptedClusters (n : Nat) (irt : ℚ) (X : List Row) (y labels : List Int) (a b : Int) : List Nat :=
  (List.range n).filter (fun (c : Nat) => decide (2 ≤ (clusterRows X y labels a c).length ∧
    (((clusterRows X y labels b c).length : ℚ) + 1) / (((clusterRows X y labels a c).length : ℚ) + 1) < irt))

/-- `new` consists of the rows generated in the clusters `0, …, m - 1`, in order; cluster `j` contributes as many rows as it
was selected, all with property `P j`. -/
def ByCluster (m : Nat) (selected : List Nat) (P : Nat → Row → Prop) (new : List Row) : Prop :=
  ∃ parts : Nat → List Row, new = (List.range m).flatMap parts ∧
    ∀ j, j < m → (parts j).length = selected.count j ∧ ∀ x ∈ parts j, P j x

/-! ## Helpers -/

theorem ByCluster.mem {m : Nat} {selected : List Nat} {P : Nat → Row → Prop} {new : List Row} (h : ByCluster m selected P new)
    {x : Row} (hx : x ∈ new) : ∃ j, j < m ∧ j ∈ selected ∧ P j x := by
  obtain ⟨parts, rfl, hp⟩ := h
  obtain ⟨j, hj, hx⟩ := List.mem_flatMap.1 hx
  rw [List.mem_range] at hj
  obtain ⟨h1, h2⟩ := hp j hj
  refine ⟨j, hj, ?_, h2 x hx⟩
  have := List.length_pos_of_mem hx
  rw [h1] at this
  exact List.count_pos_iff.1 this

/-- The rows generated are as many as there are selections. -/
theorem ByCluster.length {m : Nat} {selected : List Nat} {P : Nat → Row → Prop} {new : List Row}
    (h : ByCluster m selected P new) (hs : ∀ j ∈ selected, j < m) : new.length = selected.length := by
  obtain ⟨parts, rfl, hp⟩ := h
  rw [List.length_flatMap]
  have : (List.range m).map (fun j => (parts j).length) = (List.range m).map (fun j => selected.count j) := by
    apply List.map_congr_left
    intro j hj
    exact (hp j (List.mem_range.1 hj)).1
  rw [this]
  clear this hp parts
  induction selected with
  | nil => simp
  | cons a l ih =>
    have ih' := ih (fun j hj => hs j (by simp [hj]))
    have ha := hs a (by simp)
    simp only [List.count_cons, List.length_cons]
    have key : ∀ m, ((List.range m).map (fun j => l.count j + if a == j then 1 else 0)).sum =
        ((List.range m).map (fun j => l.count j)).sum + (if a < m then 1 else 0) := by
      intro m
      induction m with
      | zero => simp
      | succ m ihm =>
        rw [List.range_succ, List.map_append, List.map_append, List.sum_append, List.sum_append, ihm]
        simp only [List.map_cons, List.map_nil, List.sum_cons, List.sum_nil, beq_iff_eq]
        split <;> split <;> split <;> omega
    rw [key, ih', if_pos ha]

theorem kmClusters_eq {n : Nat} {irt : ℚ} {maj min : Int} {X : List Row} {y labels : List Int} (hxy : X.length = y.length)
    (hl : labels.length = X.length) :
    kmClusters n irt maj min y labels =
      .ok ((acceptedClusters n irt X y labels min maj).map (fun (c : Nat) => labelPositions labels (c : Int))) := by
  unfold kmClusters
  have hkeep : ((List.range n).map (fun (c : Nat) => labelPositions labels (c : Int))).mapM (fun cluster => do
      let ls ← takeRows y cluster
      return clusterAccepted irt maj min ls) = .ok ((List.range n).map (fun (c : Nat) =>
        clusterAccepted irt maj min (classRows y labels (c : Int)))) := by
    rw [mapM_ok_iff, List.forall₂_map_left_iff, List.forall₂_map_right_iff, List.forall₂_same]
    intro c _
    rw [takeRows_labelPositions (by omega)]
    rfl
  dsimp only
  rw [hkeep, ok_bind]
  unfold acceptedClusters
  have hlen : ∀ (l c : Int), (clusterRows X y labels l c).length = (classRows y labels c).count l := by
    intro l c
    exact classRows_length (classRows_length_eq hxy c) l
  have hacc : ∀ c : Nat, clusterAccepted irt maj min (classRows y labels (c : Int)) =
      decide (2 ≤ (clusterRows X y labels min c).length ∧
        (((clusterRows X y labels maj c).length : ℚ) + 1) / (((clusterRows X y labels min c).length : ℚ) + 1) < irt) := by
    intro c
    unfold clusterAccepted
    rw [hlen, hlen, Bool.and_comm, Bool.decide_and]
    rfl
  show Except.ok _ = _
  congr 1
  simp only [hacc]
  induction List.range n with
  | nil => rfl
  | cons c l ih =>
    simp only [List.map_cons, List.zip_cons_cons, List.filter_cons]
    by_cases h : (2 ≤ (clusterRows X y labels min c).length ∧
        (((clusterRows X y labels maj c).length : ℚ) + 1) / (((clusterRows X y labels min c).length : ℚ) + 1) < irt)
    · simp only [decide_eq_true h, if_true, List.map_cons, ih]
    · simp only [decide_eq_false h, Bool.false_eq_true, if_false, ih]

theorem kmRows_eq {X : List Row} {y labels : List Int} (a : Int) (hxy : X.length = y.length) (hl : labels.length = X.length)
    (acc : List Nat) :
    (acc.map (fun (c : Nat) => labelPositions labels (c : Int))).mapM (fun cluster => do
      let ind ← clusterMinority y a cluster
      takeRows X ind) = .ok (acc.map (fun (c : Nat) => clusterRows X y labels a c)) := by
  rw [mapM_ok_iff, List.forall₂_map_left_iff, List.forall₂_map_right_iff, List.forall₂_same]
  intro c _
  unfold clusterMinority
  rw [takeRows_labelPositions (by omega), ok_bind]
  show takeRows X (selectLabel _ _ _) = _
  rw [selectLabel_eq_classRows, takeRows_classRows (takeRows_labelPositions (by omega) _)]
  rfl

theorem clusterSparsity_nonneg {pdist : Row → Row → ℚ} (h : ∀ p q, 0 ≤ pdist p q) (d : Nat) (rows : List Row) :
    0 ≤ clusterSparsity pdist d rows := by
  rw [clusterSparsity_eq]
  apply div_nonneg (pow_nonneg _ _) (by positivity)
  unfold meanPairDist
  apply div_nonneg
  · apply List.sum_nonneg
    intro x hx
    obtain ⟨i, _, rfl⟩ := List.mem_map.1 hx
    apply List.sum_nonneg
    intro x hx
    obtain ⟨j, _, rfl⟩ := List.mem_map.1 hx
    exact h _ _
  · cases rows with
    | nil => simp
    | cons r rows => simp only [List.length_cons, Nat.cast_add, Nat.cast_one]; ring_nf; positivity

/-- One cluster: what the call of `sample_simplex` gives. -/
theorem clusterTask_sound {ss : SSParams} {vol : List Row → ℚ} {dr : Draws} {d : Nat} {rows out : List Row} {k n : Nat}
    {knn : Nat → List Row → List Row → List (List Nat)} (hk : KnnQueryOK knn) (hkl : k ≤ rows.length) (hdr : dr.OK)
    (hr : ∀ r ∈ rows, r.length = d) (hg : ss.gaussian = .none) (hvol : ∀ vs, 0 ≤ vol vs)
    (h : sampleSimplex ss vol dr d rows (knn k rows rows) k n {} = .ok out) :
    out.length = n ∧ ∀ x ∈ out, SimplexOf d (min ss.nDim k) rows rows (knn k rows rows) (fun _ => True) x := by
  obtain ⟨hk1, _⟩ := hk k rows rows hkl
  obtain ⟨g1, g2⟩ := sampleSimplex_simplexOf hr (by intro V hV; cases hV) rfl (by intro hV; cases hV) hdr (by rw [hk1]) hg
    (by intro w hw; cases hw) rfl hvol h
  refine ⟨g1, fun x hx => ?_⟩
  obtain ⟨b, base, row, nbIdx, nbrs, w, h1, _, h2⟩ := g2 x hx
  exact ⟨b, base, row, nbIdx, nbrs, w, h1, trivial, h2⟩

theorem clusterTask_ok {ss : SSParams} {vol : List Row → ℚ} {dr : Draws} {d : Nat} {rows : List Row} {k n : Nat}
    {knn : Nat → List Row → List Row → List (List Nat)} (hk : KnnQueryOK knn) (hkl : k ≤ rows.length) (hk0 : 0 < k)
    (hdr : dr.OK) (hu : ∀ i j, 0 < dr.simplexU i j) (hd : 1 ≤ ss.nDim)
    (hmode : ss.simplexSampling = .random ∨ ss.simplexSampling = .deterministic ∨
      (ss.simplexSampling = .volume ∧ ∀ vs, 0 < vol vs))
    (hwi : ss.within = .random ∨ (ss.within = .deterministic ∧ ss.nDim ≤ 2)) :
    ∃ out, sampleSimplex ss vol dr d rows (knn k rows rows) k n {} = .ok out := by
  obtain ⟨hk1, hk2⟩ := hk k rows rows hkl
  exact sampleSimplex_ok hk2 (by rw [hk1]) (by intro he; rw [he, List.length_nil] at hk1; omega) (by omega) hd rfl
    (by intro ws hws; cases hws) (by intro hV; cases hV) hmode hdr.choice hu (by
      rcases hwi with h | ⟨h, h'⟩
      · exact .inl h
      · exact .inr ⟨h, by omega⟩)

/-! ## kmeans_SMOTE -/

/-- **kmeans_SMOTE.** The input comes back if no cluster is accepted. Otherwise exactly the requested number of rows is added.
The clusters are drawn with shares in proportion to `mean distance ^ d / number of minority rows`, and every new row is a
convex combination of a minority row of a drawn cluster and of minority rows of the same cluster among its
`min(n_neighbors + 1, size)` nearest. -/
theorem C57_kmeans {par : NbParams} {nClusters : Nat} {irt : ℚ} {vol : List Row → ℚ} {cu : Nat → ℚ} {drs : Nat → Draws}
    {d : Nat} {kmeans : Nat → List Row → List Int} {pdist : Row → Row → ℚ}
    {knn : Nat → List Row → List Row → List (List Nat)} {X X' : List Row} {y y' : List Int} {a b : Int} (hwf : WF d X y)
    (hkm : KmeansOK kmeans) (hk : KnnQueryOK knn) (hcu : ∀ i, 0 ≤ cu i ∧ cu i < 1) (hdr : ∀ i, (drs i).OK)
    (hmin : IsMinority y a b) (hg : par.ss.gaussian = .none) (hvol : ∀ vs, 0 ≤ vol vs)
    (h3 : 2 < y.count a) (hn : 0 < requested par.proportion (y.count b) (y.count a))
    (h : sample defaultChecks d (kmeansSmoteAlg par nClusters irt vol cu drs d kmeans pdist knn) X y = .ok (X', y')) :
    let labels := kmeans (min nClusters X.length) X
    let acc := acceptedClusters (min nClusters X.length) irt X y labels a b
    let rows := fun j : Nat => clusterRows X y labels a (acc.getD j 0 : Nat)
    let k := fun j => min (rows j).length (par.nNeighbors + 1)
    if acc = [] then X' = X ∧ y' = y
    else ∃ (selected : List Nat) (new : List Row), X' = X ++ new ∧
      y' = y ++ List.replicate (requested par.proportion (y.count b) (y.count a)) a ∧
      new.length = requested par.proportion (y.count b) (y.count a) ∧
      DrawnByShares (shares ((List.range acc.length).map (fun j => meanPairDist pdist (rows j) ^ d / ((rows j).length : ℚ))))
        cu (requested par.proportion (y.count b) (y.count a)) selected ∧
      ByCluster acc.length selected (fun j => SimplexOf d (min par.ss.nDim (k j)) (rows j) (rows j)
        (knn (k j) (rows j) (rows j)) (fun _ => True)) new := by
  obtain ⟨s, hs, rfl, rfl⟩ := stats_of_isMinority hmin
  obtain ⟨hm, hM, _⟩ := stats_min_mem hs
  intro labels acc rows k
  rw [sample_default hs, if_neg (by omega)] at h
  unfold kmeansSmoteAlg at h
  rw [stats_count hs hm, stats_count hs hM, detN_eq_requested, ok_bind, if_neg (by omega)] at h
  dsimp only at h
  rw [kmClusters_eq (X := X) hwf.1 (hkm _ _), ok_bind] at h
  change (if (acc.map _).length = 0 then _ else _) = _ at h
  by_cases hacc : acc = []
  · rw [if_pos hacc]
    rw [if_pos (by rw [hacc]; rfl)] at h
    obtain ⟨rfl, rfl⟩ := Prod.mk.inj (pure_ok.1 h)
    exact ⟨rfl, rfl⟩
  rw [if_neg hacc]
  rw [if_neg (by simpa using hacc)] at h
  change ((acc.map _).mapM _ >>= _) = _ at h
  rw [kmRows_eq s.minLabel hwf.1 (hkm _ _), ok_bind] at h
  have hw : (acc.map (fun (c : Nat) => clusterRows X y labels s.minLabel c)).map
      (fun r => XF.fin (clusterSparsity pdist d r)) = ((List.range acc.length).map
        (fun j => meanPairDist pdist (rows j) ^ d / ((rows j).length : ℚ))).map XF.fin := by
    have : (List.range acc.length).map (fun j => meanPairDist pdist (rows j) ^ d / ((rows j).length : ℚ)) =
        acc.map (fun (c : Nat) => clusterSparsity pdist d (clusterRows X y labels s.minLabel c)) := by
      rw [← map_range_getD acc 0 (fun (c : Nat) => clusterSparsity pdist d (clusterRows X y labels s.minLabel c))]
      apply List.map_congr_left
      intro j _
      rw [clusterSparsity_eq]
    rw [this, List.map_map, List.map_map]
    rfl
  change (npChoice (fixDensity ((acc.map (fun (c : Nat) => clusterRows X y labels s.minLabel c)).map _)).length _ _ _ >>= _) = _ at h
  rw [hw, fixDensity_fin] at h
  obtain ⟨selected, hsel, h⟩ := bind_ok.1 h
  obtain ⟨out, hout, h⟩ := bind_ok.1 h
  have h := pure_ok.1 h
  have hdrawn := npChoice_drawn hcu hsel
  have hlt : ∀ c ∈ selected, c < acc.length := by
    intro c hc
    obtain ⟨i, hi⟩ := List.mem_iff_getElem?.1 hc
    have := (hdrawn.2 i c hi).1
    have hl : ∀ l : List ℚ, (shares l).length = l.length := by
      intro l; unfold shares; split <;> simp
    rw [hl] at this
    simpa using this
  have hby := sampleInClusters_sound (m := acc.length)
    (P := fun j => SimplexOf d (min par.ss.nDim (k j)) (rows j) (rows j) (knn (k j) (rows j) (rows j)) (fun _ => True))
    hlt (by
      intro c t i o hc ht ho
      obtain ⟨r, hr, ht⟩ := bind_ok.1 ht
      have ht := pure_ok.1 ht
      have hrc : r = rows c := by
        have := getRow_ok.1 hr
        rw [List.getElem?_map, List.getElem?_eq_getElem (hlt c hc)] at this
        simp only [Option.map_some, Option.some.injEq] at this
        rw [← this]
        show _ = clusterRows X y labels s.minLabel (acc.getD c 0 : Nat)
        rw [List.getD_eq_getElem?_getD, List.getElem?_eq_getElem (hlt c hc)]
        rfl
      subst ht
      subst hrc
      exact clusterTask_sound hk (Nat.min_le_left _ _) (hdr i) (fun r hr => hwf.2 r (mem_of_mem_clusterRows hr)) hg hvol ho) hout
  have hlen := ByCluster.length hby hlt
  rw [hdrawn.1] at hlen
  unfold withSamples at h
  obtain ⟨rfl, rfl⟩ := Prod.mk.inj h
  exact ⟨selected, out, rfl, by rw [hlen], hlen, hdrawn, hby⟩

/-- Every new row of kmeans_SMOTE is in the hull of the minority rows of one accepted cluster. -/
theorem C57_kmeans_hull {par : NbParams} {nClusters : Nat} {irt : ℚ} {vol : List Row → ℚ} {cu : Nat → ℚ} {drs : Nat → Draws}
    {d : Nat} {kmeans : Nat → List Row → List Int} {pdist : Row → Row → ℚ}
    {knn : Nat → List Row → List Row → List (List Nat)} {X X' : List Row} {y y' : List Int} {a b : Int} (hwf : WF d X y)
    (hkm : KmeansOK kmeans) (hk : KnnQueryOK knn) (hcu : ∀ i, 0 ≤ cu i ∧ cu i < 1) (hdr : ∀ i, (drs i).OK)
    (hmin : IsMinority y a b) (hg : par.ss.gaussian = .none) (hvol : ∀ vs, 0 ≤ vol vs)
    (h3 : 2 < y.count a) (hn : 0 < requested par.proportion (y.count b) (y.count a))
    (h : sample defaultChecks d (kmeansSmoteAlg par nClusters irt vol cu drs d kmeans pdist knn) X y = .ok (X', y')) :
    ∃ new, X' = X ++ new ∧ ∀ x ∈ new,
      ∃ c ∈ acceptedClusters (min nClusters X.length) irt X y (kmeans (min nClusters X.length) X) a b,
        InHull d (clusterRows X y (kmeans (min nClusters X.length) X) a c) x := by
  have := C57_kmeans hwf hkm hk hcu hdr hmin hg hvol h3 hn h
  dsimp only at this
  split at this
  · exact ⟨[], by simp [this.1], by simp⟩
  · obtain ⟨sel, new, h1, _, _, _, hby⟩ := this
    refine ⟨new, h1, fun x hx => ?_⟩
    obtain ⟨j, hj, _, hx⟩ := hby.mem hx
    refine ⟨(acceptedClusters (min nClusters X.length) irt X y (kmeans (min nClusters X.length) X) a b).getD j 0, ?_, ?_⟩
    · rw [List.getD_eq_getElem?_getD, List.getElem?_eq_getElem hj]
      exact List.getElem_mem hj
    · exact hx.inHull.mono (by intro r hr; simpa using hr)

/-- kmeans_SMOTE returns on every two-class data set. -/
theorem C57_kmeans_total {par : NbParams} {nClusters : Nat} {irt : ℚ} {vol : List Row → ℚ} {cu : Nat → ℚ} {drs : Nat → Draws}
    {d : Nat} {kmeans : Nat → List Row → List Int} {pdist : Row → Row → ℚ}
    {knn : Nat → List Row → List Row → List (List Nat)} {X : List Row} {y : List Int} {a b : Int} (hwf : WF d X y)
    (hkm : KmeansOK kmeans) (hk : KnnQueryOK knn) (hcu : ∀ i, 0 ≤ cu i ∧ cu i < 1) (hdr : ∀ i, (drs i).OK)
    (hu : ∀ t i j, 0 < (drs t).simplexU i j) (hmin : IsMinority y a b) (hpd : ∀ p q, 0 ≤ pdist p q) (hd : 1 ≤ par.ss.nDim)
    (hmode : par.ss.simplexSampling = .random ∨ par.ss.simplexSampling = .deterministic ∨
      (par.ss.simplexSampling = .volume ∧ ∀ vs, 0 < vol vs))
    (hwi : par.ss.within = .random ∨ (par.ss.within = .deterministic ∧ par.ss.nDim ≤ 2)) :
    ∃ r, sample defaultChecks d (kmeansSmoteAlg par nClusters irt vol cu drs d kmeans pdist knn) X y = .ok r := by
  obtain ⟨s, hs, rfl, rfl⟩ := stats_of_isMinority hmin
  obtain ⟨hm, hM, _⟩ := stats_min_mem hs
  rw [sample_default hs]
  split
  · exact ⟨_, rfl⟩
  unfold kmeansSmoteAlg
  rw [stats_count hs hm, stats_count hs hM, detN_eq_requested, ok_bind]
  dsimp only
  split
  · exact ⟨_, rfl⟩
  rename_i hn
  rw [kmClusters_eq (X := X) hwf.1 (hkm _ _), ok_bind]
  set acc := acceptedClusters (min nClusters X.length) irt X y (kmeans (min nClusters X.length) X) s.minLabel s.majLabel with hacc
  split
  · exact ⟨_, rfl⟩
  rename_i hne
  rw [kmRows_eq s.minLabel hwf.1 (hkm _ _), ok_bind]
  set rows := acc.map (fun (c : Nat) => clusterRows X y (kmeans (min nClusters X.length) X) s.minLabel c) with hrows
  obtain ⟨w1, w2, w3⟩ := C09_distribution (l := rows.map (fun r => XF.fin (clusterSparsity pdist d r)))
    (by intro h0; apply hne; rw [List.map_eq_nil_iff, hrows, List.map_eq_nil_iff] at h0; rw [h0]; rfl) (by
      intro q hq
      obtain ⟨r, _, hr⟩ := List.mem_map.1 hq
      injection hr with hr
      rw [← hr]
      exact clusterSparsity_nonneg hpd d r)
  obtain ⟨sel, hsel, hl, hmem⟩ := npChoice_ok (n := requested par.proportion (y.count s.majLabel) (y.count s.minLabel)) rfl w2 w3 hcu
  rw [hsel, ok_bind]
  obtain ⟨out, hout⟩ := sampleInClusters_ok (ss := par.ss) (vol := vol) (drs := drs) (d := d) (sel := sel)
    (task := fun c => do
      let r ← getRow rows c
      let k := min r.length (par.nNeighbors + 1)
      return { rows := r, indices := knn k r r, k := k })
    (by intro h0; rw [h0] at hl; exact hn hl.symm) (by
      intro c i hc
      obtain ⟨x, hx, _⟩ := hmem c hc
      have hc' : c < rows.length := by
        have := (List.getElem?_eq_some_iff.1 hx).1
        rw [w1] at this
        simpa using this
      refine ⟨_, by rw [getRow_lt hc', ok_bind]; rfl, ?_⟩
      have hr2 : 2 ≤ (rows[c]).length := by
        have hin : ∀ r ∈ rows, r ∈ acc.map
            (fun (c : Nat) => clusterRows X y (kmeans (min nClusters X.length) X) s.minLabel c) := by
          intro r hr; rw [← hrows]; exact hr
        obtain ⟨c', hc'', he⟩ := List.mem_map.1 (hin _ (List.getElem_mem hc'))
        rw [hacc] at hc''
        simp only [acceptedClusters, List.mem_filter, decide_eq_true_eq] at hc''
        have h2 := hc''.2.1
        rw [he] at h2
        exact h2
      exact clusterTask_ok hk (Nat.min_le_left _ _) (by omega) (hdr i) (hu i) hd hmode hwi)
  rw [hout]
  exact ⟨_, rfl⟩

/-! ## cluster_SMOTE -/

/-- **cluster_SMOTE.** The input comes back if no cluster of the minority has two rows. Otherwise exactly the requested number of
rows is added, for each of the clusters drawn; every new row is a convex combination of a row of the cluster and of rows of the
same cluster which follow it among its `min(n_neighbors, size)` nearest (the row itself counts as one of them). -/
theorem C57_cluster {par : NbParams} {nClusters : Nat} {vol : List Row → ℚ} {pick : Nat → Nat → List Nat} {drs : Nat → Draws}
    {d : Nat} {kmeans : Nat → List Row → List Int} {knn : Nat → List Row → List Row → List (List Nat)} {X X' : List Row}
    {y y' : List Int} {a b : Int} (hwf : WF d X y) (hkm : KmeansOK kmeans) (hk : KnnQueryOK knn) (hp : PickOK pick)
    (hdr : ∀ i, (drs i).OK) (hmin : IsMinority y a b) (hg : par.ss.gaussian = .none) (hvol : ∀ vs, 0 ≤ vol vs)
    (h3 : 2 < y.count a) (hn : 0 < requested par.proportion (y.count b) (y.count a))
    (h : sample defaultChecks d (clusterSmoteAlg par nClusters vol pick drs d kmeans knn) X y = .ok (X', y')) :
    let A := classRows X y a
    let labels := kmeans (min A.length nClusters) A
    let us := npUnique labels
    let rows := fun j : Nat => classRows A labels (us.getD j 0)
    let k := fun j => min par.nNeighbors (rows j).length
    if ∀ c ∈ labels, (classRows A labels c).length ≤ 1 then X' = X ∧ y' = y
    else ∃ new : List Row, X' = X ++ new ∧
      y' = y ++ List.replicate (requested par.proportion (y.count b) (y.count a)) a ∧
      new.length = requested par.proportion (y.count b) (y.count a) ∧
      ByCluster us.length (pick us.length (requested par.proportion (y.count b) (y.count a)))
        (fun j => SimplexOf d (min par.ss.nDim (k j)) (rows j) (rows j) (knn (k j) (rows j) (rows j)) (fun _ => True)) new := by
  obtain ⟨s, hs, rfl, rfl⟩ := stats_of_isMinority hmin
  obtain ⟨hm, hM, _⟩ := stats_min_mem hs
  intro A labels us rows k
  have hAl : A.length = y.count s.minLabel := classRows_length hwf.1 _
  have hll : labels.length = A.length := hkm _ _
  have hune : us ≠ [] := by
    intro h0
    have : labels ≠ [] := by intro h1; rw [h1, List.length_nil] at hll; omega
    obtain ⟨c, hc⟩ := List.exists_mem_of_ne_nil _ this
    have := mem_npUnique.2 hc
    rw [show npUnique labels = [] from h0] at this
    simp at this
  have hul : 0 < us.length := List.length_pos_iff.2 hune
  rw [sample_default hs, if_neg (by omega)] at h
  unfold clusterSmoteAlg at h
  rw [stats_count hs hm, stats_count hs hM, detN_eq_requested, ok_bind, if_neg (by omega)] at h
  simp only [selectLabel_eq_classRows] at h
  change (if (us.map (fun c => labelPositions labels c)).length = 0 then _ else _) = _ at h
  rw [if_neg (by rw [List.length_map]; omega)] at h
  have hlp : ∀ c, (labelPositions labels c).length = (classRows A labels c).length := by
    intro c
    exact (takeRows_length (takeRows_labelPositions hll.symm c)).symm
  have hall : (us.map (fun c => labelPositions labels c)).all (fun c => decide (c.length ≤ 1)) = true ↔
      ∀ c ∈ labels, (classRows A labels c).length ≤ 1 := by
    rw [List.all_eq_true]
    simp only [List.mem_map, decide_eq_true_eq, forall_exists_index, and_imp, forall_apply_eq_imp_iff₂, hlp]
    exact ⟨fun h c hc => h c (mem_npUnique.2 hc), fun h c hc => h c (mem_npUnique.1 hc)⟩
  change (if (us.map (fun c => labelPositions labels c)).all (fun c => decide (c.length ≤ 1)) = true then _ else _) = _ at h
  by_cases hsmall : ∀ c ∈ labels, (classRows A labels c).length ≤ 1
  · rw [if_pos hsmall]
    rw [if_pos (hall.2 hsmall)] at h
    obtain ⟨rfl, rfl⟩ := Prod.mk.inj (pure_ok.1 h)
    exact ⟨rfl, rfl⟩
  rw [if_neg hsmall]
  rw [if_neg (fun h => hsmall (hall.1 h))] at h
  have hrows : (us.map (fun c => labelPositions labels c)).mapM (fun c => takeRows A c) =
      .ok (us.map (fun c => classRows A labels c)) := by
    rw [mapM_ok_iff, List.forall₂_map_left_iff, List.forall₂_map_right_iff, List.forall₂_same]
    intro c _
    exact takeRows_labelPositions hll.symm c
  change ((us.map (fun c => labelPositions labels c)).mapM (fun c => takeRows A c) >>= _) = _ at h
  rw [hrows, ok_bind] at h
  simp only [List.length_map] at h
  obtain ⟨out, hout, h⟩ := bind_ok.1 h
  have h := pure_ok.1 h
  obtain ⟨hpl, hplt⟩ := hp us.length (requested par.proportion (y.count s.majLabel) (y.count s.minLabel)) hul
  have hby := sampleInClusters_sound (m := us.length)
    (P := fun j => SimplexOf d (min par.ss.nDim (k j)) (rows j) (rows j) (knn (k j) (rows j) (rows j)) (fun _ => True))
    hplt (by
      intro c t i o hc ht ho
      obtain ⟨r, hr, ht⟩ := bind_ok.1 ht
      have ht := pure_ok.1 ht
      have hrc : r = rows c := by
        have := getRow_ok.1 hr
        rw [List.getElem?_map, List.getElem?_eq_getElem (hplt c hc)] at this
        simp only [Option.map_some, Option.some.injEq] at this
        rw [← this]
        show _ = classRows A labels (us.getD c 0)
        rw [List.getD_eq_getElem?_getD, List.getElem?_eq_getElem (hplt c hc)]
        rfl
      subst ht
      subst hrc
      exact clusterTask_sound hk (Nat.min_le_right _ _) (hdr i)
        (fun r hr => hwf.2 r (mem_of_mem_classRows (mem_of_mem_classRows hr))) hg hvol ho) hout
  have hlen := ByCluster.length hby hplt
  rw [hpl] at hlen
  unfold withSamples at h
  obtain ⟨rfl, rfl⟩ := Prod.mk.inj h
  exact ⟨out, rfl, by rw [hlen], hlen, hby⟩

/-- With `n_neighbors = 1`, which the constructor accepts, cluster_SMOTE only duplicates minority rows. (kmeans_SMOTE and SMOTE
ask for one neighbour more and do not.) -/
theorem C57_cluster_one_neighbour {par : NbParams} {nClusters : Nat} {vol : List Row → ℚ} {pick : Nat → Nat → List Nat}
    {drs : Nat → Draws} {d : Nat} {kmeans : Nat → List Row → List Int}
    {knn : Nat → List Row → List Row → List (List Nat)} {X X' : List Row} {y y' : List Int} {a b : Int} (hwf : WF d X y)
    (hkm : KmeansOK kmeans) (hk : KnnQueryOK knn) (hp : PickOK pick) (hdr : ∀ i, (drs i).OK) (hmin : IsMinority y a b)
    (hg : par.ss.gaussian = .none) (hvol : ∀ vs, 0 ≤ vol vs) (hd : 1 ≤ par.ss.nDim) (h3 : 2 < y.count a)
    (hn : 0 < requested par.proportion (y.count b) (y.count a)) (h1 : par.nNeighbors = 1)
    (h : sample defaultChecks d (clusterSmoteAlg par nClusters vol pick drs d kmeans knn) X y = .ok (X', y')) :
    ∃ new, X' = X ++ new ∧ ∀ x ∈ new, x ∈ classRows X y a := by
  have := C57_cluster hwf hkm hk hp hdr hmin hg hvol h3 hn h
  dsimp only at this
  split at this
  · exact ⟨[], by simp [this.1], by simp⟩
  · obtain ⟨new, h2, _, _, hby⟩ := this
    refine ⟨new, h2, fun x hx => ?_⟩
    obtain ⟨j, hj, _, hx⟩ := hby.mem hx
    have hmem : (npUnique (kmeans (min (classRows X y a).length nClusters) (classRows X y a))).getD j 0 ∈
        kmeans (min (classRows X y a).length nClusters) (classRows X y a) := by
      rw [List.getD_eq_getElem?_getD, List.getElem?_eq_getElem hj]
      exact mem_npUnique.1 (List.getElem_mem hj)
    have hpos := List.length_pos_iff.2 (classRows_ne_nil (X := classRows X y a) (hkm _ _).symm hmem)
    rw [h1, show min 1 (classRows (classRows X y a) (kmeans (min (classRows X y a).length nClusters) (classRows X y a))
      ((npUnique (kmeans (min (classRows X y a).length nClusters) (classRows X y a))).getD j 0)).length = 1 by omega,
      show min par.ss.nDim 1 = 1 by omega] at hx
    exact mem_of_mem_classRows (hx.copy (fun r hr => hwf.2 r (mem_of_mem_classRows (mem_of_mem_classRows hr))))

/-- cluster_SMOTE returns on every two-class data set. -/
theorem C57_cluster_total {par : NbParams} {nClusters : Nat} {vol : List Row → ℚ} {pick : Nat → Nat → List Nat}
    {drs : Nat → Draws} {d : Nat} {kmeans : Nat → List Row → List Int}
    {knn : Nat → List Row → List Row → List (List Nat)} {X : List Row} {y : List Int} {a b : Int} (hwf : WF d X y)
    (hkm : KmeansOK kmeans) (hk : KnnQueryOK knn) (hp : PickOK pick) (hdr : ∀ i, (drs i).OK)
    (hu : ∀ t i j, 0 < (drs t).simplexU i j) (hmin : IsMinority y a b) (hd : 1 ≤ par.ss.nDim) (hnb : 1 ≤ par.nNeighbors)
    (hmode : par.ss.simplexSampling = .random ∨ par.ss.simplexSampling = .deterministic ∨
      (par.ss.simplexSampling = .volume ∧ ∀ vs, 0 < vol vs))
    (hwi : par.ss.within = .random ∨ (par.ss.within = .deterministic ∧ par.ss.nDim ≤ 2)) :
    ∃ r, sample defaultChecks d (clusterSmoteAlg par nClusters vol pick drs d kmeans knn) X y = .ok r := by
  obtain ⟨s, hs, rfl, rfl⟩ := stats_of_isMinority hmin
  obtain ⟨hm, hM, _⟩ := stats_min_mem hs
  rw [sample_default hs]
  split
  · exact ⟨_, rfl⟩
  rename_i h3
  unfold clusterSmoteAlg
  rw [stats_count hs hm, stats_count hs hM, detN_eq_requested, ok_bind]
  simp only [selectLabel_eq_classRows]
  set A := classRows X y s.minLabel with hA
  set labels := kmeans (min A.length nClusters) A with hlab
  have hAl : A.length = y.count s.minLabel := classRows_length hwf.1 _
  have hll : labels.length = A.length := hkm _ _
  have hune : npUnique labels ≠ [] := by
    intro h0
    have : labels ≠ [] := by intro h1; rw [h1, List.length_nil] at hll; omega
    obtain ⟨c, hc⟩ := List.exists_mem_of_ne_nil _ this
    have := mem_npUnique.2 hc
    rw [h0] at this
    simp at this
  have hul : 0 < (npUnique labels).length := List.length_pos_iff.2 hune
  split
  · exact ⟨_, rfl⟩
  rename_i hn
  rw [if_neg (by rw [List.length_map]; omega)]
  split
  · exact ⟨_, rfl⟩
  have hrows : ((npUnique labels).map (fun c => labelPositions labels c)).mapM (fun c => takeRows A c) =
      .ok ((npUnique labels).map (fun c => classRows A labels c)) := by
    rw [mapM_ok_iff, List.forall₂_map_left_iff, List.forall₂_map_right_iff, List.forall₂_same]
    intro c _
    exact takeRows_labelPositions hll.symm c
  rw [hrows, ok_bind]
  simp only [List.length_map]
  obtain ⟨hpl, hplt⟩ := hp (npUnique labels).length (requested par.proportion (y.count s.majLabel) (y.count s.minLabel)) hul
  obtain ⟨out, hout⟩ := sampleInClusters_ok (ss := par.ss) (vol := vol) (drs := drs) (d := d)
    (sel := pick (npUnique labels).length (requested par.proportion (y.count s.majLabel) (y.count s.minLabel)))
    (task := fun c => do
      let r ← getRow ((npUnique labels).map (fun c => classRows A labels c)) c
      return { rows := r, indices := knn (min par.nNeighbors r.length) r r, k := min par.nNeighbors r.length })
    (by intro h0; rw [h0] at hpl; exact hn hpl.symm) (by
      intro c i hc
      have hc' := hplt c hc
      refine ⟨_, by rw [getRow_lt (by simpa using hc'), ok_bind]; rfl, ?_⟩
      have hr1 : 0 < (((npUnique labels).map (fun c => classRows A labels c))[c]'(by simpa using hc')).length := by
        rw [List.getElem_map]
        exact List.length_pos_iff.2 (classRows_ne_nil hll.symm (mem_npUnique.1 (List.getElem_mem hc')))
      exact clusterTask_ok hk (Nat.min_le_right _ _) (by omega) (hdr i) (hu i) hd hmode hwi)
  rw [hout]
  exact ⟨_, rfl⟩

/-! ## A concrete data set -/

/-- Four minority rows in two groups, five majority rows. -/
def clX : List Row := [[0], [1], [10], [12], [20], [21], [22], [23], [24]]
def clY : List Int := [1, 1, 1, 1, 0, 0, 0, 0, 0]
/-- A clustering by position. -/
def clKmeans (n : Nat) (rows : List Row) : List Int :=
  if n = 0 then rows.map (fun _ => 0)
  else rows.map (fun r => if r.getD 0 0 < 5 then 0 else if r.getD 0 0 < 15 then 1 else 2)
def clDist (p q : Row) : ℚ := |p.getD 0 0 - q.getD 0 0|
def clPar (k : Nat) : NbParams :=
  { proportion := 1, nNeighbors := k,
    ss := { nDim := 2, simplexSampling := .random, within := .random, gaussian := .none } }
def clPick (m n : Nat) : List Nat := (List.range n).map (fun i => (i + 1) % m)

theorem clPick_ok : PickOK clPick := by
  intro m n hm
  refine ⟨by simp [clPick], fun i hi => ?_⟩
  obtain ⟨j, _, rfl⟩ := List.mem_map.1 hi
  exact Nat.mod_lt _ hm

theorem clKmeans_ok : KmeansOK clKmeans := by
  intro n rows; unfold clKmeans; split <;> simp

example : WF 1 clX clY ∧ IsMinority clY 1 0 ∧ KnnQueryOK bruteQuery ∧ KmeansOK clKmeans ∧ PickOK clPick ∧
    (∀ p q, 0 ≤ clDist p q) ∧ acceptedClusters 3 2 clX clY (clKmeans 3 clX) 1 0 = [0, 1] ∧
    clusterRows clX clY (clKmeans 3 clX) 1 1 = [[10], [12]] ∧
    shares ([0, 1].map (fun (c : Nat) => meanPairDist clDist (clusterRows clX clY (clKmeans 3 clX) 1 c) ^ 1 / 2)) = [1/3, 2/3] ∧
    (match sample defaultChecks 1 (kmeansSmoteAlg (clPar 3) 3 2 (fun _ => 1) (fun _ => 1/2) (fun _ => exDraws) 1 clKmeans
        clDist bruteQuery) clX clY with
     | .ok r => decide (r.1.length = 10 ∧ ∀ x ∈ r.1.drop 9, 10 < x.getD 0 0 ∧ x.getD 0 0 < 12)
     | .error _ => false) = true ∧
    sample defaultChecks 1 (kmeansSmoteAlg (clPar 3) 3 0 (fun _ => 1) (fun _ => 1/2) (fun _ => exDraws) 1 clKmeans
        clDist bruteQuery) clX clY = .ok (clX, clY) ∧
    (match sample defaultChecks 1 (clusterSmoteAlg (clPar 3) 3 (fun _ => 1) clPick (fun _ => exDraws) 1 clKmeans bruteQuery)
        clX clY with
     | .ok r => decide (r.1.length = 10 ∧ ∀ x ∈ r.1.drop 9, 10 < x.getD 0 0 ∧ x.getD 0 0 < 12)
     | .error _ => false) = true ∧
    (match sample defaultChecks 1 (clusterSmoteAlg (clPar 1) 3 (fun _ => 1) clPick (fun _ => exDraws) 1 clKmeans bruteQuery)
        clX clY with
     | .ok r => decide (r.1.length = 10 ∧ ∀ x ∈ r.1.drop 9, x ∈ clX)
     | .error _ => false) = true := by
  refine ⟨⟨by decide, by decide +kernel⟩, ⟨by decide, by decide, by decide, Or.inl (by decide)⟩, bruteQuery_ok, clKmeans_ok,
    clPick_ok, fun p q => abs_nonneg _, by decide +kernel, by decide +kernel, by decide +kernel, by decide +kernel,
    by decide +kernel, by decide +kernel, by decide +kernel⟩

end Verif

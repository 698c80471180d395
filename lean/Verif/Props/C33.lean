import Verif.Lemmas.BellmanFord
import Verif.Lemmas.Interp
import Verif.Lemmas.ClassRows
import Verif.Lemmas.Stats
import Verif.Lemmas.SmoteExample
import Verif.Spec.Neighbors

/-!
# C33 DBSMOTE: shortest paths are sound and the path walk terminates
-/

namespace Verif

/-- A graph with nodes `0 … n-1`: targets are nodes and weights are not negative. -/
def GraphOK (g : List (List (Nat × ℚ))) : Prop := ∀ row ∈ g, ∀ e ∈ row, e.1 < g.length ∧ 0 ≤ e.2

theorem mem_graphEdges {g : List (List (Nat × ℚ))} {u v : Nat} {w : ℚ} :
    (u, v, w) ∈ graphEdges g ↔ ∃ row, g[u]? = some row ∧ (v, w) ∈ row := by
  unfold graphEdges
  rw [List.mem_flatMap]
  constructor
  · rintro ⟨⟨row, i⟩, hr, he⟩
    rw [List.mem_map] at he
    obtain ⟨⟨v', w'⟩, he, heq⟩ := he
    simp only [Prod.mk.injEq] at heq
    obtain ⟨rfl, rfl, rfl⟩ := heq
    exact ⟨row, by simpa using List.mem_zipIdx_iff_getElem?.1 hr, he⟩
  · rintro ⟨row, hr, he⟩
    exact ⟨(row, u), List.mem_zipIdx_iff_getElem?.2 (by simpa using hr), List.mem_map.2 ⟨(v, w), he, rfl⟩⟩

theorem graphOK_edges {g : List (List (Nat × ℚ))} (h : GraphOK g) {e : Nat × Nat × ℚ} (he : e ∈ graphEdges g) :
    e.1 < g.length ∧ e.2.1 < g.length ∧ 0 ≤ e.2.2 := by
  obtain ⟨u, v, w⟩ := e
  obtain ⟨row, hr, hm⟩ := mem_graphEdges.1 he
  exact ⟨(List.getElem?_eq_some_iff.1 hr).1, h row (List.mem_of_getElem? hr) _ hm⟩

/-- The final assertion of `bellman_ford` never fails. -/
theorem C33_assertion_holds {g : List (List (Nat × ℚ))} (h : GraphOK g) {s : Nat} (hs : s < g.length) :
    ∃ st, bellmanFord g s = .ok st := by
  refine ⟨bfRounds (graphEdges g) (g.length - 1) (bfInit s), ?_⟩
  unfold bellmanFord
  dsimp only
  rw [if_pos]
  rw [List.all_eq_true]
  intro e he
  rw [bf_relaxed hs (fun e he => (graphOK_edges h he).2.1) (fun e he => (graphOK_edges h he).2.2) he]
  rfl

theorem bellmanFord_eq {g : List (List (Nat × ℚ))} {s : Nat} {st : BF} (h : bellmanFord g s = .ok st) :
    st = bfRounds (graphEdges g) (g.length - 1) (bfInit s) := by
  unfold bellmanFord at h
  dsimp only at h
  split at h
  · injection h with h; exact h.symm
  · simp at h

/-- The computed distances are those of lightest walks from the source; infinite exactly for unreachable nodes. -/
theorem C33_distances_shortest {g : List (List (Nat × ℚ))} (h : GraphOK g) {s : Nat} (hs : s < g.length) {st : BF}
    (hb : bellmanFord g s = .ok st) (v : Nat) : IsShortest (graphEdges g) s v (st.dist v) := by
  rw [bellmanFord_eq hb]
  have hw : ∀ e ∈ graphEdges g, 0 ≤ e.2.2 := fun e he => (graphOK_edges h he).2.2
  have ht : ∀ e ∈ graphEdges g, e.2.1 < g.length := fun e he => (graphOK_edges h he).2.1
  cases hv : (bfRounds (graphEdges g) (g.length - 1) (bfInit s)).dist v with
  | none =>
    rintro ⟨q, k, hq⟩
    obtain ⟨x, hx, _⟩ := bf_shortest hs ht hw hq
    rw [hv] at hx
    simp at hx
  | some d =>
    refine ⟨(bfRounds_inv hw _).1.walk v d hv, fun q k hq => ?_⟩
    obtain ⟨x, hx, hxq⟩ := bf_shortest hs ht hw hq
    rw [hv] at hx
    injection hx with hx
    rw [hx]; exact hxq

/-- Following the parents from any node visits no node twice and ends after at most as many nodes as the graph has, at the
source or at an unreachable node; every step goes backwards along an edge. -/
theorem C33_parent_walk_ends {g : List (List (Nat × ℚ))} (h : GraphOK g) {s : Nat} {st : BF}
    (hb : bellmanFord g s = .ok st) {v : Nat} (hv : v < g.length) :
    ∃ path, parentPath st.par g.length v = some path ∧ path.head? = some v ∧ path.Nodup ∧ (∀ x ∈ path, x < g.length) ∧
      path.IsChain (fun c p => ∃ w, (p, c, w) ∈ graphEdges g) ∧
      (path.getLast? = some s ∨ (path = [v] ∧ st.dist v = none)) := by
  have hw : ∀ e ∈ graphEdges g, 0 ≤ e.2.2 := fun e he => (graphOK_edges h he).2.2
  have heq := bellmanFord_eq hb
  obtain ⟨hinv, hends⟩ := bfRounds_inv (s := s) hw (g.length - 1)
  rw [← heq] at hinv hends
  obtain ⟨t, ht⟩ := (hends v).chain
  have hlt : ∀ {p : List Nat}, ParentChain st.par p → ∀ {v t}, p = v :: t → v < g.length → ∀ x ∈ p, x < g.length := by
    intro p hp
    induction hp with
    | root => intro v t he hv x hx; rw [List.mem_singleton] at hx; injection he with h1; omega
    | @step a b t' hab _ ih =>
      intro v t he hv x hx
      injection he with h1
      subst h1
      rcases List.mem_cons.1 hx with rfl | hx
      · exact hv
      · obtain ⟨w, _, _, hm, _⟩ := hinv.parent a b hab
        exact ih rfl (graphOK_edges h hm).1 x hx
  have hedge : ∀ {p : List Nat}, ParentChain st.par p → p.IsChain (fun c p => ∃ w, (p, c, w) ∈ graphEdges g) := by
    intro p hp
    induction hp with
    | root => simp
    | @step a b t' hab _ ih =>
      obtain ⟨w, _, _, hm, _⟩ := hinv.parent a b hab
      exact List.isChain_cons_cons.2 ⟨⟨w, hm⟩, ih⟩
  have hlast : ∀ {p : List Nat}, ParentChain st.par p → ∀ {v t}, p = v :: t →
      p.getLast? = some s ∨ (p = [v] ∧ st.dist v = none) := by
    intro p hp
    induction hp with
    | @root a ha =>
      intro v t he
      injection he with h1
      subst h1
      by_cases hs' : a = s
      · left; simp [hs']
      · right; exact ⟨rfl, hinv.orphan a ha hs'⟩
    | @step a b t' hab _ ih =>
      intro v t he
      rcases ih rfl with h1 | ⟨_, h2⟩
      · left; rw [List.getLast?_cons_cons]; exact h1
      · obtain ⟨_, x, _, _, hx, _⟩ := hinv.parent a b hab
        rw [h2] at hx
        simp at hx
  have hl := hlt ht rfl hv
  exact ⟨v :: t, parentPath_of_chain ht rfl (nodup_lt_length ht.nodup hl), rfl, ht.nodup, hl, hedge ht, hlast ht rfl⟩

/-- Contract of the neighbour search inside a cluster: one row of `|c|` valid positions and non-negative distances per row,
and a valid position for the row next to the centroid. -/
structure ClusterNN.OK (nn : ClusterNN) : Prop where
  ind_len : ∀ c, (nn.ind c).length = c.length
  dist_len : ∀ c, (nn.dist c).length = c.length
  dist_nonneg : ∀ c, ∀ r ∈ nn.dist c, ∀ x ∈ r, 0 ≤ x
  centroid : ∀ c, c ≠ [] → nn.centroid c < c.length

/-- Contract of the clustering: a label of at least -1 per row; a request below one raises; a request of one core row makes
every row part of a cluster. -/
structure DbscanOK (dbscan : List Row → ℚ → Int → Res (List Int)) : Prop where
  returns : ∀ rows eps m, 1 ≤ m → ∃ l, dbscan rows eps m = .ok l
  length : ∀ rows eps m l, dbscan rows eps m = .ok l → l.length = rows.length
  one : ∀ rows eps l, rows ≠ [] → dbscan rows eps 1 = .ok l → 0 < numLabels l

theorem clusterGraph_length {nn : ClusterNN} (hnn : nn.OK) (eps : ℚ) (m : Nat) (c : List Row) :
    (clusterGraph eps m nn c).length = c.length := by
  unfold clusterGraph; simp [hnn.ind_len, hnn.dist_len]

theorem clusterGraph_ok {nn : ClusterNN} (hnn : nn.OK) (eps : ℚ) (m : Nat) (c : List Row) :
    GraphOK (clusterGraph eps m nn c) := by
  intro row hrow e he
  rw [clusterGraph_length hnn]
  unfold clusterGraph at hrow
  rw [List.mem_map] at hrow
  obtain ⟨⟨i, ds⟩, hid, rfl⟩ := hrow
  unfold adjacency at he
  rw [List.mem_filterMap] at he
  obtain ⟨j, hj, he⟩ := he
  split at he
  · injection he with he
    subst he
    refine ⟨List.mem_range.1 hj, ?_⟩
    dsimp only
    rw [List.getD_eq_getElem?_getD]
    cases hq : ds[List.idxOf j i]? with
    | none => simp
    | some q => exact hnn.dist_nonneg c ds (List.of_mem_zip hid).2 q (List.mem_of_getElem? hq)
  · simp at he

/-- `execute_dbscan` never asks for fewer than one core row, so it never raises. -/
theorem C33_dbscan_never_raises {dbscan : List Row → ℚ → Int → Res (List Int)} (hdb : DbscanOK dbscan) {rows : List Row}
    (hne : rows ≠ []) (eps : ℚ) {minSamples : Nat} (hm : 1 ≤ minSamples) (limit : Nat) :
    ∃ l, executeDbscan (dbscan rows) eps minSamples limit = .ok l ∧ l.length = rows.length := by
  have hrun : ∀ (step : Nat), step < minSamples → ∃ l, dbscan rows (eps * (3 / 2) ^ step) ((minSamples : Int) - step) = .ok l :=
    fun step hs => hdb.returns _ _ _ (by omega)
  have loop : ∀ (r step : Nat) (l : List Int), step ≤ minSamples → l.length = rows.length →
      (step = minSamples → 0 < numLabels l) →
      ∃ l', dbscanLoop (fun step : Nat => dbscan rows (eps * (3 / 2) ^ step) ((minSamples : Int) - step)) r step l = .ok l' ∧
        l'.length = rows.length := by
    intro r
    induction r with
    | zero => intro step l _ hl _; exact ⟨l, rfl, hl⟩
    | succ r ih =>
      intro step l hs hl h0
      rw [dbscanLoop]
      by_cases hz : numLabels l = 0
      · rw [if_pos hz]
        have hlt : step < minSamples := by
          rcases Nat.lt_or_eq_of_le hs with h | h
          · exact h
          · have := h0 h; omega
        obtain ⟨l', hl'⟩ := hrun step hlt
        rw [hl', ok_bind]
        refine ih (step + 1) l' (by omega) (hdb.length _ _ _ _ hl') ?_
        intro he
        have : (minSamples : Int) - step = 1 := by omega
        rw [this] at hl'
        exact hdb.one _ _ _ hne hl'
      · rw [if_neg hz]; exact ⟨l, rfl, hl⟩
  unfold executeDbscan
  dsimp only
  obtain ⟨l, hl⟩ := hrun 0 (by omega)
  rw [hl, ok_bind]
  refine loop _ 1 l (by omega) (hdb.length _ _ _ _ hl) ?_
  intro he
  have : (minSamples : Int) - (0 : Nat) = 1 := by omega
  rw [this] at hl
  exact hdb.one _ _ _ hne hl

theorem selectLabel_map {α β : Type} (f : α → β) (X : List α) (y : List Int) (l : Int) :
    selectLabel (X.map f) y l = (selectLabel X y l).map f := by
  rw [selectLabel_eq_classRows, selectLabel_eq_classRows]
  unfold classRows
  rw [List.zip_map_left, List.filter_map, List.map_map, List.map_map]
  rfl

theorem scaleRow_length {d : Nat} {m s r : Row} (hm : m.length = d) (hs : s.length = d) (hr : r.length = d) :
    (scaleRow m s r).length = d := by simp [scaleRow, hm, hs, hr]

theorem unscaleRow_getD {d : Nat} {m s r : Row} (hm : m.length = d) (hs : s.length = d) (hr : r.length = d) {k : Nat}
    (hk : k < d) : (unscaleRow m s r).getD k 0 = r.getD k 0 * s.getD k 0 + m.getD k 0 := by
  simp [unscaleRow, List.getD_eq_getElem?_getD, hm, hs, hr, hk]

theorem scaleRow_getD {d : Nat} {m s r : Row} (hm : m.length = d) (hs : s.length = d) (hr : r.length = d) {k : Nat}
    (hk : k < d) : (scaleRow m s r).getD k 0 = (r.getD k 0 - m.getD k 0) / s.getD k 0 := by
  simp [scaleRow, List.getD_eq_getElem?_getD, hm, hs, hr, hk]

theorem unscaleRow_length {d : Nat} {m s r : Row} (hm : m.length = d) (hs : s.length = d) (hr : r.length = d) :
    (unscaleRow m s r).length = d := by simp [unscaleRow, hm, hs, hr]

/-- Undoing the scaling gives the original row back. -/
theorem unscale_scale {d : Nat} {m s r : Row} (hm : m.length = d) (hs : s.length = d) (hpos : ∀ x ∈ s, 0 < x)
    (hr : r.length = d) : unscaleRow m s (scaleRow m s r) = r := by
  apply row_ext (unscaleRow_length hm hs (scaleRow_length hm hs hr)) hr
  intro k hk
  rw [unscaleRow_getD hm hs (scaleRow_length hm hs hr) hk, scaleRow_getD hm hs hr hk]
  have : 0 < s.getD k 0 := by
    rw [List.getD_eq_getElem?_getD, List.getElem?_eq_getElem (by omega)]
    exact hpos _ (List.getElem_mem _)
  field_simp
  ring

theorem unscale_mix {d : Nat} {m s p q : Row} {u : ℚ} (hm : m.length = d) (hs : s.length = d) (hpos : ∀ x ∈ s, 0 < x)
    (hp : p.length = d) (hq : q.length = d) :
    unscaleRow m s (sampleBetweenPoints (scaleRow m s p) (scaleRow m s q) u) = sampleBetweenPoints p q u := by
  have h1 := scaleRow_length hm hs hp
  have h2 := scaleRow_length hm hs hq
  unfold sampleBetweenPoints
  apply row_ext (unscaleRow_length hm hs (mixRow_length h1 h2)) (mixRow_length hp hq)
  intro k hk
  rw [unscaleRow_getD hm hs (mixRow_length h1 h2) hk, mixRow_getD h1 h2 hk, mixRow_getD hp hq hk,
    scaleRow_getD hm hs hp hk, scaleRow_getD hm hs hq hk]
  have : 0 < s.getD k 0 := by
    rw [List.getD_eq_getElem?_getD, List.getElem?_eq_getElem (by omega)]
    exact hpos _ (List.getElem_mem _)
  field_simp
  ring

theorem forall₂_get_right {α β : Type} {R : α → β → Prop} {l : List α} {r : List β} (h : List.Forall₂ R l r) :
    ∀ {k : Nat} {b : β}, r[k]? = some b → ∃ a, l[k]? = some a ∧ R a b := by
  induction h with
  | nil => intro k b hb; simp at hb
  | @cons a b' l' r' hab _ ih =>
    intro k b hb
    cases k with
    | zero =>
      simp only [List.getElem?_cons_zero, Option.some.injEq] at hb
      subst hb
      exact ⟨a, rfl, hab⟩
    | succ k =>
      rw [List.getElem?_cons_succ] at hb
      exact ih hb

theorem samplePath_shape {cluster : List Row} {path : List Nat} {vertex : Nat → Nat} {u : ℚ} {x : Row}
    (h : samplePath cluster path vertex u = .ok x) :
    (∃ i : Nat, cluster[i]? = some x) ∨
    ∃ (i j : Nat) (p q : Row), cluster[i]? = some p ∧ cluster[j]? = some q ∧ x = sampleBetweenPoints p q u := by
  unfold samplePath at h
  dsimp only at h
  split at h
  · obtain ⟨i, _, h⟩ := bind_ok.1 h
    exact Or.inl ⟨i, getRow_ok.1 h⟩
  · right
    obtain ⟨i, _, h⟩ := bind_ok.1 h
    obtain ⟨j, _, h⟩ := bind_ok.1 h
    obtain ⟨p, hp, h⟩ := bind_ok.1 h
    obtain ⟨q, hq, h⟩ := bind_ok.1 h
    injection h with h
    exact ⟨i, j, p, q, getRow_ok.1 hp, getRow_ok.1 hq, h.symm⟩

theorem mem_clusterOf {labels : List Int} {c p : Nat} : p ∈ clusterOf labels c ↔ labels[p]? = some (c : Int) := by
  unfold clusterOf
  rw [List.mem_filter, List.mem_range]
  constructor
  · rintro ⟨_, h⟩; simpa using h
  · intro h; exact ⟨(List.getElem?_eq_some_iff.1 h).1, by simpa using h⟩

/-- Every row of a completed call lies between two original minority rows of the same cluster (undoing the scaling included);
exactly the requested number of rows is added. -/
theorem C33_samples_between {par : DbParams} {fitScaler : List Row → Row × Row}
    {dbscan : List Row → ℚ → Int → Res (List Int)} {nn : ClusterNN} {dr : DbDraws} {d : Nat}
    {X X' : List Row} {y y' : List Int} {a b : Int} (hwf : WF d X y) (hmin : IsMinority y a b)
    (hm : (fitScaler X).1.length = d) (hsc : (fitScaler X).2.length = d) (hpos : ∀ x ∈ (fitScaler X).2, 0 < x)
    (hu : ∀ i, 0 ≤ dr.u i ∧ dr.u i ≤ 1)
    (h : sample defaultChecks d (dbsmoteAlg par fitScaler dbscan nn dr) X y = .ok (X', y')) :
    (X' = X ∧ y' = y) ∨ ∃ labels : List Int,
      executeDbscan (dbscan (classRows (X.map (scaleRow (fitScaler X).1 (fitScaler X).2)) y a)) par.eps par.minSamples
        par.iterLimit = .ok labels ∧
      Oversampled X y a (requested par.proportion (y.count b) (y.count a)) (fun x =>
        ∃ (i j : Nat) (c : Int) (p q : Row), (classRows X y a)[i]? = some p ∧ (classRows X y a)[j]? = some q ∧
          labels[i]? = some c ∧ labels[j]? = some c ∧ Between d p q x) X' y' := by
  obtain ⟨s, hs, rfl, rfl⟩ := stats_of_isMinority hmin
  obtain ⟨hmm, hM, _⟩ := stats_min_mem hs
  rcases sample_default_ok hs h with h | h
  · exact Or.inl h
  unfold dbsmoteAlg at h
  rw [stats_count hs hmm, stats_count hs hM, detN_eq_requested, ok_bind] at h
  split at h
  · injection h with h
    obtain ⟨rfl, rfl⟩ := Prod.mk.inj h
    exact Or.inl ⟨rfl, rfl⟩
  dsimp only at h
  obtain ⟨labels, hlab, h⟩ := bind_ok.1 h
  split at h
  · injection h with h
    obtain ⟨rfl, rfl⟩ := Prod.mk.inj h
    exact Or.inl ⟨rfl, rfl⟩
  right
  refine ⟨labels, by rw [← selectLabel_eq_classRows]; exact hlab, Or.inr ?_⟩
  obtain ⟨clusters, hcl, h⟩ := bind_ok.1 h
  obtain ⟨paths, _, h⟩ := bind_ok.1 h
  obtain ⟨samples, hsam, h⟩ := bind_ok.1 h
  injection h with h
  unfold withSamples at h
  obtain ⟨rfl, rfl⟩ := Prod.mk.inj h
  have hlen := mapM_ok_length hsam
  rw [List.length_range] at hlen
  refine ⟨samples.map (unscaleRow (fitScaler X).1 (fitScaler X).2), rfl, by rw [List.length_map, hlen],
    by rw [List.length_map, hlen], ?_⟩
  intro x hx
  rw [List.mem_map] at hx
  obtain ⟨r, hr, rfl⟩ := hx
  obtain ⟨i, -, hi⟩ := forall₂_mem_right (mapM_ok_iff.1 hsam) hr
  unfold dbSampleRow at hi
  obtain ⟨cluster, hc, hi⟩ := bind_ok.1 hi
  obtain ⟨bf, _, hi⟩ := bind_ok.1 hi
  obtain ⟨path, _, hi⟩ := bind_ok.1 hi
  -- positions in a cluster are positions in the minority class with the same label
  have hin : ∀ (k : Nat) (r : Row), cluster[k]? = some r → ∃ (j : Nat) (p : Row),
      (classRows X y s.minLabel)[j]? = some p ∧ labels[j]? = some ((dr.cluster i : Nat) : Int) ∧
      r = scaleRow (fitScaler X).1 (fitScaler X).2 p := by
    intro k r hk
    obtain ⟨idx, hidx, hrows⟩ := forall₂_get_right (mapM_ok_iff.1 hcl) (getRow_ok.1 hc)
    rw [List.getElem?_map] at hidx
    cases hrange : (List.range (numLabels labels))[dr.cluster i]? with
    | none => rw [hrange] at hidx; simp at hidx
    | some c =>
      rw [hrange, Option.map_some, Option.some.injEq] at hidx
      obtain ⟨hlt, hcc⟩ := List.getElem?_eq_some_iff.1 hrange
      rw [List.getElem_range] at hcc
      subst hcc hidx
      obtain ⟨j, hj, hrow⟩ := forall₂_get_right (mapM_ok_iff.1 hrows) hk
      rw [getRow_ok, selectLabel_map, selectLabel_eq_classRows, List.getElem?_map, Option.map_eq_some_iff] at hrow
      obtain ⟨p, hp, rfl⟩ := hrow
      exact ⟨j, p, hp, mem_clusterOf.1 (List.mem_of_getElem? hj), rfl⟩
  have hl : ∀ (j : Nat) (p : Row), (classRows X y s.minLabel)[j]? = some p → p.length = d := by
    intro j p hp
    have := List.mem_of_getElem? hp
    rw [← selectLabel_eq_classRows] at this
    exact hwf.2 p (selectLabel_mem this)
  rcases samplePath_shape hi with ⟨k, hk⟩ | ⟨k1, k2, p, q, hp, hq, rfl⟩
  · obtain ⟨j, p, hp, hlj, rfl⟩ := hin k r hk
    have lp := hl j p hp
    refine ⟨j, j, _, p, p, hp, hp, hlj, hlj, ?_⟩
    rw [unscale_scale hm hsc hpos lp]
    exact ⟨lp, fun k _ => by simp⟩
  · obtain ⟨j1, p', hp', hl1, rfl⟩ := hin k1 p hp
    obtain ⟨j2, q', hq', hl2, rfl⟩ := hin k2 q hq
    have lp := hl j1 p' hp'
    have lq := hl j2 q' hq'
    refine ⟨j1, j2, _, p', q', hp', hq', hl1, hl2, ?_⟩
    rw [unscale_mix hm hsc hpos lp lq]
    exact mixRow_between lp lq (fun _ => hu i)

theorem bellmanFord_cluster {nn : ClusterNN} (hnn : nn.OK) (eps : ℚ) (m : Nat) (c : List Row) :
    ∃ st, bellmanFord (clusterGraph eps m nn c) (nn.centroid c) = .ok st := by
  by_cases hc : c = []
  · have : clusterGraph eps m nn c = [] := List.length_eq_zero_iff.1 (by rw [clusterGraph_length hnn, hc]; rfl)
    rw [this]
    exact ⟨_, rfl⟩
  · exact C33_assertion_holds (clusterGraph_ok hnn eps m c) (by rw [clusterGraph_length hnn]; exact hnn.centroid c hc)

theorem samplePath_total {cluster : List Row} {path : List Nat} {vertex : Nat → Nat} {u : ℚ} (hne : path ≠ [])
    (hlt : ∀ x ∈ path, x < cluster.length) (hv : ∀ m, 0 < m → vertex m < m) :
    ∃ x, samplePath cluster path vertex u = .ok x := by
  have hpos := List.length_pos_iff.2 hne
  unfold samplePath
  dsimp only
  by_cases h1 : path.length = 1
  · rw [if_pos h1, getRow_lt hpos, ok_bind]
    exact ⟨_, getRow_lt (hlt _ (List.getElem_mem _))⟩
  · rw [if_neg h1]
    have hr : (if path.length = 2 then 0 else vertex (path.length - 1)) + 1 < path.length := by
      split
      · omega
      · have := hv (path.length - 1) (by omega); omega
    rw [getRow_lt (by omega), ok_bind, getRow_lt hr, ok_bind, getRow_lt (hlt _ (List.getElem_mem _)), ok_bind,
      getRow_lt (hlt _ (List.getElem_mem _)), ok_bind]
    exact ⟨_, rfl⟩

/-- `DBSMOTE` always returns: no exception and no endless walk, for every clustering, neighbour answer and draw within the
contracts. -/
theorem C33_total {par : DbParams} {fitScaler : List Row → Row × Row}
    {dbscan : List Row → ℚ → Int → Res (List Int)} {nn : ClusterNN} {dr : DbDraws} {d : Nat}
    {X : List Row} {y : List Int} {a b : Int} (hwf : WF d X y) (hmin : IsMinority y a b)
    (hdb : DbscanOK dbscan) (hms : 1 ≤ par.minSamples) (hnn : nn.OK) (hv : ∀ i m, 0 < m → dr.vertex i m < m)
    (hdr : ∀ labels, executeDbscan (dbscan (classRows (X.map (scaleRow (fitScaler X).1 (fitScaler X).2)) y a)) par.eps
      par.minSamples par.iterLimit = .ok labels → 0 < numLabels labels →
      ∀ i, dr.cluster i < numLabels labels ∧ dr.point i < (clusterOf labels (dr.cluster i)).length) :
    ∃ r, sample defaultChecks d (dbsmoteAlg par fitScaler dbscan nn dr) X y = .ok r := by
  obtain ⟨s, hs, rfl, rfl⟩ := stats_of_isMinority hmin
  obtain ⟨hmm, hM, _⟩ := stats_min_mem hs
  rw [sample_default hs]
  split
  · exact ⟨_, rfl⟩
  rename_i h2
  unfold dbsmoteAlg
  rw [stats_count hs hmm, stats_count hs hM, detN_eq_requested, ok_bind]
  split
  · exact ⟨_, rfl⟩
  dsimp only
  rw [selectLabel_eq_classRows]
  set Xmin := classRows (X.map (scaleRow (fitScaler X).1 (fitScaler X).2)) y s.minLabel with hXm
  have hlen : Xmin.length = y.count s.minLabel := by
    rw [hXm, ← selectLabel_eq_classRows, selectLabel_length (by rw [List.length_map]; exact hwf.1)]
  obtain ⟨labels, hlab, hll⟩ := C33_dbscan_never_raises hdb
    (rows := Xmin) (by intro hc; rw [hc] at hlen; simp at hlen; omega) par.eps hms par.iterLimit
  rw [hlab, ok_bind]
  split
  · exact ⟨_, rfl⟩
  rename_i hnum
  have hd := hdr labels hlab (by omega)
  obtain ⟨clusters, hcl⟩ : ∃ clusters,
      ((List.range (numLabels labels)).map (clusterOf labels)).mapM (takeRows Xmin) = .ok clusters := by
    apply mapM_exists_ok
    intro idx hidx
    rw [List.mem_map] at hidx
    obtain ⟨c, _, rfl⟩ := hidx
    apply takeRows_ok_of_lt
    intro i hi
    have := (List.getElem?_eq_some_iff.1 (mem_clusterOf.1 hi)).1
    omega
  rw [hcl, ok_bind]
  obtain ⟨paths, hpaths⟩ : ∃ paths, clusters.mapM (fun c =>
      bellmanFord (clusterGraph par.eps par.minSamples nn c) (nn.centroid c)) = .ok paths :=
    mapM_exists_ok (fun c _ => bellmanFord_cluster hnn _ _ c)
  rw [hpaths, ok_bind]
  suffices hrow : ∀ i, ∃ x, dbSampleRow dr clusters paths i = .ok x by
    obtain ⟨r, hr⟩ := mapM_exists_ok (l := List.range (requested par.proportion (y.count s.majLabel) (y.count s.minLabel)))
      (fun i _ => hrow i)
    rw [hr, ok_bind]
    exact ⟨_, rfl⟩
  intro i
  obtain ⟨h1, h2⟩ := hd i
  obtain ⟨c, hc, hcr⟩ := mapM_ok_get hcl (i := dr.cluster i) (a := clusterOf labels (dr.cluster i)) (by
    rw [List.getElem?_map, List.getElem?_range h1]; rfl)
  obtain ⟨bf, hbf, hbfr⟩ := mapM_ok_get hpaths hc
  have hclen : c.length = (clusterOf labels (dr.cluster i)).length := takeRows_length hcr
  obtain ⟨path, hp1, hp2, _, hp4, _⟩ := C33_parent_walk_ends (clusterGraph_ok hnn _ _ c) hbfr (v := dr.point i)
    (by rw [clusterGraph_length hnn, hclen]; exact h2)
  rw [clusterGraph_length hnn] at hp1 hp4
  unfold dbSampleRow
  rw [getRow_ok.2 hc, ok_bind, getRow_ok.2 hbf, ok_bind, hp1]
  simp only [pathOrHang, ok_bind]
  exact samplePath_total (by rintro rfl; simp at hp2) hp4 (hv i)

/-! Non-vacuity: a graph with a zero cycle, and a complete run. -/

def exGraph : List (List (Nat × ℚ)) := [[(1, 2), (2, 5)], [(0, 0), (2, 1)], [(1, 0)], []]

example : GraphOK exGraph := by unfold GraphOK; decide +kernel
example : (match bellmanFord exGraph 0 with
    | .ok st => decide (st.dist 2 = some 3 ∧ st.dist 3 = none ∧ parentPath st.par 4 2 = some [2, 1, 0] ∧
        parentPath st.par 4 3 = some [3])
    | .error _ => false) = true := by decide +kernel

/-- With a negative cycle the assertion does fail, so non-negativity is needed. -/
example : (match bellmanFord [[(1, 1)], [(0, -2)]] 0 with | .error .assertionError => true | _ => false) = true := by
  decide +kernel

def exNN : ClusterNN :=
  { ind := fun c => bruteKnn c.length c
    dist := fun c => c.map (fun x => (nearestTo c c.length x).map (fun j => sqDist x (c.getD j [])))
    centroid := fun _ => 0 }

theorem sqDist_nonneg' (a b : Row) : 0 ≤ sqDist a b := by
  unfold sqDist
  apply List.sum_nonneg
  intro x hx
  rw [List.mem_map] at hx
  obtain ⟨t, _, rfl⟩ := hx
  exact mul_self_nonneg t

theorem exNN_ok : exNN.OK where
  ind_len := fun c => by simp [exNN, bruteKnn]
  dist_len := fun c => by simp [exNN]
  dist_nonneg := by
    intro c r hr x hx
    simp only [exNN, List.mem_map] at hr
    obtain ⟨z, _, rfl⟩ := hr
    rw [List.mem_map] at hx
    obtain ⟨j, _, rfl⟩ := hx
    exact sqDist_nonneg' _ _
  centroid := fun c hc => List.length_pos_iff.2 hc

/-- All rows in one cluster. -/
def exDbscan (rows : List Row) (_ : ℚ) (m : Int) : Res (List Int) :=
  if m < 1 then .error .valueError else .ok (rows.map (fun _ => 0))

example : DbscanOK exDbscan where
  returns := fun rows _ m hm => ⟨_, by simp only [exDbscan]; rw [if_neg (by omega)]⟩
  length := by
    intro rows eps m l h
    simp only [exDbscan] at h
    split at h
    · simp at h
    · injection h with h; simp [← h]
  one := by
    intro rows eps l hne h
    simp only [exDbscan] at h
    rw [if_neg (by omega)] at h
    injection h with h
    obtain ⟨r, rs, rfl⟩ := List.exists_cons_of_ne_nil hne
    rw [← h]
    simp only [List.map_cons, numLabels, List.foldr_cons]
    omega

def exDb : DbDraws := { cluster := fun _ => 0, point := fun i => i % 3, vertex := fun _ _ => 0, u := fun _ => 1 / 4 }

example : sample defaultChecks 2 (dbsmoteAlg ⟨1, 3, 3, 3⟩ (fun _ => ([1, 1], [2, 2])) exDbscan exNN exDb) exX exY =
    .ok (exX ++ [[0, 0], [3/4, 0]], exY ++ [1, 1]) := by decide +kernel

end Verif

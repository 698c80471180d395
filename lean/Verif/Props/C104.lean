import Verif.Props.C61
import Verif.Lemmas.ClusterTasks
import Verif.Props.C35

/-!
# C104: CBSO

Minority rows are linked when they are not further apart than `C_p` times the mean distance to the nearest minority row; new rows are
made within the linked groups, and the groups and base rows are drawn by the number of majority rows nearby.
-/

namespace Verif

/-! ## Specification -/

/-- The number of majority rows listed for minority row `i`, behind the first entry (the row itself). -/
def cbsoCount (knn : Nat → List Row → List Row → List (List Nat)) (k : Nat) (X : List Row) (y : List Int) (a b : Int) (i : Nat) : Nat :=
  ((((knn (k + 1) X (classRows X y a)).getD i []).drop 1).map (fun j => y.getD j 0)).count b

/-- The share of minority row `i`: in proportion to the number of majority rows nearby, equal if there are none at all. -/
def cbsoShare (knn : Nat → List Row → List Row → List (List Nat)) (k : Nat) (X : List Row) (y : List Int) (a b : Int) (i : Nat) : ℚ :=
  (shares ((List.range (classRows X y a).length).map (fun i => (cbsoCount knn k X y a b i : ℚ)))).getD i 0

/-- The threshold: `C_p` times the mean distance to the second row listed among the minority rows. -/
def cbsoRadius (cp : ℚ) (dist : Row → Row → ℚ) (knn : Nat → List Row → List Row → List (List Nat)) (A : List Row) : ℚ :=
  ((List.range A.length).map (fun i => dist (A.getD i []) (A.getD (((knn 2 A A).getD i []).getD 1 0) []))).sum / A.length * cp

/-! ## Proofs -/

theorem zip_eq_range {α β : Type} {l : List α} {m : List β} (h : m.length = l.length) (da : α) (db : β) :
    l.zip m = (List.range l.length).map (fun i => (l.getD i da, m.getD i db)) := by
  apply List.ext_getElem
  · simp [h]
  · intro i h1 h2
    simp only [List.length_zip] at h1
    rw [List.getElem_zip, List.getElem_map, List.getElem_range, List.getD_eq_getElem?_getD, List.getD_eq_getElem?_getD,
      List.getElem?_eq_getElem (by omega), List.getElem?_eq_getElem (by omega)]
    rfl

theorem cbsoThreshold_eq {cp : ℚ} {dist : Row → Row → ℚ} {knn : Nat → List Row → List Row → List (List Nat)} (hk : KnnQueryOK knn)
    {A : List Row} (h2 : 2 ≤ A.length) : cbsoThreshold cp dist knn A = .ok (cbsoRadius cp dist knn A) := by
  obtain ⟨q1, q2⟩ := hk 2 A A h2
  unfold cbsoThreshold cbsoRadius
  rw [mapM_ok_of (g := fun p : Row × List Nat => dist p.1 (A.getD (p.2.getD 1 0) []))]
  · rw [ok_bind, zip_eq_range q1 [] [], List.map_map, List.length_map, List.length_range]
    rfl
  · intro p hp
    obtain ⟨h1, h2⟩ := q2 p.2 (List.of_mem_zip hp).2
    have hl : 1 < p.2.length := by omega
    have hj := h2 _ (List.getElem_mem hl)
    rw [getRow_ok.2 (List.getElem?_eq_getElem hl), ok_bind, getRow_ok.2 (List.getElem?_eq_getElem hj), ok_bind,
      List.getD_eq_getElem?_getD (l := p.2), List.getElem?_eq_getElem hl, List.getD_eq_getElem?_getD, Option.getD_some,
      List.getElem?_eq_getElem hj]
    rfl

theorem map_getD_self {α : Type} (l : List α) (dflt : α) : (List.range l.length).map (fun i => l.getD i dflt) = l := by
  apply List.ext_getElem
  · simp
  · intro i h1 h2
    rw [List.getElem_map, List.getElem_range, List.getD_eq_getElem?_getD, List.getElem?_eq_getElem h2]
    rfl

/-- The sum over a partition is the sum over everything. -/
theorem sum_partition {N : Nat} {clusters : List (List Nat)} (h : IsPartition N clusters) (f : Nat → ℚ) :
    (clusters.map (fun c => (c.map f).sum)).sum = ((List.range N).map f).sum := by
  rw [← (h.1.map f).sum_eq, List.map_flatten, List.sum_flatten, List.map_map]
  rfl

theorem IsPartition.lt {N : Nat} {clusters : List (List Nat)} (h : IsPartition N clusters) {c : List Nat} (hc : c ∈ clusters) {i : Nat}
    (hi : i ∈ c) : i < N := List.mem_range.1 (h.1.mem_iff.1 (List.mem_flatten.2 ⟨c, hc, hi⟩))

theorem shares_pos {l : List ℚ} (h0 : ∀ q ∈ l, 0 ≤ q) {i : Nat} {q : ℚ} (h : (shares l)[i]? = some q) (hq : 0 < q) :
    ∃ x, l[i]? = some x ∧ (0 < x ∨ ∀ z ∈ l, z = 0) := by
  have hi : i < l.length := by rw [← shares_len]; exact (List.getElem?_eq_some_iff.1 h).1
  refine ⟨l[i], List.getElem?_eq_getElem hi, ?_⟩
  by_cases hs : l.sum = 0
  · right
    intro z hz
    exact le_antisymm (by rw [← hs]; exact List.single_le_sum h0 z hz) (h0 z hz)
  · left
    rw [shares_nonzero hs, List.getElem?_map, List.getElem?_eq_getElem hi] at h
    simp only [Option.map_some, Option.some.injEq] at h
    have hpos : 0 < l.sum := lt_of_le_of_ne (List.sum_nonneg h0) (Ne.symm hs)
    rw [← h] at hq
    by_contra hn
    exact absurd hq (not_lt.2 (div_nonpos_of_nonpos_of_nonneg (not_lt.1 hn) hpos.le))

/-! ## Theorems -/

/-- CBSO on every two-class data set with enough rows for the neighbour search: the input is followed by as many minority rows as
requested. The minority rows fall into groups, linked by steps not longer than the threshold; groups are drawn in proportion to their
shares, and each draw of a group gives a convex combination of a row of the group with majority rows nearby (of any row, if there is
none in the whole minority), drawn in proportion to its share, and of further rows of the same group. -/
theorem C104_cbso {par : NbParams} {cp : ℚ} {vol : List Row → ℚ} {cu : Nat → ℚ} {drs : Nat → Draws} {d : Nat} {dist : Row → Row → ℚ}
    {knn : Nat → List Row → List Row → List (List Nat)} {X : List Row} {y : List Int} {a b : Int} (hwf : WF d X y)
    (hk : KnnQueryOK knn) (hD : ∀ p q, dist p q = dist q p) (hcu : ∀ i, 0 ≤ cu i ∧ cu i < 1) (hdr : ∀ i, (drs i).OK)
    (hu : ∀ t i j, 0 < (drs t).simplexU i j) (hmin : IsMinority y a b) (hg : par.ss.gaussian = .none) (hvol : ∀ vs, 0 ≤ vol vs)
    (hd : 1 ≤ par.ss.nDim) (hwi : par.ss.within = .random ∨ (par.ss.within = .deterministic ∧ par.ss.nDim ≤ 2))
    (h3 : 2 < y.count a) (hn : 0 < requested par.proportion (y.count b) (y.count a)) (hX : par.nNeighbors + 1 ≤ X.length) :
    let A := classRows X y a
    let share := cbsoShare knn par.nNeighbors X y a b
    ∃ (clusters : List (List Nat)) (selected : List Nat) (new : List Row),
      sample defaultChecks d (cbsoAlg par cp vol cu drs d dist knn) X y =
        .ok (X ++ new, y ++ List.replicate (requested par.proportion (y.count b) (y.count a)) a) ∧
      new.length = requested par.proportion (y.count b) (y.count a) ∧
      IsPartition A.length clusters ∧
      (∀ c ∈ clusters, ∀ p ∈ c, ∀ q, q < A.length →
        (q ∈ c ↔ Linked A.length (fun i j => dist (A.getD i []) (A.getD j [])) (cbsoRadius cp dist knn A) p q)) ∧
      DrawnByShares (clusters.map (fun c => (c.map share).sum)) cu (requested par.proportion (y.count b) (y.count a)) selected ∧
      ByCluster clusters.length selected (fun c x => ClusterSimplex d (min par.ss.nDim (clusters.getD c []).length)
        ((clusters.getD c []).map (fun i => A.getD i []))
        (fun i => ∃ p, (clusters.getD c [])[i]? = some p ∧ (0 < cbsoCount knn par.nNeighbors X y a b p ∨
          ∀ q, q < A.length → cbsoCount knn par.nNeighbors X y a b q = 0)) x ∧
        (par.ss.simplexSampling ≠ .deterministic → par.ss.within = .random → ∃ t i b, DrawsShare ((clusters.getD c []).map share)
          ((drs t).choiceU i) b ∧ ClusterSimplex d (min par.ss.nDim (clusters.getD c []).length)
            ((clusters.getD c []).map (fun i => A.getD i [])) (fun p => p = b) x)) new := by
  intro A share
  obtain ⟨s, hs, rfl, rfl⟩ := stats_of_isMinority hmin
  obtain ⟨hm, hM, hab⟩ := stats_min_mem hs
  have hA : A.length = y.count s.minLabel := classRows_length hwf.1 s.minLabel
  rw [sample_default hs, if_neg (by omega)]
  unfold cbsoAlg
  rw [stats_count hs hm, stats_count hs hM, detN_eq_requested, ok_bind, if_neg (by omega)]
  simp only [selectLabel_eq_classRows]
  rw [if_neg (by omega)]
  change ∃ clusters selected new, ((knn (par.nNeighbors + 1) X A).mapM _ >>= _) = _ ∧ _
  obtain ⟨q1, q2⟩ := hk (par.nNeighbors + 1) X A hX
  set counts := (List.range A.length).map (fun i => (cbsoCount knn par.nNeighbors X y s.minLabel s.majLabel i : ℚ)) with hcounts
  have hcm : (knn (par.nNeighbors + 1) X A).mapM (fun row => do
      let ls ← takeRows y (row.drop 1)
      return (ls.count s.majLabel : ℚ)) = .ok counts := by
    rw [mapM_ok_of (g := fun row : List Nat => (((row.drop 1).map (fun j => y.getD j 0)).count s.majLabel : ℚ))]
    · congr 1
      apply List.ext_getElem
      · rw [List.length_map, q1, hcounts, List.length_map, List.length_range]
      · intro i h1 h2
        rw [List.length_map] at h1
        simp only [hcounts, List.getElem_map, List.getElem_range]
        unfold cbsoCount
        rw [List.getD_eq_getElem?_getD (l := knn _ _ _), List.getElem?_eq_getElem h1]
        rfl
    · intro row hrow
      rw [takeRows_map_getD 0 (fun j hj => by rw [← hwf.1]; exact (q2 row hrow).2 j (List.mem_of_mem_drop hj)), ok_bind]
      rfl
  rw [hcm, ok_bind, fixDensity_fin]
  have hc0 : ∀ q ∈ counts, 0 ≤ q := by
    intro q hq
    obtain ⟨i, _, rfl⟩ := List.mem_map.1 hq
    exact Nat.cast_nonneg _
  have hcl : counts.length = A.length := by rw [hcounts, List.length_map, List.length_range]
  obtain ⟨w1, w2, w3⟩ := shares_distribution hc0 (List.length_pos_iff.1 (by omega))
  have hshare : ∀ i, (shares counts).getD i 0 = share i := fun i => rfl
  have hsh0 : ∀ i, 0 ≤ share i := by
    intro i
    rw [← hshare, List.getD_eq_getElem?_getD]
    cases h : (shares counts)[i]? with
    | none => exact le_refl _
    | some q => exact w2 q (List.mem_of_getElem? h)
  have hsum : ((List.range A.length).map share).sum = 1 := by
    rw [← w3]
    congr 1
    rw [← hcl, ← w1]
    exact map_getD_self _ 0
  obtain ⟨clusters, hloop, hpart, hlink⟩ := C35_cbso A.length (by omega) (fun i j => dist (A.getD i []) (A.getD j []))
    (fun p q => hD _ _) (cbsoRadius cp dist knn A)
  have hcc : cbsoClusters cp dist knn A = .ok clusters := by
    unfold cbsoClusters
    rw [cbsoThreshold_eq hk (by omega), ok_bind, hloop, ok_bind]
    rfl
  rw [hcc, ok_bind]
  simp only [hshare]
  have hcsum : (clusters.map (fun c => (c.map share).sum)).sum = 1 := by rw [sum_partition hpart, hsum]
  have hcs0 : ∀ x ∈ clusters.map (fun c => (c.map share).sum), 0 ≤ x := by
    intro x hx
    obtain ⟨c, _, rfl⟩ := List.mem_map.1 hx
    apply List.sum_nonneg
    intro z hz
    obtain ⟨i, _, rfl⟩ := List.mem_map.1 hz
    exact hsh0 i
  obtain ⟨sel, out, hout, hol, hdrawn, hselp, hby⟩ := drawClusters_strong (ss := par.ss) (vol := vol) (cu := cu) (drs := drs) (d := d)
    (T := fun c => { rows := (clusters.getD c []).map (fun i => A.getD i []), indices := circulant (clusters.getD c []).length,
                     k := (clusters.getD c []).length, args := { baseWeights := some (shares ((clusters.getD c []).map share)) } })
    (task := fun c => do
      let cl ← getRow clusters c
      let rows ← takeRows A cl
      return { rows := rows, indices := circulant rows.length, k := rows.length,
               args := { baseWeights := some (fixDensity (cl.map (fun i => XF.fin (share i)))) } })
    hn hcs0 (by rw [hcsum]; norm_num) (by
      intro c x hx hxp
      rw [List.getElem?_map, Option.map_eq_some_iff] at hx
      obtain ⟨cl, hcl', rfl⟩ := hx
      have hmem := List.mem_of_getElem? hcl'
      have hg : clusters.getD c [] = cl := by rw [List.getD_eq_getElem?_getD, hcl']; rfl
      have hlt : ∀ i ∈ cl, i < A.length := fun i hi => hpart.lt hmem hi
      have hne := hpart.2 cl hmem
      have hlp := List.length_pos_iff.2 hne
      rw [hg]
      constructor
      · rw [getRow_ok.2 hcl', ok_bind, takeRows_map_getD [] hlt, ok_bind, List.length_map,
          show cl.map (fun i => XF.fin (share i)) = (cl.map share).map XF.fin by rw [List.map_map]; rfl, fixDensity_fin]
        rfl
      · have hnn : ∀ q ∈ cl.map share, 0 ≤ q := by
          intro q hq
          obtain ⟨i, _, rfl⟩ := List.mem_map.1 hq
          exact hsh0 i
        obtain ⟨v1, v2, v3⟩ := shares_distribution hnn (by simpa using hne)
        refine ⟨?_, by simpa using hne, ?_, ?_, hlp, rfl, ?_, v2, by rw [v3]; norm_num⟩
        · intro r hr
          obtain ⟨j, hj, rfl⟩ := List.mem_map.1 hr
          rw [List.getD_eq_getElem?_getD, List.getElem?_eq_getElem (hlt j hj)]
          exact hwf.2 _ (mem_of_mem_classRows (List.getElem_mem (hlt j hj)))
        · dsimp only; rw [List.length_map]; exact circulant_tableOK _
        · dsimp only; rw [List.length_map, circulant_length]
        · rw [v1, List.length_map]; simp)
    hcu hdr hu hg hvol hd hwi
  refine ⟨clusters, sel, out, ?_, hol, hpart, hlink, ?_, ?_⟩
  · rw [hout, ok_bind]
    unfold withSamples
    rw [hol]
    rfl
  · rw [shares_nonzero (by rw [hcsum]; norm_num), hcsum] at hdrawn
    simpa [Function.comp_def] using hdrawn
  · rw [List.length_map] at hby
    refine hby.imp ?_
    intro c hc x hx
    obtain ⟨z, hz, hzp⟩ := hselp c hc
    rw [List.getElem?_map, Option.map_eq_some_iff] at hz
    obtain ⟨cl, hcl', rfl⟩ := hz
    have hg : clusters.getD c [] = cl := by rw [List.getD_eq_getElem?_getD, hcl']; rfl
    dsimp only at hx
    rw [hg] at hx ⊢
    rw [show circulant cl.length = circulant (cl.map (fun i => A.getD i [])).length by rw [List.length_map]] at hx
    refine ⟨?_, fun h1 h2 => ?_⟩
    rotate_left
    · obtain ⟨t, i, b0, hb0, hb1⟩ := hx.2 h1 h2 _ rfl
      rw [shares_nonzero hzp.ne'] at hb0
      exact ⟨t, i, b0, drawsShare_div hzp hb0, hb1.circulant⟩
    obtain ⟨bb, base, nbIdx, nbrs, w', e1, e2, e3⟩ := hx.1.circulant
    refine ⟨bb, base, nbIdx, nbrs, w', e1, ?_, e3⟩
    obtain ⟨q, hq, hqp⟩ := e2 _ rfl
    obtain ⟨v, hv, hv'⟩ := shares_pos (by
      intro q hq
      obtain ⟨i, _, rfl⟩ := List.mem_map.1 hq
      exact hsh0 i) hq hqp
    have hvp : 0 < v := by
      rcases hv' with h | h
      · exact h
      · exfalso
        rw [List.sum_eq_zero h] at hzp
        exact lt_irrefl _ hzp
    rw [List.getElem?_map, Option.map_eq_some_iff] at hv
    obtain ⟨p, hp, rfl⟩ := hv
    refine ⟨p, hp, ?_⟩
    have hpA : p < A.length := hpart.lt (List.mem_of_getElem? hcl') (List.mem_of_getElem? hp)
    rw [← hshare, List.getD_eq_getElem?_getD] at hvp
    have hpl : p < (shares counts).length := by rw [w1, hcl]; exact hpA
    rw [List.getElem?_eq_getElem hpl] at hvp
    obtain ⟨x', hx', hx''⟩ := shares_pos hc0 (List.getElem?_eq_getElem hpl) hvp
    rw [hcounts, List.getElem?_map, List.getElem?_range hpA] at hx'
    simp only [Option.map_some, Option.some.injEq] at hx'
    rcases hx'' with h | h
    · left; rw [← hx'] at h; exact_mod_cast h
    · right
      intro q hq
      have := h _ (List.mem_map.2 ⟨q, List.mem_range.2 hq, rfl⟩)
      exact_mod_cast this

/-- With more neighbours than rows CBSO raises `ValueError`. -/
theorem C104_too_few {par : NbParams} {cp : ℚ} {vol : List Row → ℚ} {cu : Nat → ℚ} {drs : Nat → Draws} {d : Nat} {dist : Row → Row → ℚ}
    {knn : Nat → List Row → List Row → List (List Nat)} {X : List Row} {y : List Int} {a b : Int} (hmin : IsMinority y a b)
    (h3 : 2 < y.count a) (hn : 0 < requested par.proportion (y.count b) (y.count a)) (hX : X.length ≤ par.nNeighbors) :
    sample defaultChecks d (cbsoAlg par cp vol cu drs d dist knn) X y = .error .valueError := by
  obtain ⟨s, hs, rfl, rfl⟩ := stats_of_isMinority hmin
  obtain ⟨hm, hM, _⟩ := stats_min_mem hs
  rw [sample_default hs, if_neg (by omega)]
  unfold cbsoAlg
  rw [stats_count hs hm, stats_count hs hM, detN_eq_requested, ok_bind, if_neg (by omega)]
  dsimp only
  rw [if_pos (by omega)]
  rfl

/-- A minority row further than the threshold from all the others is a group of its own, and everything made in that group is a copy of
the row. -/
theorem C104_isolated {d N nDim : Nat} {D : Nat → Nat → ℚ} {T : ℚ} {A : List Row} {clusters : List (List Nat)}
    (hA : ∀ r ∈ A, r.length = d) (hN : N = A.length) (hpart : IsPartition N clusters) (hd : 1 ≤ nDim)
    (hlink : ∀ c ∈ clusters, ∀ p ∈ c, ∀ q, q < N → (q ∈ c ↔ Linked N D T p q)) {c : List Nat} (hc : c ∈ clusters) {p : Nat} (hp : p ∈ c)
    (hiso : ∀ q, q < N → q ≠ p → T < D p q) :
    c = [p] ∧ ∀ ok x, ClusterSimplex d (min nDim c.length) (c.map (fun i => A.getD i [])) ok x → x = A.getD p [] := by
  have hnd : c.Nodup := by
    have := hpart.1.nodup_iff.2 List.nodup_range
    rw [List.nodup_flatten] at this
    exact this.1 c hc
  have hall : ∀ q ∈ c, q = p := by
    intro q hq
    have hl := (hlink c hc p hp q (hpart.lt hc hq)).1 hq
    induction hl with
    | refl => rfl
    | @tail r s h1 h2 ih =>
      have hr : r = p := ih ((hlink c hc p hp r h2.1).2 h1)
      by_contra hs
      rw [hr] at h2
      exact absurd h2.2.2 (not_le.2 (hiso s h2.2.1 hs))
  have hcp : c = [p] := by
    match c, hnd, hall, hp with
    | [q], _, h, _ => rw [h q (by simp)]
    | q :: r :: l, hnd, h, _ =>
      have h1 := h q (by simp)
      have h2 := h r (by simp)
      rw [h1, h2] at hnd
      simp at hnd
  refine ⟨hcp, ?_⟩
  subst hcp
  rintro ok x ⟨b, base, nbIdx, nbrs, w, h1, _, _, h4, h5, h6⟩
  have hm : min nDim [p].length = 1 := by rw [List.length_singleton]; omega
  rw [hm] at h4
  have hb0 : b = 0 := by
    have := (List.getElem?_eq_some_iff.1 h1).1
    simpa using this
  subst hb0
  simp only [List.map_cons, List.map_nil, List.getElem?_cons_zero, Option.some.injEq] at h1
  have hpA : p < A.length := by rw [← hN]; exact hpart.lt hc (by simp)
  have hbase : base.length = d := by
    rw [← h1, List.getD_eq_getElem?_getD, List.getElem?_eq_getElem hpA]
    exact hA _ (List.getElem_mem hpA)
  have hx := SimplexOf.copy (X := [base]) (V := [base]) (table := [[0]]) (ok := fun _ => True) (x := x) (d := d)
    (by intro r hr; rw [List.mem_singleton.1 hr]; exact hbase) (by
      have hn : nbIdx = [] := List.length_eq_zero_iff.1 (by omega)
      subst hn
      cases h5
      exact ⟨0, base, [0], [], [], w, rfl, trivial, rfl, by simp, rfl, .nil, h6⟩)
  rw [List.mem_singleton.1 hx, h1]

/-! ## A concrete data set -/

/-- Three minority rows close together, one far away next to the majority. -/
def cbX : List Row := [[0], [1], [2], [20], [21], [22], [23], [24], [25], [26]]
def cbY : List Int := [1, 1, 1, 1, 0, 0, 0, 0, 0, 0]
def cbPar : NbParams :=
  { proportion := 1, nNeighbors := 2, ss := { nDim := 2, simplexSampling := .random, within := .random, gaussian := .none } }
def cbDist (p q : Row) : ℚ := |p.getD 0 0 - q.getD 0 0|

example : WF 1 cbX cbY ∧ IsMinority cbY 1 0 ∧ KnnQueryOK bruteQuery ∧ (∀ p q, cbDist p q = cbDist q p) ∧
    (List.range 4).map (cbsoCount bruteQuery 2 cbX cbY 1 0) = [0, 0, 0, 2] ∧
    cbsoRadius (13 / 10) cbDist bruteQuery (classRows cbX cbY 1) = 273 / 40 ∧
    cbsoClusters (13 / 10) cbDist bruteQuery (classRows cbX cbY 1) = .ok [[0, 1, 2], [3]] ∧
    sample defaultChecks 1 (cbsoAlg cbPar (13 / 10) (fun _ => 1) (fun _ => 1 / 2) (fun _ => exDraws) 1 cbDist bruteQuery) cbX cbY =
      .ok (cbX ++ [[20], [20]], cbY ++ [1, 1]) := by
  refine ⟨⟨rfl, by decide⟩, ⟨by decide, by decide, by decide, Or.inl (by decide)⟩, bruteQuery_ok, fun _ _ => abs_sub_comm _ _,
    by decide +kernel, by decide +kernel, by decide +kernel, by decide +kernel⟩

example : sample defaultChecks 1 (cbsoAlg { cbPar with nNeighbors := 10 } (13 / 10) (fun _ => 1) (fun _ => 1 / 2) (fun _ => exDraws) 1
    cbDist bruteQuery) cbX cbY = .error .valueError := by decide +kernel

end Verif

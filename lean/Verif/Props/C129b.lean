import Verif.Props.C129
import Verif.Props.C48
import Verif.Props.C31
import Mathlib.Data.List.GetD

/-!
# C129 Exactly which rows can be generated: ADASYN, Borderline_SMOTE1, Random_SMOTE
-/

namespace Verif

/-! ## ADASYN -/

theorem adasyn_eq {par : AdasynParams} {d : Nat} {knn : Nat → List Row → List Row → List (List Nat)} {X : List Row} {y : List Int}
    {a b : Int} (hxy : X.length = y.length) (hk : KnnQueryOK knn) (hmin : IsMinority y a b) (hn : 1 ≤ par.nNeighbors)
    (h3 : 2 < y.count a) (hn0 : 0 < requested par.beta (y.count b) (y.count a)) (hsk : ¬ AdasynSkips par knn X y a b) :
    ∃ r : List ℚ, (knn (min (classRows X y a).length (par.nNeighbors + 1)) X (classRows X y a)).mapM
        (adasynRatio y b par.nNeighbors) = .ok r ∧ 0 < r.sum ∧ (∀ x ∈ r, 0 ≤ x) ∧ ∀ (vol : List Row → ℚ) (dr : Draws),
      sample defaultChecks d (adasynAlg par vol dr d knn) X y =
        weightedTail par.ss par.nNeighbors vol dr d knn (r.map (· / r.sum)) X y a (requested par.beta (y.count b) (y.count a)) := by
  obtain ⟨s, hs, rfl, rfl⟩ := stats_of_isMinority hmin
  obtain ⟨hmm, hM, hne⟩ := stats_min_mem hs
  have hl : (classRows X y s.minLabel).length = y.count s.minLabel := classRows_length hxy _
  have hle := List.count_le_length (a := s.minLabel) (l := y)
  obtain ⟨_, k2⟩ := hk (min (classRows X y s.minLabel).length (par.nNeighbors + 1)) X (classRows X y s.minLabel) (by omega)
  obtain ⟨r, hr⟩ := mapM_exists_ok (f := adasynRatio y s.majLabel par.nNeighbors)
    (l := knn (min (classRows X y s.minLabel).length (par.nNeighbors + 1)) X (classRows X y s.minLabel))
    (fun row hrow => adasynRatio_ok (fun j hj => by rw [← hxy]; exact (k2 row hrow).2 j hj))
  have hrz : r.sum ≠ 0 := by
    intro h0
    apply hsk
    right
    unfold adasynK
    rw [← hl]
    exact (ratios_sum_zero hn hr).1 h0
  have hr0 : ∀ x ∈ r, 0 ≤ x := by
    intro x hx
    obtain ⟨i, hi⟩ := List.mem_iff_getElem?.1 hx
    exact (ratios_get hn hr hi).1
  refine ⟨r, hr, lt_of_le_of_ne (List.sum_nonneg hr0) (Ne.symm hrz), hr0, fun vol dr => ?_⟩
  rw [sample_default hs, if_neg (by omega)]
  unfold adasynAlg
  rw [stats_count hs hmm, stats_count hs hM, detN_eq_requested, ok_bind, if_neg (by omega)]
  dsimp only
  rw [selectLabel_eq_classRows]
  have hcnt := count_two hne hmin.2.2.1
  have hMp : 0 < y.count s.majLabel := List.count_pos_iff.2 hM
  have hmaj : X.length - (classRows X y s.minLabel).length = y.count s.majLabel := by omega
  have hd : ¬ ((classRows X y s.minLabel).length : ℚ) / (y.count s.majLabel : ℚ) > par.dTh := by
    intro hd
    apply hsk
    left
    rw [← hl]; exact hd
  rw [hmaj, if_neg (by omega), if_neg hd, hr, ok_bind, if_neg hrz]
  rfl

/-- **ADASYN**, unless it skips: the bases are exactly the minority rows which have a majority row among their neighbours; every point
of every simplex of such a row and of `n_dim - 1` of its minority neighbours can be generated, and nothing else. -/
theorem C129_adasyn {par : AdasynParams} {vol : List Row → ℚ} {d : Nat}
    {knn : Nat → List Row → List Row → List (List Nat)} {X : List Row} {y : List Int} {a b : Int} (hwf : WF d X y)
    (hk : KnnQueryOK knn) (hmin : IsMinority y a b) (hn : 1 ≤ par.nNeighbors) (hvol : ∀ vs, 0 ≤ vol vs) (h3 : 2 < y.count a)
    (hd : 1 ≤ par.ss.nDim) (hmode : par.ss.simplexSampling = .random) (hwi : par.ss.within = .random)
    (hg : par.ss.gaussian = .none) (hn0 : 0 < requested par.beta (y.count b) (y.count a))
    (hsk : ¬ AdasynSkips par knn X y a b) (new : List Row) :
    let A := classRows X y a
    let k := min A.length (par.nNeighbors + 1)
    (∃ dr : Draws, dr.OK ∧ sample defaultChecks d (adasynAlg par vol dr d knn) X y =
      .ok (X ++ new, y ++ List.replicate new.length a)) ↔
      new.length = requested par.beta (y.count b) (y.count a) ∧
      ∀ x ∈ new, SimplexOf d (min par.ss.nDim k) A A (knn k A A) (HasNeighborLabelled (knn k X A) y b) x := by
  intro A k
  have hAl : A.length = y.count a := classRows_length hwf.1 _
  have hA : A ≠ [] := List.length_pos_iff.1 (by omega)
  obtain ⟨r, hr, hrs, hr0, heq⟩ := adasyn_eq (d := d) hwf.1 hk hmin hn h3 hn0 hsk
  have hle := List.count_le_length (a := a) (l := y)
  have hxy := hwf.1
  obtain ⟨k1, _⟩ := hk k X A (by omega)
  simp only [heq vol]
  rw [weightedTail_iff hwf hk hvol hA hd hmode hwi hg (by rw [List.length_map, mapM_ok_length hr]; exact k1) (by
      intro x hx
      obtain ⟨q, hq, rfl⟩ := List.mem_map.1 hx
      exact div_nonneg (hr0 q hq) hrs.le) (by rw [sum_map_div, div_self hrs.ne']; norm_num) new]
  have hiff : ∀ i : Nat, (∃ q, (r.map (· / r.sum))[i]? = some q ∧ 0 < q) ↔ HasNeighborLabelled (knn k X A) y b i := by
    intro i
    constructor
    · rintro ⟨q, hq, hq0⟩
      rw [List.getElem?_map, Option.map_eq_some_iff] at hq
      obtain ⟨q', hq', rfl⟩ := hq
      obtain ⟨_, ls, hls, hi⟩ := ratios_get hn hr hq'
      exact ⟨ls, hls, hi.1 ((div_pos_iff_of_pos_right hrs).1 hq0)⟩
    · rintro ⟨ls, hls, hm⟩
      obtain ⟨row, hrow, hf⟩ := hls
      have hil : i < r.length := by
        rw [mapM_ok_length hr]; exact (List.getElem?_eq_some_iff.1 hrow).1
      obtain ⟨_, ls', hls', hi⟩ := ratios_get hn hr (List.getElem?_eq_getElem hil)
      rw [neighborLabels_unique ⟨row, hrow, hf⟩ hls'] at hm
      exact ⟨_, by rw [List.getElem?_map, List.getElem?_eq_getElem hil]; rfl, div_pos (hi.2 hm) hrs⟩
  simp only [hiff]
  rfl

/-! ## Borderline_SMOTE1 -/

/-- **Borderline_SMOTE1**, if there are at least two rows which are not noise and at least one row in danger: exactly the points of the
simplices of a row in danger and of `n_dim - 1` rows which are not noise, taken from the neighbours behind the first *two* entries of
the answer of the search. The row listed second, the nearest neighbour proper, is never used. -/
theorem C129_borderline1 {par : BorderParams} {vol : List Row → ℚ} {d : Nat}
    {knn : Nat → List Row → List Row → List (List Nat)} {X : List Row} {y : List Int} {a b : Int} (hwf : WF d X y)
    (hk : KnnQueryOK knn) (hmin : IsMinority y a b) (hkn : 1 ≤ par.kNeighbors) (hvol : ∀ vs, 0 ≤ vol vs) (h3 : 2 < y.count a)
    (hd : 1 ≤ par.ss.nDim) (hmode : par.ss.simplexSampling = .random) (hwi : par.ss.within = .random)
    (hg : par.ss.gaussian = .none) :
    ∃ kept danger,
      RowsAt (classRows X y a) (fun i => ¬ IsNoiseRow (borderTab par knn X y a) y b i) kept ∧
      RowsAt (classRows X y a) (IsDangerRow (borderTab par knn X y a) y b) danger ∧
      (2 ≤ kept.length → danger ≠ [] → ∀ new : List Row,
        let k := min kept.length (par.kNeighbors + 1)
        (∃ dr : Draws, dr.OK ∧ sample defaultChecks d (borderline1Alg par vol dr d knn) X y =
          .ok (X ++ new, y ++ List.replicate new.length a)) ↔
          new.length = requested par.proportion (y.count b) (y.count a) ∧
          ∀ x ∈ new, SimplexOf d (min par.ss.nDim (k - 1)) danger kept ((knn k kept danger).map (fun row => row.drop 1))
            (fun _ => True) x) := by
  obtain ⟨s, hs, rfl, rfl⟩ := stats_of_isMinority hmin
  obtain ⟨hm, hM, hne⟩ := stats_min_mem hs
  obtain ⟨kept, danger, hdn, hkept, hdanger⟩ := dangerRemoveNoise_spec hk par.nNeighbors hwf.1
    (classRows X y s.minLabel) s.majLabel
  refine ⟨kept, danger, hkept, hdanger, fun hk2 hdne new => ?_⟩
  intro k
  have hdpos := List.length_pos_iff.2 hdne
  set n := requested par.proportion (y.count s.majLabel) (y.count s.minLabel) with hnd
  set tab := (knn k kept danger).map (fun row => row.drop 1) with htab
  have hA : ∀ (i : Nat) (r : Row), (classRows X y s.minLabel)[i]? = some r → r.length = d := by
    intro i r hr
    exact hwf.2 r (mem_of_mem_classRows (List.mem_of_getElem? hr))
  have hkd : ∀ r ∈ kept, r.length = d := fun r hr => by
    obtain ⟨i, hi, _⟩ := hkept.get hr; exact hA i r hi
  have hdd : ∀ r ∈ danger, r.length = d := fun r hr => by
    obtain ⟨i, hi, _⟩ := hdanger.get hr; exact hA i r hi
  obtain ⟨hk1, hk1t⟩ := hk k kept danger (by omega)
  have htl : tab.length = danger.length := by rw [htab, List.length_map, hk1]
  have heq : ∀ dr, sample defaultChecks d (borderline1Alg par vol dr d knn) X y = if n = 0 then .ok (X, y) else (do
      let samples ← sampleSimplex par.ss vol dr d danger tab (k - 1) n { Xv := some kept }
      return withSamples X y s.minLabel samples) := by
    intro dr
    rw [sample_default hs, if_neg (by omega)]
    unfold borderline1Alg
    rw [stats_count hs hm, stats_count hs hM, detN_eq_requested, ok_bind]
    split
    · rfl
    · rw [selectLabel_eq_classRows, hdn, ok_bind]
      dsimp only
      rw [if_neg (by omega)]
  have hcase : ∀ dr, (sample defaultChecks d (borderline1Alg par vol dr d knn) X y =
        .ok (X ++ new, y ++ List.replicate new.length s.minLabel)) ↔
      sampleSimplex par.ss vol dr d danger tab (k - 1) n { Xv := some kept } = .ok new := by
    intro dr
    rw [heq dr]
    split
    · rename_i h0
      rw [h0]
      have : sampleSimplex par.ss vol dr d danger tab (k - 1) 0 { Xv := some kept } = .ok [] := by
        unfold sampleSimplex; rw [if_pos rfl]; rfl
      rw [this]
      constructor
      · intro h
        injection h with h
        have := congrArg (fun p : List Row × List Int => p.1) h
        simp only [List.self_eq_append_right] at this
        rw [this]
      · intro h
        injection h with h
        rw [← h]
        simp
    · constructor
      · intro h
        obtain ⟨out, hout, h⟩ := bind_ok.1 h
        rw [pure_ok] at h
        unfold withSamples at h
        rw [Prod.mk.injEq] at h
        rw [← List.append_cancel_left h.1]
        exact hout
      · intro h
        rw [h, ok_bind]
        rfl
  simp only [hcase]
  constructor
  · rintro ⟨dr, hdr, hout⟩
    obtain ⟨g1, g2⟩ := sampleSimplex_simplexOf hdd (by intro V hV; injection hV with hV; subst hV; exact hkd) rfl
      (by intro hV; cases hV) hdr (le_of_eq htl) hg (by intro w hw; cases hw) rfl hvol hout
    refine ⟨g1, fun x hx => ?_⟩
    obtain ⟨b, base, row, nbIdx, nbrs, wt, h1, _, h3⟩ := g2 x hx
    exact ⟨b, base, row, nbIdx, nbrs, wt, h1, trivial, h3⟩
  · rintro ⟨hl, hx⟩
    exact sampleSimplex_reaches (ss := par.ss) (vol := vol) (bw := none) (Xv := some kept) (out := new) (n := n) hdd
      (by intro V hV; injection hV with hV; subst hV; exact hkd) (tableOK_drop hk1t) (le_of_eq htl)
      (by apply List.length_pos_iff.1; omega) (by omega) hd hmode hwi hg
      (by intro w hw; cases hw) hl (fun x h => by
        obtain ⟨b, base, row, nbIdx, nbrs, wt, h1, _, h3⟩ := hx x h
        exact ⟨b, base, row, nbIdx, nbrs, wt, h1, (by intro w hw; cases hw), h3⟩)

/-! ## Random_SMOTE -/

/-- Every row between two rows is a coordinate-wise mixture. -/
theorem between_mixRow {d : Nat} {p q x : Row} (hp : p.length = d) (hq : q.length = d) (h : Between d p q x) :
    ∃ u : Nat → ℚ, (∀ j, 0 ≤ u j ∧ u j ≤ 1) ∧ mixRow p q u = x := by
  have hex : ∀ j, ∃ t : ℚ, (0 ≤ t ∧ t ≤ 1) ∧ (j < d → p.getD j 0 + (q.getD j 0 - p.getD j 0) * t = x.getD j 0) := by
    intro j
    by_cases hj : j < d
    · obtain ⟨h1, h2⟩ := h.2 j hj
      set a := p.getD j 0
      set c := q.getD j 0
      set z := x.getD j 0
      by_cases he : c = a
      · refine ⟨0, by norm_num, fun _ => ?_⟩
        rw [he, min_self] at h1
        rw [he, max_self] at h2
        rw [he]; linarith
      · have hne : c - a ≠ 0 := sub_ne_zero.2 he
        refine ⟨(z - a) / (c - a), ?_, fun _ => by field_simp; ring⟩
        rcases lt_or_gt_of_ne he with hlt | hlt
        · rw [min_eq_right hlt.le] at h1
          rw [max_eq_left hlt.le] at h2
          have : (z - a) / (c - a) = (a - z) / (a - c) := by
            rw [← neg_sub a z, ← neg_sub a c, neg_div_neg_eq]
          rw [this]
          exact ⟨div_nonneg (by linarith) (by linarith), (div_le_one (by linarith)).2 (by linarith)⟩
        · rw [min_eq_left hlt.le] at h1
          rw [max_eq_right hlt.le] at h2
          exact ⟨div_nonneg (by linarith) (by linarith), (div_le_one (by linarith)).2 (by linarith)⟩
    · exact ⟨0, by norm_num, fun h => absurd h hj⟩
  choose u hu1 hu2 using hex
  refine ⟨u, hu1, ?_⟩
  have hml := mixRow_length (u := u) hp hq
  apply List.ext_getElem
  · rw [hml, h.1]
  · intro j g1 g2
    have hj : j < d := by rw [← hml]; exact g1
    have e := mixRow_getD (u := u) hp hq hj
    rw [hu2 j hj] at e
    rw [List.getD_eq_getElem _ _ g1, List.getD_eq_getElem _ _ g2] at e
    exact e

/-- `x` lies, coordinate by coordinate, between a row of `S` and a point which lies between two of its neighbours (possibly twice the
same one) listed behind the first entry. -/
def FromNeighbourBox (d : Nat) (S : List Row) (table : List (List Nat)) (x : Row) : Prop :=
  ∃ (b : Nat) (base : Row) (nbs : List Nat) (j1 j2 : Nat) (p q m : Row),
    S[b]? = some base ∧ table[b]? = some nbs ∧ j1 ∈ nbs.drop 1 ∧ j2 ∈ nbs.drop 1 ∧ S[j1]? = some p ∧ S[j2]? = some q ∧
    Between d p q m ∧ Between d base m x

theorem mem_drop_one {l : List Nat} {j : Nat} : j ∈ l.drop 1 ↔ ∃ i, 1 ≤ i ∧ i < l.length ∧ l[i]? = some j := by
  rw [List.mem_iff_getElem?]
  constructor
  · rintro ⟨i, hi⟩
    rw [List.getElem?_drop] at hi
    exact ⟨1 + i, by omega, (List.getElem?_eq_some_iff.1 hi).1, hi⟩
  · rintro ⟨i, h1, _, h3⟩
    exact ⟨i - 1, by rw [List.getElem?_drop, ← h3]; congr 1; omega⟩

theorem randomSmoteRow_iff {d k : Nat} {A : List Row} {tab : List (List Nat)} (hA : ∀ r ∈ A, r.length = d)
    (ht : TableOK tab k A.length) (x : Row) :
    FromNeighbourBox d A tab x ↔ ∃ (c n1 n2 : Nat) (u1 u2 : Nat → ℚ), c < A.length ∧ (1 ≤ n1 ∧ n1 < k) ∧ (1 ≤ n2 ∧ n2 < k) ∧
      (∀ j, 0 ≤ u1 j ∧ u1 j ≤ 1) ∧ (∀ j, 0 ≤ u2 j ∧ u2 j ≤ 1) ∧
      ∀ (dr : RsDraws) (i : Nat), dr.base i = c → dr.nb1 i = n1 → dr.nb2 i = n2 → dr.u1 i = u1 → dr.u2 i = u2 →
        randomSmoteRow dr A tab i = .ok x := by
  constructor
  · rintro ⟨b, base, nbs, j1, j2, p, q, m, hb, hn, h1, h2, hp, hq, hm, hx⟩
    obtain ⟨n1, g1, g2, g3⟩ := mem_drop_one.1 h1
    obtain ⟨n2, g4, g5, g6⟩ := mem_drop_one.1 h2
    have hnl := (ht nbs (List.mem_of_getElem? hn)).1
    have lp := hA p (List.mem_of_getElem? hp)
    have lq := hA q (List.mem_of_getElem? hq)
    have lb := hA base (List.mem_of_getElem? hb)
    obtain ⟨u1, hu1, rfl⟩ := between_mixRow lp lq hm
    obtain ⟨u2, hu2, rfl⟩ := between_mixRow lb (mixRow_length lp lq) hx
    refine ⟨b, n1, n2, u1, u2, (List.getElem?_eq_some_iff.1 hb).1, ⟨g1, by omega⟩, ⟨g4, by omega⟩, hu1, hu2, ?_⟩
    intro dr i e1 e2 e3 e4 e5
    unfold randomSmoteRow
    rw [e1, e2, e3, e4, e5, getRow_ok.2 hb, ok_bind, getRow_ok.2 hn, ok_bind, getRow_ok.2 g3, ok_bind, getRow_ok.2 g6, ok_bind,
      getRow_ok.2 hp, ok_bind, getRow_ok.2 hq, ok_bind]
    rfl
  · rintro ⟨c, n1, n2, u1, u2, hc, h1, h2, hu1, hu2, h⟩
    have hi := h ⟨fun _ => c, fun _ => n1, fun _ => n2, fun _ => u1, fun _ => u2⟩ 0 rfl rfl rfl rfl rfl
    unfold randomSmoteRow at hi
    dsimp only at hi
    obtain ⟨base, hbase, hi⟩ := bind_ok.1 hi
    obtain ⟨nbs, hnbs, hi⟩ := bind_ok.1 hi
    obtain ⟨j1, hj1, hi⟩ := bind_ok.1 hi
    obtain ⟨j2, hj2, hi⟩ := bind_ok.1 hi
    obtain ⟨p, hp, hi⟩ := bind_ok.1 hi
    obtain ⟨q, hq, hi⟩ := bind_ok.1 hi
    injection hi with hi
    subst hi
    have hnl := (ht nbs (getRow_mem hnbs)).1
    have lp := hA p (getRow_mem hp)
    have lq := hA q (getRow_mem hq)
    have lb := hA base (getRow_mem hbase)
    exact ⟨c, base, nbs, j1, j2, p, q, _, getRow_ok.1 hbase, getRow_ok.1 hnbs,
      mem_drop_one.2 ⟨n1, h1.1, by omega, getRow_ok.1 hj1⟩, mem_drop_one.2 ⟨n2, h2.1, by omega, getRow_ok.1 hj2⟩, getRow_ok.1 hp,
      getRow_ok.1 hq, mixRow_between lp lq hu1, mixRow_between lb (mixRow_length lp lq) hu2⟩

/-- **Random_SMOTE**: exactly the lists of as many rows as requested, each between a minority row and a point between two of its
neighbours, in every coordinate. These boxes are larger than the triangle of the three rows. -/
theorem C129_random_smote {prop : ℚ} {k d : Nat} {knn : Nat → List Row → List (List Nat)} {X : List Row} {y : List Int} {a b : Int}
    (hwf : WF d X y) (hmin : IsMinority y a b) (hknn : KnnOK knn) (hk : 1 ≤ k) (h3 : 2 < y.count a) (new : List Row) :
    let A := classRows X y a
    let k' := min A.length (k + 1)
    (∃ dr : RsDraws, dr.OK A.length k' ∧ sample defaultChecks d (randomSmoteAlg prop k dr knn) X y =
      .ok (X ++ new, y ++ List.replicate new.length a)) ↔
      new.length = requested prop (y.count b) (y.count a) ∧ ∀ x ∈ new, FromNeighbourBox d A (knn k' A) x := by
  intro A k'
  obtain ⟨s, hs, rfl, rfl⟩ := stats_of_isMinority hmin
  obtain ⟨hm, hM, _⟩ := stats_min_mem hs
  have hAl : A.length = y.count s.minLabel := classRows_length hwf.1 _
  have hAd : ∀ r ∈ A, r.length = d := fun r hr => hwf.2 r (mem_of_mem_classRows hr)
  obtain ⟨_, ht⟩ := hknn k' A (Nat.min_le_left _ _)
  set n := requested prop (y.count s.majLabel) (y.count s.minLabel) with hn
  have hcase : ∀ dr, (sample defaultChecks d (randomSmoteAlg prop k dr knn) X y =
      .ok (X ++ new, y ++ List.replicate new.length s.minLabel)) ↔
      (List.range n).mapM (randomSmoteRow dr A (knn k' A)) = .ok new := by
    intro dr
    rw [sample_default hs, if_neg (by omega)]
    unfold randomSmoteAlg
    rw [stats_count hs hm, stats_count hs hM, detN_eq_requested, ok_bind]
    split
    · rename_i h0
      rw [← hn] at h0
      rw [h0]
      constructor
      · intro h
        injection h with h
        have := congrArg (fun p : List Row × List Int => p.1) h
        simp only [List.self_eq_append_right] at this
        rw [this]; rfl
      · intro h
        injection h with h
        rw [← h]
        simp
    · dsimp only
      rw [selectLabel_eq_classRows, choiceFrom_pos (by change 0 < A.length; omega), ok_bind,
        choiceFrom_pos (by change 0 < min A.length (k + 1) - 1; omega), ok_bind]
      constructor
      · intro h
        obtain ⟨out, hout, h⟩ := bind_ok.1 h
        rw [pure_ok] at h
        unfold withSamples at h
        rw [Prod.mk.injEq] at h
        rw [← List.append_cancel_left h.1]
        exact hout
      · intro h
        change (do let samples ← (List.range n).mapM (randomSmoteRow dr A (knn k' A)); return withSamples X y s.minLabel samples) = _
        rw [h, ok_bind]
        rfl
  simp only [hcase]
  constructor
  · rintro ⟨dr, hdr, h⟩
    have hlen := mapM_ok_length h
    rw [List.length_range] at hlen
    refine ⟨hlen, fun x hx => ?_⟩
    obtain ⟨i, -, hi⟩ := forall₂_mem_right (mapM_ok_iff.1 h) hx
    rw [randomSmoteRow_iff hAd ht]
    refine ⟨dr.base i, dr.nb1 i, dr.nb2 i, dr.u1 i, dr.u2 i, hdr.base i, hdr.nb1 i, hdr.nb2 i, hdr.u1 i, hdr.u2 i, ?_⟩
    intro dr' i' e1 e2 e3 e4 e5
    unfold randomSmoteRow at hi ⊢
    rw [e1, e2, e3, e4, e5]
    exact hi
  · rintro ⟨hl, hx⟩
    have hex : ∀ i, ∃ (c n1 n2 : Nat) (u1 u2 : Nat → ℚ), c < A.length ∧ (1 ≤ n1 ∧ n1 < k') ∧ (1 ≤ n2 ∧ n2 < k') ∧
        (∀ j, 0 ≤ u1 j ∧ u1 j ≤ 1) ∧ (∀ j, 0 ≤ u2 j ∧ u2 j ≤ 1) ∧
        (∀ x, new[i]? = some x → ∀ (dr : RsDraws), dr.base i = c → dr.nb1 i = n1 → dr.nb2 i = n2 → dr.u1 i = u1 → dr.u2 i = u2 →
          randomSmoteRow dr A (knn k' A) i = .ok x) := by
      intro i
      cases hi : new[i]? with
      | none => exact ⟨0, 1, 1, fun _ => 0, fun _ => 0, by omega, by omega, by omega, by norm_num, by norm_num, by intro x h; cases h⟩
      | some x =>
        obtain ⟨c, n1, n2, u1, u2, g1, g2, g3, g4, g5, g6⟩ :=
          (randomSmoteRow_iff hAd ht x).1 (hx x (List.mem_of_getElem? hi))
        exact ⟨c, n1, n2, u1, u2, g1, g2, g3, g4, g5, by intro x' h dr; injection h with h; subst h; exact g6 dr i⟩
    choose c n1 n2 u1 u2 g1 g2 g3 g4 g5 g6 using hex
    refine ⟨⟨c, n1, n2, u1, u2⟩, ⟨g1, g2, g3, g4, g5⟩, ?_⟩
    rw [mapM_ok_iff, List.forall₂_iff_get]
    refine ⟨by rw [List.length_range, hl], fun i h1 h2 => ?_⟩
    simp only [List.get_eq_getElem, List.getElem_range]
    exact g6 i _ (List.getElem?_eq_getElem h2) _ rfl rfl rfl rfl rfl

/-! ## The hypotheses are met -/

example : WF 2 wtX wtY ∧ KnnQueryOK bruteQuery ∧ IsMinority wtY 1 0 ∧ 2 < wtY.count 1 ∧
    0 < requested exPar.proportion (wtY.count 0) (wtY.count 1) ∧
    ¬ AdasynSkips { nNeighbors := 2, dTh := 9 / 10, beta := 1, ss := exPar.ss } bruteQuery wtX wtY 1 0 := by
  refine ⟨⟨by decide, by decide +kernel⟩, bruteQuery_ok, ⟨by decide, by decide, by decide, Or.inl (by decide)⟩, by decide,
    by decide +kernel, ?_⟩
  rintro (h | h)
  · exact absurd h (by decide +kernel)
  · refine h 1 ⟨[0, 1], ⟨[1, 3, 2], by decide +kernel, ?_⟩, by decide⟩
    exact .cons (by decide) (.cons (by decide) .nil)

example : WF 1 borX borY ∧ IsMinority borY 1 0 ∧ 2 < borY.count 1 ∧ KnnQueryOK bruteQuery ∧ 1 ≤ borPar.kNeighbors ∧
    -- three rows that are not noise, two rows in danger
    dangerRemoveNoise bruteQuery 3 borX borY (classRows borX borY 1) 0 = .ok ([[0], [8], [9]], [[8], [9]]) :=
  ⟨⟨by decide, by decide +kernel⟩, ⟨by decide, by decide, by decide, Or.inl (by decide)⟩, by decide, bruteQuery_ok, by decide,
    by decide +kernel⟩

end Verif

import Verif.Lemmas.Interp
import Verif.Spec.Neighbors
import Verif.Lemmas.SmoteExample

/-!
# C31 Coordinatewise interpolation stays between the points it interpolates
-/

namespace Verif

/-- What is assumed of the draws of `Random_SMOTE` for `n` samples from `m` rows with `k` neighbours. -/
structure RsDraws.OK (dr : RsDraws) (m k : Nat) : Prop where
  base : ∀ i, dr.base i < m
  nb1 : ∀ i, 1 ≤ dr.nb1 i ∧ dr.nb1 i < k
  nb2 : ∀ i, 1 ≤ dr.nb2 i ∧ dr.nb2 i < k
  u1 : ∀ i j, 0 ≤ dr.u1 i j ∧ dr.u1 i j ≤ 1
  u2 : ∀ i j, 0 ≤ dr.u2 i j ∧ dr.u2 i j ≤ 1

/-- `x` lies between a row and a point between two of its listed neighbours. -/
def FromTriangleBox (d : Nat) (S : List Row) (indices : List (List Nat)) (x : Row) : Prop :=
  ∃ (b : Nat) (base : Row) (nbs : List Nat) (j1 j2 : Nat) (p q m : Row),
    S[b]? = some base ∧ indices[b]? = some nbs ∧ j1 ∈ nbs ∧ j2 ∈ nbs ∧ S[j1]? = some p ∧ S[j2]? = some q ∧
    Between d p q m ∧ Between d base m x

/-- Every row `Random_SMOTE` adds is between a minority row and a point between two of its minority neighbours, so it is in
the bounding box of the minority class; exactly the requested number of rows is added. -/
theorem C31_random_smote {prop : ℚ} {k d : Nat} {dr : RsDraws} {knn : Nat → List Row → List (List Nat)}
    {X X' : List Row} {y y' : List Int} {a b : Int} (hwf : WF d X y) (hmin : IsMinority y a b)
    (hu1 : ∀ i j, 0 ≤ dr.u1 i j ∧ dr.u1 i j ≤ 1) (hu2 : ∀ i j, 0 ≤ dr.u2 i j ∧ dr.u2 i j ≤ 1)
    (h : sample defaultChecks d (randomSmoteAlg prop k dr knn) X y = .ok (X', y')) :
    Oversampled X y a (requested prop (y.count b) (y.count a)) (fun x =>
      FromTriangleBox d (classRows X y a)
        (knn (min (y.count a) (k + 1)) (classRows X y a)) x ∧ InBox d (classRows X y a) x) X' y' := by
  obtain ⟨s, hs, rfl, rfl⟩ := stats_of_isMinority hmin
  obtain ⟨hm, hM, _⟩ := stats_min_mem hs
  rcases sample_default_ok hs h with h | h
  · exact Or.inl h
  · unfold randomSmoteAlg at h
    rw [stats_count hs hm, stats_count hs hM, detN_eq_requested, ok_bind] at h
    split at h
    · injection h with h
      obtain ⟨rfl, rfl⟩ := Prod.mk.inj h
      exact Or.inl ⟨rfl, rfl⟩
    · right
      dsimp only at h
      obtain ⟨_, _, h⟩ := bind_ok.1 h
      obtain ⟨_, _, h⟩ := bind_ok.1 h
      obtain ⟨samples, hsam, h⟩ := bind_ok.1 h
      injection h with h
      unfold withSamples at h
      obtain ⟨rfl, rfl⟩ := Prod.mk.inj h
      have hlen := mapM_ok_length hsam
      rw [List.length_range] at hlen
      refine ⟨samples, rfl, by rw [hlen], hlen, ?_⟩
      intro x hx
      obtain ⟨i, -, hi⟩ := forall₂_mem_right (mapM_ok_iff.1 hsam) hx
      rw [selectLabel_length hwf.1, selectLabel_eq_classRows] at hi
      unfold randomSmoteRow at hi
      obtain ⟨base, hbase, hi⟩ := bind_ok.1 hi
      obtain ⟨nbs, hnbs, hi⟩ := bind_ok.1 hi
      obtain ⟨j1, hj1, hi⟩ := bind_ok.1 hi
      obtain ⟨j2, hj2, hi⟩ := bind_ok.1 hi
      obtain ⟨p, hp, hi⟩ := bind_ok.1 hi
      obtain ⟨q, hq, hi⟩ := bind_ok.1 hi
      injection hi with hi
      subst hi
      have hl : ∀ r ∈ classRows X y s.minLabel, r.length = d := by
        intro r hr
        rw [← selectLabel_eq_classRows] at hr
        exact mem_selectLabel_length hwf hr
      have lb := hl _ (getRow_mem hbase)
      have lp := hl _ (getRow_mem hp)
      have lq := hl _ (getRow_mem hq)
      have hmid := mixRow_between (u := dr.u1 i) lp lq (hu1 i)
      have hx' := mixRow_between (u := dr.u2 i) lb (mixRow_length (u := dr.u1 i) lp lq) (hu2 i)
      refine ⟨⟨dr.base i, base, nbs, j1, j2, p, q, _, getRow_ok.1 hbase, getRow_ok.1 hnbs, getRow_mem hj1, getRow_mem hj2,
        getRow_ok.1 hp, getRow_ok.1 hq, hmid, hx'⟩, ?_⟩
      exact hx'.inBox (inBox_self (getRow_mem hbase) lb)
        (hmid.inBox (inBox_self (getRow_mem hp) lp) (inBox_self (getRow_mem hq) lq))

/-- `Random_SMOTE` returns for every neighbour search and every sequence of draws within their contracts. -/
theorem C31_random_smote_total {prop : ℚ} {k d : Nat} {dr : RsDraws} {knn : Nat → List Row → List (List Nat)}
    {X : List Row} {y : List Int} {a b : Int} (hwf : WF d X y) (hmin : IsMinority y a b) (hknn : KnnOK knn) (hk : 1 ≤ k)
    (hdr : dr.OK (y.count a) (min (y.count a) (k + 1))) :
    ∃ r, sample defaultChecks d (randomSmoteAlg prop k dr knn) X y = .ok r := by
  obtain ⟨s, hs, rfl, rfl⟩ := stats_of_isMinority hmin
  obtain ⟨hm, hM, _⟩ := stats_min_mem hs
  rw [sample_default hs]
  split
  · exact ⟨_, rfl⟩
  · rename_i h2
    unfold randomSmoteAlg
    rw [stats_count hs hm, stats_count hs hM, detN_eq_requested, ok_bind]
    split
    · exact ⟨_, rfl⟩
    · dsimp only
      have hl := selectLabel_length hwf.1 s.minLabel
      rw [hl, choiceFrom_pos (by omega), ok_bind, choiceFrom_pos (by omega), ok_bind]
      obtain ⟨ht, htab⟩ := hknn (min (y.count s.minLabel) (k + 1)) (selectLabel X y s.minLabel) (by omega)
      suffices hr : ∃ r, (List.range (requested prop (y.count s.majLabel) (y.count s.minLabel))).mapM
          (randomSmoteRow dr (selectLabel X y s.minLabel)
            (knn (min (y.count s.minLabel) (k + 1)) (selectLabel X y s.minLabel))) = .ok r by
        obtain ⟨r, hr⟩ := hr
        rw [hr, ok_bind]
        exact ⟨_, rfl⟩
      apply mapM_exists_ok
      intro i _
      unfold randomSmoteRow
      have hb := hdr.base i
      rw [getRow_lt (by omega : dr.base i < (selectLabel X y s.minLabel).length), ok_bind]
      rw [getRow_lt (by omega), ok_bind]
      obtain ⟨hk1, hk2⟩ := htab _ (List.getElem_mem (by omega : dr.base i < (knn (min (y.count s.minLabel) (k + 1))
        (selectLabel X y s.minLabel)).length))
      have n1 := hdr.nb1 i
      have n2 := hdr.nb2 i
      rw [getRow_lt (by omega), ok_bind, getRow_lt (by omega), ok_bind]
      rw [getRow_lt (hk2 _ (List.getElem_mem _)), ok_bind, getRow_lt (hk2 _ (List.getElem_mem _)), ok_bind]
      exact ⟨_, rfl⟩

/-- Number of rows with label `l` among the listed neighbours, the first entry (the row itself) left out. -/
def levelOf (y : List Int) (l : Int) (nbs : List Nat) : Nat := ((nbs.drop 1).filter (fun i => decide (y[i]? = some l))).length

theorem count_takeRows {y labels : List Int} {l : Int} {idx : List Nat} (h : takeRows y idx = .ok labels) :
    labels.count l = (idx.filter (fun i => decide (y[i]? = some l))).length := by
  have h' := mapM_ok_iff.1 h
  clear h
  induction h' with
  | nil => rfl
  | @cons i v is vs hab _ ih =>
    have hv := getRow_ok.1 hab
    rw [List.filter_cons, hv]
    by_cases he : v = l
    · subst he; simp [ih]
    · simp [he, ih]

/-- How `MSMOTE` may make a row `x`: base a minority row with at least one minority neighbour (not noise), the other end one
of its neighbours, namely the first one unless all its neighbours are minority. -/
def MsmoteRow (d : Nat) (X : List Row) (y : List Int) (l : Int) (k : Nat) (indices : List (List Nat)) (x : Row) : Prop :=
  ∃ (m : Nat) (base : Row) (nbs : List Nat) (pos j : Nat) (nb : Row),
    (classRows X y l)[m]? = some base ∧ indices[m]? = some nbs ∧ 1 ≤ levelOf y l nbs ∧
    1 ≤ pos ∧ nbs[pos]? = some j ∧ X[j]? = some nb ∧ (levelOf y l nbs ≠ k - 1 → pos = 1) ∧ Between d base nb x

theorem C31_msmote {prop : ℚ} {k d : Nat} {dr : MsDraws} {knn : Nat → List Row → List Row → List (List Nat)}
    {X X' : List Row} {y y' : List Int} {a b : Int} (hwf : WF d X y) (hmin : IsMinority y a b)
    (hnb : ∀ i, 1 ≤ dr.nb i) (hu : ∀ i j, 0 ≤ dr.u i j ∧ dr.u i j ≤ 1)
    (h : sample defaultChecks d (msmoteAlg prop k dr knn) X y = .ok (X', y')) :
    Oversampled X y a (requested prop (y.count b) (y.count a))
      (MsmoteRow d X y a (min X.length (k + 1)) (knn (min X.length (k + 1)) X (classRows X y a))) X' y' := by
  obtain ⟨s, hs, rfl, rfl⟩ := stats_of_isMinority hmin
  obtain ⟨hm, hM, _⟩ := stats_min_mem hs
  rcases sample_default_ok hs h with h | h
  · exact Or.inl h
  · unfold msmoteAlg at h
    rw [stats_count hs hm, stats_count hs hM, detN_eq_requested, ok_bind] at h
    split at h
    · injection h with h
      obtain ⟨rfl, rfl⟩ := Prod.mk.inj h
      exact Or.inl ⟨rfl, rfl⟩
    · dsimp only at h
      obtain ⟨types, htypes, h⟩ := bind_ok.1 h
      split at h
      · injection h with h
        obtain ⟨rfl, rfl⟩ := Prod.mk.inj h
        exact Or.inl ⟨rfl, rfl⟩
      · right
        obtain ⟨_, _, h⟩ := bind_ok.1 h
        obtain ⟨samples, hsam, h⟩ := bind_ok.1 h
        injection h with h
        unfold withSamples at h
        obtain ⟨rfl, rfl⟩ := Prod.mk.inj h
        have hlen := mapM_ok_length hsam
        rw [List.length_range] at hlen
        refine ⟨samples, rfl, by rw [hlen], hlen, ?_⟩
        intro x hx
        obtain ⟨i, -, hi⟩ := forall₂_mem_right (mapM_ok_iff.1 hsam) hx
        unfold msmoteRow at hi
        obtain ⟨it, hit, hi⟩ := bind_ok.1 hi
        obtain ⟨j, hj, hi⟩ := bind_ok.1 hi
        obtain ⟨nb, hnbr, hi⟩ := bind_ok.1 hi
        injection hi with hi
        subst hi
        have hmem := getRow_mem hit
        rw [List.mem_filter, List.mem_map] at hmem
        obtain ⟨⟨p, hp, rfl⟩, hne⟩ := hmem
        obtain ⟨m, hmlt, hpm⟩ := List.getElem_of_mem hp
        have hpm' : (List.zip (selectLabel X y s.minLabel) (List.zip
          (knn (min X.length (k + 1)) X (selectLabel X y s.minLabel)) types))[m]? = some p := by
          rw [List.getElem?_eq_getElem hmlt, hpm]
        rw [List.getElem?_zip_eq_some, List.getElem?_zip_eq_some, selectLabel_eq_classRows] at hpm'
        obtain ⟨h1, h2, h3⟩ := hpm'
        rw [selectLabel_eq_classRows] at htypes
        have ht := mapM_ok_get htypes h2
        obtain ⟨t, ht1, ht2⟩ := ht
        rw [h3] at ht1
        injection ht1 with ht1
        unfold msTypeOf at ht2
        obtain ⟨labels, hlab, ht2⟩ := bind_ok.1 ht2
        injection ht2 with ht2
        have hlev : labels.count s.minLabel = levelOf y s.minLabel p.2.1 := count_takeRows hlab
        rw [← ht1] at ht2
        unfold msType at ht2
        rw [hlev] at ht2
        have hne' : p.2.2 ≠ .noi := of_decide_eq_true hne
        have hpos : 1 ≤ levelOf y s.minLabel p.2.1 := by
          by_contra hc
          rw [if_pos (by omega)] at ht2
          exact hne' ht2.symm
        have hbl : p.1.length = d := by
          have := List.mem_of_getElem? h1
          rw [← selectLabel_eq_classRows] at this
          exact mem_selectLabel_length hwf this
        refine ⟨m, p.1, p.2.1, msPosition p.2.2 (dr.nb i), j, nb, h1, h2, hpos, ?_, getRow_ok.1 hj, getRow_ok.1 hnbr, ?_,
          mixRow_between hbl (hwf.2 _ (getRow_mem hnbr)) (hu i)⟩
        · unfold msPosition
          split
          · exact hnb i
          · exact le_refl 1
        · intro hk
          rw [if_neg (by omega), if_neg hk] at ht2
          unfold msPosition
          rw [if_neg (by rw [← ht2]; decide)]

/-- How `Safe_Level_SMOTE` may make a row: the base is a minority row, the other end one of its neighbours; not both have
safe level zero; a neighbour of level zero leaves the base as it is, and a base of level zero is replaced by its
neighbour. -/
def SafeLevelRow (d : Nat) (X : List Row) (y : List Int) (l : Int) (indices : List (List Nat)) (x : Row) : Prop :=
  ∃ (p q : Nat) (base nb : Row) (np nq : List Nat),
    y[p]? = some l ∧ X[p]? = some base ∧ X[q]? = some nb ∧ indices[p]? = some np ∧ indices[q]? = some nq ∧ q ∈ np.drop 1 ∧
    Between d base nb x ∧ ¬ (levelOf y l np = 0 ∧ levelOf y l nq = 0) ∧
    (levelOf y l nq = 0 → x = base) ∧ (levelOf y l np = 0 → x = nb)

theorem mem_slpSln {l : Int} {y : List Int} {indices : List (List Nat)} {pairs : List SafePair}
    (h : slpSln l y indices = .ok pairs) {t : SafePair} (ht : t ∈ pairs) :
    y[t.p]? = some l ∧ ∃ np nq, indices[t.p]? = some np ∧ indices[t.q]? = some nq ∧ t.q ∈ np.drop 1 ∧
      t.slp = levelOf y l np ∧ t.sln = levelOf y l nq ∧ ¬ (t.slp = 0 ∧ t.sln = 0) := by
  unfold slpSln at h
  obtain ⟨levels, hlev, h⟩ := bind_ok.1 h
  dsimp only at h
  obtain ⟨parts, hparts, h⟩ := bind_ok.1 h
  injection h with h
  subst h
  have hlevel : ∀ (i n : Nat), levels[i]? = some n → ∃ nbs, indices[i]? = some nbs ∧ n = levelOf y l nbs := by
    intro i n hn
    have hi : i < indices.length := by
      rw [← mapM_ok_length hlev]
      exact (List.getElem?_eq_some_iff.1 hn).1
    obtain ⟨v, hv1, hv2⟩ := mapM_ok_get hlev (List.getElem?_eq_getElem hi)
    rw [hn] at hv1
    injection hv1 with hv1
    refine ⟨_, List.getElem?_eq_getElem hi, ?_⟩
    unfold safeLevel at hv2
    obtain ⟨labels, hlab, hv2⟩ := bind_ok.1 hv2
    injection hv2 with hv2
    rw [hv1, ← hv2]
    exact count_takeRows hlab
  obtain ⟨part, hpart, htp⟩ := List.mem_flatten.1 ht
  obtain ⟨p, hp, hpp⟩ := forall₂_mem_right (mapM_ok_iff.1 hparts) hpart
  obtain ⟨nbs, hnbs, hpp⟩ := bind_ok.1 hpp
  have hyp : y[p]? = some l := by
    rcases List.mem_append.1 hp with hp | hp <;>
      exact of_decide_eq_true (List.mem_filter.1 (List.mem_filter.1 hp).1).2
  unfold safePairsOf at hpp
  obtain ⟨slp, hslp, hpp⟩ := bind_ok.1 hpp
  obtain ⟨all, hall, hpp⟩ := bind_ok.1 hpp
  injection hpp with hpp
  have hin : t ∈ all ∧ (¬ slp > 0 → t.sln > 0) := by
    rw [← hpp] at htp
    split at htp
    · rename_i hpos
      exact ⟨htp, fun hn => absurd hpos hn⟩
    · rw [List.mem_filter] at htp
      exact ⟨htp.1, fun _ => of_decide_eq_true htp.2⟩
  obtain ⟨q, hq, hqt⟩ := forall₂_mem_right (mapM_ok_iff.1 hall) hin.1
  obtain ⟨sln, hsln, hqt⟩ := bind_ok.1 hqt
  injection hqt with hqt
  subst hqt
  obtain ⟨np, hnp1, hnp2⟩ := hlevel p slp (getRow_ok.1 hslp)
  obtain ⟨nq, hnq1, hnq2⟩ := hlevel q sln (getRow_ok.1 hsln)
  have e : np = nbs := by
    have := getRow_ok.1 hnbs
    rw [hnp1] at this
    injection this
  subst e
  refine ⟨hyp, np, nq, hnp1, hnq1, hq, hnp2, hnq2, ?_⟩
  dsimp only at hin ⊢
  rintro ⟨h1, h2⟩
  have := hin.2 (by omega)
  omega

theorem C31_safe_level {prop : ℚ} {k d : Nat} {dr : SlDraws} {knn : Nat → List Row → List (List Nat)}
    {X X' : List Row} {y y' : List Int} {a b : Int} (hwf : WF d X y) (hmin : IsMinority y a b)
    (hu : ∀ i j, 0 ≤ dr.u i j ∧ dr.u i j ≤ 1)
    (h : sample defaultChecks d (safeLevelAlg prop k dr knn) X y = .ok (X', y')) :
    Oversampled X y a (requested prop (y.count b) (y.count a))
      (SafeLevelRow d X y a (knn (min (k + 1) X.length) X)) X' y' := by
  obtain ⟨s, hs, rfl, rfl⟩ := stats_of_isMinority hmin
  obtain ⟨hm, hM, _⟩ := stats_min_mem hs
  rcases sample_default_ok hs h with h | h
  · exact Or.inl h
  · unfold safeLevelAlg at h
    rw [stats_count hs hm, stats_count hs hM, detN_eq_requested, ok_bind] at h
    split at h
    · injection h with h
      obtain ⟨rfl, rfl⟩ := Prod.mk.inj h
      exact Or.inl ⟨rfl, rfl⟩
    · dsimp only at h
      obtain ⟨pairs, hpairs, h⟩ := bind_ok.1 h
      split at h
      · injection h with h
        obtain ⟨rfl, rfl⟩ := Prod.mk.inj h
        exact Or.inl ⟨rfl, rfl⟩
      · right
        obtain ⟨samples, hsam, h⟩ := bind_ok.1 h
        injection h with h
        unfold withSamples at h
        obtain ⟨rfl, rfl⟩ := Prod.mk.inj h
        have hlen := mapM_ok_length hsam
        rw [List.length_range] at hlen
        refine ⟨samples, rfl, by rw [hlen], hlen, ?_⟩
        intro x hx
        obtain ⟨i, -, hi⟩ := forall₂_mem_right (mapM_ok_iff.1 hsam) hx
        unfold safeLevelRow at hi
        obtain ⟨t, ht, hi⟩ := bind_ok.1 hi
        obtain ⟨base, hbase, hi⟩ := bind_ok.1 hi
        obtain ⟨nb, hnb, hi⟩ := bind_ok.1 hi
        injection hi with hi
        obtain ⟨hy, np, nq, hnp, hnq, hq, h1, h2, h3⟩ := mem_slpSln hpairs (getRow_mem ht)
        have lb := hwf.2 _ (getRow_mem hbase)
        have ln := hwf.2 _ (getRow_mem hnb)
        refine ⟨t.p, t.q, base, nb, np, nq, hy, getRow_ok.1 hbase, getRow_ok.1 hnb, hnp, hnq, hq, ?_, ?_, ?_, ?_⟩
        · rw [← hi]
          exact mixRow_between lb ln (fun j => safeGap_range (hu i j).1 (hu i j).2)
        · rw [← h1, ← h2]; exact h3
        · intro h0
          rw [← h2] at h0
          rw [← hi]
          apply mixRow_zero lb ln
          intro j
          rw [h0]
          exact safeGap_safe_base (by omega)
        · intro h0
          rw [← h1] at h0
          rw [← hi]
          apply mixRow_one lb ln
          intro j
          rw [h0]
          exact safeGap_unsafe_base (by omega)

/-- So `Safe_Level_SMOTE` can add an exact copy of a majority row, labelled minority. -/
theorem C31_safe_level_copies_majority : ∃ (X X' : List Row) (y y' : List Int) (dr : SlDraws) (r : Row),
    (∀ i j, 0 ≤ dr.u i j ∧ dr.u i j ≤ 1) ∧ IsMinority y 1 0 ∧
    sample defaultChecks 1 (safeLevelAlg 1 1 dr bruteKnn) X y = .ok (X ++ X', y ++ y') ∧
    r ∈ classRows X y 0 ∧ r ∉ classRows X y 1 ∧ r ∈ classRows X' y' 1 :=
  ⟨[[0], [1], [10], [11], [30], [31], [50]], [[1]], [1, 0, 1, 0, 1, 0, 0], [1], ⟨fun _ => 0, fun _ _ => 0⟩, [1],
    by intro i j; norm_num, ⟨by decide, by decide, by decide, Or.inl (by decide)⟩, by decide +kernel, by decide +kernel,
    by decide +kernel, by decide +kernel⟩

/-- "Componentwise" sampling without a mask moves all coordinates by the same share: the point is on the segment. -/
theorem C31_componentwise_is_segment {d : Nat} {p q : Row} (hp : p.length = d) (hq : q.length = d) (u : ℚ) :
    (sampleBetweenPoints p q u).length = d ∧
    ∀ k, k < d → (sampleBetweenPoints p q u).getD k 0 = p.getD k 0 + u * (q.getD k 0 - p.getD k 0) := by
  refine ⟨mixRow_length hp hq, fun k hk => ?_⟩
  unfold sampleBetweenPoints
  rw [mixRow_getD hp hq hk]
  ring

/-- Hypotheses met: both algorithms add two rows to this data set. -/
example : WF 2 exX exY ∧ IsMinority exY 1 0 := ⟨by decide +kernel, exY_min⟩
example : sample defaultChecks 2 (randomSmoteAlg 1 2 ⟨fun i => i, fun _ => 1, fun _ => 2, fun _ _ => 1 / 2, fun _ _ => 1 / 2⟩
    bruteKnn) exX exY = .ok (exX ++ [[1 / 4, 1 / 4], [1 / 2, 1 / 4]], exY ++ [1, 1]) := by decide +kernel
example : RsDraws.OK ⟨fun i => i % 3, fun _ => 1, fun _ => 2, fun _ _ => 1 / 2, fun _ _ => 1 / 2⟩ 3 3 :=
  ⟨fun i => Nat.mod_lt _ (by decide), fun _ => ⟨by norm_num, by norm_num⟩, fun _ => ⟨by norm_num, by norm_num⟩,
    by intros; norm_num, by intros; norm_num⟩
example : sample defaultChecks 2 (msmoteAlg 1 2 ⟨fun i => i, fun _ => 2, fun _ _ => 1 / 2⟩
    (fun k X Q => Q.map (nearestTo X k))) exX exY =
    .ok (exX ++ [[0, 1 / 2], [1 / 2, 1 / 2]], exY ++ [1, 1]) := by decide +kernel
example : sample defaultChecks 2 (safeLevelAlg 1 2 ⟨fun i => i, fun _ _ => 1 / 2⟩ bruteKnn) exX exY =
    .ok (exX ++ [[1 / 2, 0], [0, 1 / 2]], exY ++ [1, 1]) := by decide +kernel

/-- `sample_between_points` with a mask: coordinates with mask 0 stay, the others move by one common share. -/
theorem C31_masked {d : Nat} {a b mask : Row} {u : ℚ} (ha : a.length = d) (hb : b.length = d) (hu : 0 ≤ u ∧ u ≤ 1)
    (hm : ∀ k, k < d → mask.getD k 0 = 0 ∨ mask.getD k 0 = 1) :
    (sampleBetweenMasked a b mask u).length = d ∧ ∀ k, k < d →
      (mask.getD k 0 = 0 → (sampleBetweenMasked a b mask u).getD k 0 = a.getD k 0) ∧
      (mask.getD k 0 = 1 → (sampleBetweenMasked a b mask u).getD k 0 = a.getD k 0 + (b.getD k 0 - a.getD k 0) * u) ∧
      min (a.getD k 0) (b.getD k 0) ≤ (sampleBetweenMasked a b mask u).getD k 0 ∧
      (sampleBetweenMasked a b mask u).getD k 0 ≤ max (a.getD k 0) (b.getD k 0) := by
  refine ⟨mixRow_length ha hb, fun k hk => ?_⟩
  unfold sampleBetweenMasked
  rw [mixRow_getD ha hb hk]
  refine ⟨fun h => by rw [h]; ring, fun h => by rw [h]; ring, ?_⟩
  apply mix_between
  · rcases hm k hk with h | h <;> rw [h] <;> linarith [hu.1]
  · rcases hm k hk with h | h <;> rw [h] <;> linarith [hu.2]

example : sampleBetweenMasked [0, 0] [4, 8] [1, 0] (1 / 4) = [1, 0] := by decide +kernel

/-- The pairs `Safe_Level_SMOTE` draws from are exactly those of a minority row and one of its neighbours that do not both have safe level
zero. -/
theorem C31_safe_level_pairs {l : Int} {y : List Int} {indices : List (List Nat)} {k : Nat} (ht : TableOK indices k y.length)
    (hlen : indices.length = y.length) : ∃ pairs, slpSln l y indices = .ok pairs ∧ ∀ p q : Nat,
      (∃ t ∈ pairs, t.p = p ∧ t.q = q) ↔ y[p]? = some l ∧ ∃ np nq, indices[p]? = some np ∧ indices[q]? = some nq ∧ q ∈ np.drop 1 ∧
        ¬ (levelOf y l np = 0 ∧ levelOf y l nq = 0) := by
  obtain ⟨levels, hlev⟩ : ∃ levels, indices.mapM (safeLevel l y) = .ok levels := by
    apply mapM_exists_ok
    intro row hrow
    unfold safeLevel
    obtain ⟨labels, hlab⟩ := takeRows_ok_of_lt (fun j hj => (ht row hrow).2 j (List.mem_of_mem_drop hj) : ∀ j ∈ row.drop 1, j < y.length)
    rw [hlab, ok_bind]
    exact ⟨_, rfl⟩
  have hll := mapM_ok_length hlev
  have hget : ∀ {p : Nat} {np : List Nat}, indices[p]? = some np → levels[p]? = some (levelOf y l np) := by
    intro p np hp
    obtain ⟨v, hv1, hv2⟩ := mapM_ok_get hlev hp
    unfold safeLevel at hv2
    obtain ⟨labels, hlab, hv2⟩ := bind_ok.1 hv2
    injection hv2 with hv2
    rw [hv1, ← hv2]
    exact congrArg some (count_takeRows hlab)
  have hone : ∀ p, p < y.length → ∃ np part, indices[p]? = some np ∧ (do
      let nbs ← getRow indices p
      safePairsOf levels p nbs) = .ok part ∧ ∀ q nq, q ∈ np.drop 1 → indices[q]? = some nq → ¬ (levelOf y l np = 0 ∧ levelOf y l nq = 0) →
        ∃ t ∈ part, t.p = p ∧ t.q = q := by
    intro p hp
    have hpi : p < indices.length := by omega
    obtain ⟨np, hnp⟩ : ∃ np, indices[p]? = some np := ⟨_, List.getElem?_eq_getElem hpi⟩
    obtain ⟨all, hall⟩ : ∃ all, ((np.drop 1).mapM (fun q => do
        let sln ← getRow levels q
        return SafePair.mk p q (levelOf y l np) sln) : Res (List SafePair)) = .ok all := by
      apply mapM_exists_ok
      intro q hq
      have hql : q < levels.length := by
        rw [hll, hlen]
        exact (ht np (List.mem_of_getElem? hnp)).2 q (List.mem_of_mem_drop hq)
      rw [getRow_ok.2 (List.getElem?_eq_getElem hql), ok_bind]
      exact ⟨_, rfl⟩
    refine ⟨np, if levelOf y l np > 0 then all else all.filter (fun t => decide (t.sln > 0)), hnp, ?_, ?_⟩
    · rw [getRow_ok.2 hnp, ok_bind]
      unfold safePairsOf
      rw [getRow_ok.2 (hget hnp), ok_bind, hall, ok_bind]
      rfl
    · intro q nq hq hnq hne
      obtain ⟨t, ht1, ht2⟩ := forall₂_mem_left (mapM_ok_iff.1 hall) hq
      rw [getRow_ok.2 (hget hnq), ok_bind] at ht2
      injection ht2 with ht2
      refine ⟨t, ?_, by rw [← ht2], by rw [← ht2]⟩
      split
      · exact ht1
      · rw [List.mem_filter]
        refine ⟨ht1, ?_⟩
        rw [← ht2]
        simp
        omega
  have hmem : ∀ p ∈ ((List.range y.length).filter (fun i => decide (y[i]? = some l))).filter (fun i => decide (levels.getD i 0 > 0)) ++
      ((List.range y.length).filter (fun i => decide (y[i]? = some l))).filter (fun i => decide (levels.getD i 0 = 0)), p < y.length := by
    intro p hp
    rcases List.mem_append.1 hp with hp | hp <;>
      exact List.mem_range.1 (List.mem_filter.1 (List.mem_filter.1 hp).1).1
  obtain ⟨parts, hparts⟩ : ∃ parts, ((((List.range y.length).filter (fun i => decide (y[i]? = some l))).filter
      (fun i => decide (levels.getD i 0 > 0)) ++
      ((List.range y.length).filter (fun i => decide (y[i]? = some l))).filter (fun i => decide (levels.getD i 0 = 0))).mapM (fun p => do
        let nbs ← getRow indices p
        safePairsOf levels p nbs) : Res (List (List SafePair))) = .ok parts := by
    apply mapM_exists_ok
    intro p hp
    obtain ⟨_, part, _, h, _⟩ := hone p (hmem p hp)
    exact ⟨part, h⟩
  have hok : slpSln l y indices = .ok parts.flatten := by
    unfold slpSln
    rw [hlev, ok_bind]
    dsimp only
    rw [hparts, ok_bind]
    rfl
  refine ⟨parts.flatten, hok, fun p q => ⟨?_, ?_⟩⟩
  · rintro ⟨t, ht1, rfl, rfl⟩
    obtain ⟨h1, np, nq, h2, h3, h4, h5, h6, h7⟩ := mem_slpSln hok ht1
    exact ⟨h1, np, nq, h2, h3, h4, by rw [← h5, ← h6]; exact h7⟩
  · rintro ⟨hy, np, nq, h2, h3, h4, h5⟩
    have hp : p < y.length := (List.getElem?_eq_some_iff.1 hy).1
    have hpm : p ∈ ((List.range y.length).filter (fun i => decide (y[i]? = some l))).filter (fun i => decide (levels.getD i 0 > 0)) ++
        ((List.range y.length).filter (fun i => decide (y[i]? = some l))).filter (fun i => decide (levels.getD i 0 = 0)) := by
      have hpm : p ∈ (List.range y.length).filter (fun i => decide (y[i]? = some l)) :=
        List.mem_filter.2 ⟨List.mem_range.2 hp, decide_eq_true hy⟩
      by_cases h0 : levels.getD p 0 = 0
      · exact List.mem_append_right _ (List.mem_filter.2 ⟨hpm, decide_eq_true h0⟩)
      · exact List.mem_append_left _ (List.mem_filter.2 ⟨hpm, decide_eq_true (Nat.pos_of_ne_zero h0)⟩)
    obtain ⟨part, hpart1, hpart2⟩ := forall₂_mem_left (mapM_ok_iff.1 hparts) hpm
    obtain ⟨np', part', h6, h7, h8⟩ := hone p hp
    rw [h2] at h6
    injection h6 with h6
    subst h6
    rw [h7] at hpart2
    injection hpart2 with hpart2
    subst hpart2
    obtain ⟨t, ht1, ht2⟩ := h8 q nq h4 h3 h5
    exact ⟨t, List.mem_flatten.2 ⟨_, hpart1, ht1⟩, ht2⟩

example : TableOK [[0, 1], [1, 0], [2, 1]] 2 3 ∧ (slpSln 1 [1, 0, 1] [[0, 1], [1, 0], [2, 1]]).map (fun l => l.map (fun t => (t.p, t.q))) =
    .ok [(0, 1), (2, 1)] := ⟨by decide, by decide +kernel⟩

/-- `MSMOTE` never fails, and leaves the data as it is exactly if there is nothing to add, there are too few minority rows, or no
minority row has a minority neighbour. -/
theorem C31_msmote_total {prop : ℚ} {k d : Nat} {dr : MsDraws} {knn : Nat → List Row → List Row → List (List Nat)}
    {X : List Row} {y : List Int} {a b : Int} (hwf : WF d X y) (hmin : IsMinority y a b) (hknn : KnnQueryOK knn)
    (hbase : ∀ i, (∃ nbs ∈ knn (min X.length (k + 1)) X (classRows X y a), levelOf y a nbs ≠ 0) → dr.base i <
      ((knn (min X.length (k + 1)) X (classRows X y a)).filter (fun nbs => decide (levelOf y a nbs ≠ 0))).length)
    (hnb : ∀ i, 2 ≤ min X.length (k + 1) → 1 ≤ dr.nb i ∧ dr.nb i < min X.length (k + 1)) :
    ∃ X' y', sample defaultChecks d (msmoteAlg prop k dr knn) X y = .ok (X', y') ∧
      ((y.count a ≤ 2 ∨ ∀ nbs ∈ knn (min X.length (k + 1)) X (classRows X y a), levelOf y a nbs = 0) → X' = X ∧ y' = y) ∧
      ((2 < y.count a ∧ ∃ nbs ∈ knn (min X.length (k + 1)) X (classRows X y a), levelOf y a nbs ≠ 0) →
        X'.length = X.length + requested prop (y.count b) (y.count a)) := by
  obtain ⟨s, hs, rfl, rfl⟩ := stats_of_isMinority hmin
  obtain ⟨hm, hM, _⟩ := stats_min_mem hs
  rw [sample_default hs]
  by_cases h2 : y.count s.minLabel ≤ 2
  · rw [if_pos h2]
    exact ⟨_, _, rfl, fun _ => ⟨rfl, rfl⟩, fun h => absurd h.1 (by omega)⟩
  rw [if_neg h2]
  unfold msmoteAlg
  rw [stats_count hs hm, stats_count hs hM, detN_eq_requested, ok_bind]
  by_cases h0 : requested prop (y.count s.majLabel) (y.count s.minLabel) = 0
  · rw [if_pos h0]
    exact ⟨_, _, rfl, fun _ => ⟨rfl, rfl⟩, fun _ => by rw [h0]; rfl⟩
  rw [if_neg h0]
  dsimp only
  rw [selectLabel_eq_classRows]
  obtain ⟨hlen, htab⟩ := hknn (min X.length (k + 1)) X (classRows X y s.minLabel) (by omega)
  generalize hI : knn (min X.length (k + 1)) X (classRows X y s.minLabel) = indices at *
  have hty : ∀ nbs ∈ indices, msTypeOf s.minLabel (min X.length (k + 1)) y nbs = .ok
      (if levelOf y s.minLabel nbs = 0 then .noi else if levelOf y s.minLabel nbs = min X.length (k + 1) - 1 then .sec else .bor) := by
    intro nbs hn
    obtain ⟨labels, hlab⟩ := takeRows_ok_of_lt (X := y) (idx := nbs.drop 1)
      (fun j hj => by rw [← hwf.1]; exact (htab nbs hn).2 j (List.mem_of_mem_drop hj))
    unfold msTypeOf msType
    rw [hlab, ok_bind, count_takeRows hlab]
    rfl
  rw [mapM_ok_of hty, ok_bind]
  have hall : ((indices.map (fun nbs => if levelOf y s.minLabel nbs = 0 then MsType.noi
      else if levelOf y s.minLabel nbs = min X.length (k + 1) - 1 then .sec else .bor)).all (fun t => decide (t = .noi))) = true ↔
      ∀ nbs ∈ indices, levelOf y s.minLabel nbs = 0 := by
    rw [List.all_eq_true]
    constructor
    · intro h nbs hn
      by_contra hc
      have := of_decide_eq_true (h _ (List.mem_map_of_mem hn))
      rw [if_neg hc] at this
      split at this <;> cases this
    · intro h t ht
      obtain ⟨nbs, hn, rfl⟩ := List.mem_map.1 ht
      rw [if_pos (h nbs hn)]
      rfl
  by_cases hno : ∀ nbs ∈ indices, levelOf y s.minLabel nbs = 0
  · rw [if_pos (hall.2 hno)]
    exact ⟨_, _, rfl, fun _ => ⟨rfl, rfl⟩, fun h => absurd h.2 (fun ⟨nbs, hn, hz⟩ => hz (hno nbs hn))⟩
  rw [if_neg (fun h => hno (hall.1 h))]
  have hgood : ∀ (R : List Row) (I : List (List Nat)), I.length ≤ R.length →
      (((List.zip R (List.zip I (I.map (fun nbs => if levelOf y s.minLabel nbs = 0 then MsType.noi
        else if levelOf y s.minLabel nbs = min X.length (k + 1) - 1 then .sec else .bor)))).map
          (fun p => MsItem.mk p.1 p.2.1 p.2.2)).filter (fun it => decide (it.type ≠ .noi))).length =
      (I.filter (fun nbs => decide (levelOf y s.minLabel nbs ≠ 0))).length := by
    intro R
    induction R with
    | nil =>
      intro I hI
      cases I with
      | nil => rfl
      | cons _ _ => simp at hI
    | cons r R ih =>
      intro I hI
      cases I with
      | nil => rfl
      | cons i I =>
        have := ih I (by simpa using hI)
        rw [List.map_cons, List.zip_cons_cons, List.zip_cons_cons, List.map_cons, List.filter_cons, List.filter_cons]
        dsimp only
        have hz : decide ((if levelOf y s.minLabel i = 0 then MsType.noi
            else if levelOf y s.minLabel i = min X.length (k + 1) - 1 then .sec else .bor) ≠ MsType.noi) =
            decide (levelOf y s.minLabel i ≠ 0) := by
          by_cases hz : levelOf y s.minLabel i = 0
          · simp [hz]
          · rw [if_neg hz]
            split <;> simp [hz]
        rw [hz]
        by_cases hd : decide (levelOf y s.minLabel i ≠ 0) = true
        · rw [if_pos hd, if_pos hd, List.length_cons, List.length_cons, this]
        · rw [if_neg hd, if_neg hd, this]
  have hgl := hgood (classRows X y s.minLabel) indices (le_of_eq hlen)
  have hex : ∃ nbs ∈ indices, levelOf y s.minLabel nbs ≠ 0 := by
    by_contra hc
    exact hno (fun nbs hn => by by_contra h; exact hc ⟨nbs, hn, h⟩)
  have hgpos : 0 < (indices.filter (fun nbs => decide (levelOf y s.minLabel nbs ≠ 0))).length := by
    obtain ⟨nbs, hn, hz⟩ := hex
    exact List.length_pos_of_mem (List.mem_filter.2 ⟨hn, by simp [hz]⟩)
  rw [choiceFrom_pos (by rw [hgl]; exact hgpos), ok_bind]
  suffices hr : ∃ r, (List.range (requested prop (y.count s.majLabel) (y.count s.minLabel))).mapM (msmoteRow dr
      (((List.zip (classRows X y s.minLabel) (List.zip indices (indices.map (fun nbs => if levelOf y s.minLabel nbs = 0
        then MsType.noi else if levelOf y s.minLabel nbs = min X.length (k + 1) - 1 then .sec else .bor)))).map
          (fun p => MsItem.mk p.1 p.2.1 p.2.2)).filter (fun it => decide (it.type ≠ .noi))) X) = .ok r by
    obtain ⟨r, hr⟩ := hr
    rw [hr, ok_bind]
    refine ⟨_, _, rfl, fun h => absurd h (by rintro (h | h) <;> contradiction), fun _ => ?_⟩
    rw [List.length_append, mapM_ok_length hr, List.length_range]
  apply mapM_exists_ok
  intro i _
  unfold msmoteRow
  rw [getRow_lt (by rw [hgl]; exact hbase i hex), ok_bind]
  have hmem := List.getElem_mem (l := ((List.zip (classRows X y s.minLabel) (List.zip indices (indices.map (fun nbs =>
    if levelOf y s.minLabel nbs = 0 then MsType.noi else if levelOf y s.minLabel nbs = min X.length (k + 1) - 1 then .sec
    else .bor)))).map (fun p => MsItem.mk p.1 p.2.1 p.2.2)).filter (fun it => decide (it.type ≠ .noi)))
    (by rw [hgl]; exact hbase i hex)
  generalize (((List.zip (classRows X y s.minLabel) (List.zip indices (indices.map (fun nbs =>
    if levelOf y s.minLabel nbs = 0 then MsType.noi else if levelOf y s.minLabel nbs = min X.length (k + 1) - 1 then .sec
    else .bor)))).map (fun p => MsItem.mk p.1 p.2.1 p.2.2)).filter (fun it => decide (it.type ≠ .noi)))[dr.base i]'(by
      rw [hgl]; exact hbase i hex) = it at hmem ⊢
  rw [List.mem_filter, List.mem_map] at hmem
  obtain ⟨⟨p, hp, rfl⟩, hne⟩ := hmem
  have hp2 := (List.of_mem_zip hp).2
  have hp2i := (List.of_mem_zip hp2).1
  have hlev : levelOf y s.minLabel p.2.1 ≤ p.2.1.length - 1 := by
    unfold levelOf
    exact le_trans (List.length_filter_le _ _) (by rw [List.length_drop])
  obtain ⟨m, hmlt, hpm⟩ := List.getElem_of_mem hp2
  have hpm' : (List.zip indices (indices.map (fun nbs => if levelOf y s.minLabel nbs = 0 then MsType.noi
      else if levelOf y s.minLabel nbs = min X.length (k + 1) - 1 then .sec else .bor)))[m]? = some p.2 := by
    rw [List.getElem?_eq_getElem hmlt, hpm]
  rw [List.getElem?_zip_eq_some, List.getElem?_map] at hpm'
  obtain ⟨e1, e2⟩ := hpm'
  rw [e1, Option.map_some] at e2
  injection e2 with e2
  have hlz : levelOf y s.minLabel p.2.1 ≠ 0 := by
    intro hz
    rw [if_pos hz] at e2
    rw [← e2] at hne
    exact of_decide_eq_true hne rfl
  obtain ⟨hk1, hk2⟩ := htab _ hp2i
  have hl1 : p.2.1.length = min X.length (k + 1) := hk1
  have hk2le : 2 ≤ min X.length (k + 1) := by
    rw [← hl1]
    generalize p.2.1.length = len at hlev
    omega
  have hposlt : msPosition p.2.2 (dr.nb i) < p.2.1.length := by
    unfold msPosition
    obtain ⟨_, hn2⟩ := hnb i hk2le
    rw [hl1]
    split
    · exact hn2
    · exact hk2le
  dsimp only
  rw [getRow_lt hposlt, ok_bind, getRow_lt (hk2 _ (List.getElem_mem _)), ok_bind]
  exact ⟨_, rfl⟩

/-- A minority row and one of its neighbours do not both have safe level zero. -/
def UsablePair (y : List Int) (l : Int) (indices : List (List Nat)) : Prop :=
  ∃ (p q : Nat) (np nq : List Nat), y[p]? = some l ∧ indices[p]? = some np ∧ indices[q]? = some nq ∧ q ∈ np.drop 1 ∧
    ¬ (levelOf y l np = 0 ∧ levelOf y l nq = 0)

/-- `Safe_Level_SMOTE` never fails, and leaves the data as it is exactly if there is nothing to add, there are too few minority rows,
or every minority row and all its neighbours have safe level zero. -/
theorem C31_safe_level_total {prop : ℚ} {k d : Nat} {dr : SlDraws} {knn : Nat → List Row → List (List Nat)}
    {X : List Row} {y : List Int} {a b : Int} (hwf : WF d X y) (hmin : IsMinority y a b) (hknn : KnnOK knn)
    (hpair : ∀ pairs, slpSln a y (knn (min (k + 1) X.length) X) = .ok pairs → pairs ≠ [] → ∀ i, dr.pair i < pairs.length) :
    ∃ X' y', sample defaultChecks d (safeLevelAlg prop k dr knn) X y = .ok (X', y') ∧
      ((y.count a ≤ 2 ∨ ¬ UsablePair y a (knn (min (k + 1) X.length) X)) → X' = X ∧ y' = y) ∧
      ((2 < y.count a ∧ UsablePair y a (knn (min (k + 1) X.length) X)) →
        X'.length = X.length + requested prop (y.count b) (y.count a)) := by
  obtain ⟨s, hs, rfl, rfl⟩ := stats_of_isMinority hmin
  obtain ⟨hm, hM, _⟩ := stats_min_mem hs
  rw [sample_default hs]
  by_cases h2 : y.count s.minLabel ≤ 2
  · rw [if_pos h2]
    exact ⟨_, _, rfl, fun _ => ⟨rfl, rfl⟩, fun h => absurd h.1 (by omega)⟩
  rw [if_neg h2]
  unfold safeLevelAlg
  rw [stats_count hs hm, stats_count hs hM, detN_eq_requested, ok_bind]
  by_cases h0 : requested prop (y.count s.majLabel) (y.count s.minLabel) = 0
  · rw [if_pos h0]
    exact ⟨_, _, rfl, fun _ => ⟨rfl, rfl⟩, fun _ => by rw [h0]; rfl⟩
  rw [if_neg h0]
  dsimp only
  obtain ⟨hlen, htab⟩ := hknn (min (k + 1) X.length) X (by omega)
  rw [hwf.1] at hlen htab
  obtain ⟨pairs, hpairs, hmem⟩ := C31_safe_level_pairs (l := s.minLabel) htab hlen
  rw [← hwf.1] at hpairs hmem
  rw [hpairs, ok_bind]
  by_cases hno : UsablePair y s.minLabel (knn (min (k + 1) X.length) X)
  swap
  · have hnil : pairs = [] := by
      rw [List.eq_nil_iff_forall_not_mem]
      intro t ht
      obtain ⟨hy, np, nq, h⟩ := (hmem t.p t.q).1 ⟨t, ht, rfl, rfl⟩
      exact hno ⟨t.p, t.q, np, nq, hy, h⟩
    rw [if_pos (by rw [hnil]; rfl)]
    exact ⟨_, _, rfl, fun _ => ⟨rfl, rfl⟩, fun h => absurd h.2 hno⟩
  · have hne : pairs ≠ [] := by
      intro hnil
      obtain ⟨p, q, np, nq, hy, h⟩ := hno
      obtain ⟨t, ht, _⟩ := (hmem p q).2 ⟨hy, np, nq, h⟩
      rw [hnil] at ht
      cases ht
    rw [if_neg (fun h => hne (List.length_eq_zero_iff.1 h))]
    suffices hr : ∃ r, (List.range (requested prop (y.count s.majLabel) (y.count s.minLabel))).mapM
        (safeLevelRow dr pairs X) = .ok r by
      obtain ⟨r, hr⟩ := hr
      rw [hr, ok_bind]
      refine ⟨_, _, rfl, fun h => absurd h (by rintro (h | h) <;> contradiction), fun _ => ?_⟩
      rw [List.length_append, mapM_ok_length hr, List.length_range]
    apply mapM_exists_ok
    intro i _
    unfold safeLevelRow
    rw [getRow_lt (hpair pairs hpairs hne i), ok_bind]
    obtain ⟨hy, np, nq, _, h2', _, _⟩ := (hmem _ _).1 ⟨_, List.getElem_mem (hpair pairs hpairs hne i), rfl, rfl⟩
    have hp := (List.getElem?_eq_some_iff.1 hy).1
    have hq := (List.getElem?_eq_some_iff.1 h2').1
    rw [hwf.1, hlen, ← hwf.1] at hq
    rw [← hwf.1] at hp
    rw [getRow_lt hp, ok_bind, getRow_lt hq, ok_bind]
    exact ⟨_, rfl⟩

/-- Hypotheses met: three rows are not noise, and there are six pairs. -/
example : KnnQueryOK (fun k X Q => Q.map (nearestTo X k)) → ∃ r, sample defaultChecks 2 (msmoteAlg 1 2
    ⟨fun i => i % 3, fun _ => 2, fun _ _ => 1 / 2⟩ (fun k X Q => Q.map (nearestTo X k))) exX exY = .ok r := by
  intro hk
  obtain ⟨X', y', h, _⟩ := C31_msmote_total (prop := 1) (k := 2) (d := 2) (dr := ⟨fun i => i % 3, fun _ => 2, fun _ _ => 1 / 2⟩)
    (X := exX) (y := exY) (a := 1) (b := 0) (by decide +kernel) exY_min hk
    (fun i _ => lt_of_lt_of_eq (Nat.mod_lt _ (by decide)) (by decide +kernel)) (fun i _ => ⟨by norm_num, by show 2 < min exX.length (2 + 1); decide +kernel⟩)
  exact ⟨_, h⟩
example : (match slpSln 1 exY (bruteKnn (min 3 exX.length) exX) with
    | .ok pairs => decide (pairs.length = 6)
    | .error _ => false) = true := by decide +kernel

end Verif

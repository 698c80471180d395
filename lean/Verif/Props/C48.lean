import Verif.Props.C47

/-!
# C48: Borderline-SMOTE samples only around minority rows in danger
-/

namespace Verif

/-! ## Specification -/

/-- The minority row `i` is noise: all its neighbours (the first one listed left out) are majority rows. -/
def IsNoiseRow (tab : List (List Nat)) (y : List Int) (b : Int) (i : Nat) : Prop :=
  ∃ ls, NeighborLabels tab y i ls ∧ ∀ l ∈ ls, l = b

/-- The minority row `i` is in danger: the majority label is the mode of the labels of its neighbours, but not all of them
have it. -/
def IsDangerRow (tab : List (List Nat)) (y : List Int) (b : Int) (i : Nat) : Prop :=
  ∃ ls, NeighborLabels tab y i ls ∧ IsMode b ls ∧ ∃ l ∈ ls, l ≠ b

/-- The neighbour answer used to tell noise and danger. -/
def borderTab (par : BorderParams) (knn : Nat → List Row → List Row → List (List Nat)) (X : List Row) (y : List Int) (a : Int) :
    List (List Nat) := knn (min X.length (par.nNeighbors + 1)) X (classRows X y a)

/-- The rows of `A` at the positions where `ok` holds. -/
def RowsAt (A : List Row) (ok : Nat → Prop) (B : List Row) : Prop :=
  ∃ K : List Nat, K.Sublist (List.range A.length) ∧ (∀ i, i ∈ K ↔ i < A.length ∧ ok i) ∧
    List.Forall₂ (fun i r => A[i]? = some r) K B

/-! ## Helpers -/

theorem borderKind_spec {k : Nat} {y : List Int} {maj : Int} {row : List Nat} {q : BorderKind} (hrow : row.length = k)
    (h : borderKind k y maj row = .ok q) :
    ∃ ls, List.Forall₂ (fun j l => y[j]? = some l) (row.drop 1) ls ∧
      (q = .noise ↔ ∀ l ∈ ls, l = maj) ∧ (q = .danger ↔ IsMode maj ls ∧ ∃ l ∈ ls, l ≠ maj) := by
  unfold borderKind at h
  rw [bind_ok] at h
  obtain ⟨ls, hls, h⟩ := h
  have hlen : ls.length = k - 1 := by rw [takeRows_length hls, List.length_drop, hrow]
  refine ⟨ls, takeRows_forall hls, ?_⟩
  have hall : k - 1 = ls.count maj ↔ ∀ l ∈ ls, l = maj := by
    rw [← hlen, eq_comm, List.count_eq_length]
    exact ⟨fun h l hl => (h l hl).symm, fun h l hl => (h l hl).symm⟩
  by_cases hc : k - 1 = ls.count maj
  · rw [if_pos hc] at h
    simp only [pure_ok] at h
    subst h
    refine ⟨⟨fun _ => hall.1 hc, fun _ => rfl⟩, ⟨fun h => (by cases h), ?_⟩⟩
    rintro ⟨_, l, hl, hne⟩
    exact absurd (hall.1 hc l hl) hne
  · rw [if_neg hc] at h
    rw [bind_ok] at h
    obtain ⟨m, hm, h⟩ := h
    simp only [pure_ok] at h
    have hex : ∃ l ∈ ls, l ≠ maj := by
      by_contra hno
      push Not at hno
      exact hc (hall.2 hno)
    have hne : ls ≠ [] := by
      rintro rfl
      obtain ⟨l, hl, _⟩ := hex
      simp at hl
    obtain ⟨m', hm', hmode⟩ := pyMode_isMode hne
    rw [hm] at hm'
    injection hm' with hm'
    subst hm'
    have huniq : IsMode maj ls → m = maj := by
      intro h1
      have e1 := h1.2 m hmode.1
      have e2 := hmode.2 maj h1.1
      have := e1.2 (le_antisymm e1.1 e2.1)
      have := e2.2 (le_antisymm e2.1 e1.1)
      omega
    constructor
    · constructor
      · intro hq; rw [hq] at h; split at h <;> cases h
      · intro hq; exact absurd (hall.2 hq) hc
    · constructor
      · intro hq
        rw [hq] at h
        split at h
        · rename_i he; rw [he] at hmode; exact ⟨hmode, hex⟩
        · cases h
      · rintro ⟨h1, _⟩
        rw [← h, if_pos (huniq h1)]

theorem borderKind_ok {k : Nat} {y : List Int} {maj : Int} {row : List Nat} (hrow : row.length = k)
    (hlt : ∀ j ∈ row, j < y.length) : ∃ q, borderKind k y maj row = .ok q := by
  obtain ⟨ls, hls⟩ := takeRows_ok_of_lt (X := y) (idx := row.drop 1) (fun j hj => hlt j (List.mem_of_mem_drop hj))
  unfold borderKind
  rw [hls, ok_bind]
  by_cases hc : k - 1 = ls.count maj
  · exact ⟨_, by rw [if_pos hc]; rfl⟩
  · rw [if_neg hc]
    have hne : ls ≠ [] := by
      rintro rfl
      have := takeRows_length hls
      rw [List.length_drop, hrow] at this
      simp at this hc
      omega
    obtain ⟨m, hm, _⟩ := pyMode_isMode hne
    exact ⟨_, by rw [hm]; rfl⟩

theorem rowsOfKind_rowsAt {A : List Row} {kinds : List BorderKind} {p : BorderKind → Bool} {ok : Nat → Prop}
    (hl : A.length = kinds.length) (hok : ∀ (i : Nat) (q : BorderKind), kinds[i]? = some q → (p q = true ↔ ok i)) :
    RowsAt A ok (rowsOfKind A kinds p) := by
  unfold rowsOfKind
  refine ⟨(List.range A.length).filter (fun i => p (kinds.getD i .safe)), List.filter_sublist, ?_, ?_⟩
  · intro i
    rw [List.mem_filter, List.mem_range]
    constructor
    · rintro ⟨h1, h2⟩
      have hk : kinds[i]? = some (kinds[i]'(by omega)) := List.getElem?_eq_getElem _
      refine ⟨h1, (hok i _ hk).1 ?_⟩
      rwa [List.getD_eq_getElem?_getD, hk] at h2
    · rintro ⟨h1, h2⟩
      have hk : kinds[i]? = some (kinds[i]'(by omega)) := List.getElem?_eq_getElem _
      refine ⟨h1, ?_⟩
      rw [List.getD_eq_getElem?_getD, hk]
      exact (hok i _ hk).2 h2
  · clear hok
    induction A generalizing kinds with
    | nil => simp
    | cons r A ih =>
      cases kinds with
      | nil => simp at hl
      | cons q kinds =>
        have ih' := ih (kinds := kinds) (by simpa using hl)
        rw [List.length_cons, List.range_succ_eq_map, List.zip_cons_cons]
        have htail : List.Forall₂ (fun i r' => (r :: A)[i]? = some r')
            ((List.map Nat.succ (List.range A.length)).filter (fun i => p ((q :: kinds).getD i .safe)))
            (((A.zip kinds).filter (fun t => p t.2)).map Prod.fst) := by
          rw [List.filter_map, List.forall₂_map_left_iff]
          exact ih'
        by_cases hp : p q = true
        · rw [List.filter_cons_of_pos (by simpa using hp), List.filter_cons_of_pos (by simpa using hp)]
          exact .cons (by simp) htail
        · rw [List.filter_cons_of_neg (by simpa using hp), List.filter_cons_of_neg (by simpa using hp)]
          exact htail

theorem RowsAt.get {A B : List Row} {ok : Nat → Prop} (h : RowsAt A ok B) {r : Row} (hr : r ∈ B) :
    ∃ i, A[i]? = some r ∧ ok i := by
  obtain ⟨K, _, hK, hf⟩ := h
  obtain ⟨i, hi, hir⟩ := forall2_mem_right hf hr
  exact ⟨i, hir, ((hK i).1 hi).2⟩

theorem RowsAt.of {A B : List Row} {ok : Nat → Prop} (h : RowsAt A ok B) {i : Nat} {r : Row} (hr : A[i]? = some r)
    (hok : ok i) : r ∈ B := by
  obtain ⟨K, _, hK, hf⟩ := h
  obtain ⟨r', hr', he⟩ := forall₂_mem_left hf ((hK i).2 ⟨(List.getElem?_eq_some_iff.1 hr).1, hok⟩)
  rw [hr] at he
  injection he with he
  rw [he]; exact hr'

/-- `determine_danger_remove_noise` succeeds and returns the rows that are not noise and the rows in danger. -/
theorem dangerRemoveNoise_spec {knn : Nat → List Row → List Row → List (List Nat)} (hk : KnnQueryOK knn) (nNeighbors : Nat)
    {X : List Row} {y : List Int} (hxy : X.length = y.length) (A : List Row) (b : Int) :
    ∃ kept danger, dangerRemoveNoise knn nNeighbors X y A b = .ok (kept, danger) ∧
      RowsAt A (fun i => ¬ IsNoiseRow (knn (min X.length (nNeighbors + 1)) X A) y b i) kept ∧
      RowsAt A (IsDangerRow (knn (min X.length (nNeighbors + 1)) X A) y b) danger := by
  unfold dangerRemoveNoise
  dsimp only
  set k := min X.length (nNeighbors + 1) with hkd
  obtain ⟨h1, h2⟩ := hk k X A (by omega)
  obtain ⟨kinds, hkinds⟩ := mapM_exists_ok (f := borderKind k y b) (l := knn k X A)
    (fun row hrow => borderKind_ok (h2 row hrow).1 (fun j hj => by rw [← hxy]; exact (h2 row hrow).2 j hj))
  rw [hkinds]
  have hl := mapM_ok_length hkinds
  have hspec : ∀ (i : Nat) (q : BorderKind), kinds[i]? = some q →
      (q = .noise ↔ IsNoiseRow (knn k X A) y b i) ∧ (q = .danger ↔ IsDangerRow (knn k X A) y b i) := by
    intro i q hq
    have hf := mapM_ok_iff.1 hkinds
    rw [List.forall₂_iff_get] at hf
    obtain ⟨hi, rfl⟩ := List.getElem?_eq_some_iff.1 hq
    have hti : i < (knn k X A).length := by rw [hf.1]; exact hi
    obtain ⟨ls, hls, e1, e2⟩ := borderKind_spec (h2 _ (List.getElem_mem hti)).1 (hf.2 i hti hi)
    have hnl : NeighborLabels (knn k X A) y i ls := ⟨_, List.getElem?_eq_getElem hti, hls⟩
    simp only [List.get_eq_getElem] at e1 e2
    constructor
    · rw [e1]
      exact ⟨fun h => ⟨ls, hnl, h⟩, fun ⟨ls', hl', h⟩ => by rw [neighborLabels_unique hnl hl']; exact h⟩
    · rw [e2]
      exact ⟨fun h => ⟨ls, hnl, h⟩, fun ⟨ls', hl', h⟩ => by rw [neighborLabels_unique hnl hl']; exact h⟩
  refine ⟨_, _, rfl, ?_, ?_⟩
  · refine rowsOfKind_rowsAt (by omega) (fun i q hq => ?_)
    rw [← (hspec i q hq).1]
    cases q <;> decide
  · refine rowsOfKind_rowsAt (by omega) (fun i q hq => ?_)
    rw [← (hspec i q hq).2]
    cases q <;> decide

theorem tableOK_drop {tab : List (List Nat)} {k m : Nat} (h : TableOK tab k m) :
    TableOK (tab.map (fun row => row.drop 1)) (k - 1) m := by
  intro row hrow
  rw [List.mem_map] at hrow
  obtain ⟨r, hr, rfl⟩ := hrow
  obtain ⟨h1, h2⟩ := h r hr
  exact ⟨by rw [List.length_drop, h1], fun i hi => h2 i (List.mem_of_mem_drop hi)⟩

/-- Neighbours of the simplices stand at position 2 or later in the answer of the search. -/
theorem selected_dropped {tab : List (List Nat)} {k nDim : Nat} {b : Nat} {ps vs : List Nat}
    (h : Selected (tab.map (fun row => row.drop 1)) k nDim none none b ps vs) :
    ∃ row, tab[b]? = some row ∧ ∀ v ∈ vs, v ∈ row.drop 2 := by
  obtain ⟨⟨row, hrow, hf⟩, hps, _⟩ := h
  rw [List.getElem?_map] at hrow
  cases ht : tab[b]? with
  | none => rw [ht] at hrow; simp at hrow
  | some r =>
    rw [ht] at hrow
    simp only [Option.map_some, Option.some.injEq] at hrow
    subst hrow
    refine ⟨r, rfl, fun v hv => ?_⟩
    obtain ⟨p, hp, hpv⟩ := forall2_mem_right hf hv
    have h1 := hps.subset hp
    rw [List.mem_range'_1] at h1
    rw [List.getElem?_drop] at hpv
    have : (r.drop 2)[p - 1]? = some v := by
      rw [List.getElem?_drop, ← hpv]
      congr 1; omega
    exact List.mem_of_getElem? this

/-! ## Borderline_SMOTE1 -/

/-- Borderline_SMOTE1 returns its input, or adds exactly the requested number of minority rows; each of these is a convex
combination of a minority row in danger and of minority rows that are not noise. -/
theorem C48_borderline1 {par : BorderParams} {vol : List Row → ℚ} {dr : Draws} {d : Nat}
    {knn : Nat → List Row → List Row → List (List Nat)} {X X' : List Row} {y y' : List Int} {a b : Int} (hwf : WF d X y)
    (hk : KnnQueryOK knn) (hdr : dr.OK) (hmin : IsMinority y a b) (hg : par.ss.gaussian = .none)
    (hvol : ∀ vs, 0 ≤ vol vs)
    (h : sample defaultChecks d (borderline1Alg par vol dr d knn) X y = .ok (X', y')) :
    ∃ kept danger,
      RowsAt (classRows X y a) (fun i => ¬ IsNoiseRow (borderTab par knn X y a) y b i) kept ∧
      RowsAt (classRows X y a) (IsDangerRow (borderTab par knn X y a) y b) danger ∧
      (y.count a ≤ 2 ∨ kept.length < 2 ∨ danger = [] → X' = X ∧ y' = y) ∧
      (¬ (y.count a ≤ 2 ∨ kept.length < 2 ∨ danger = []) →
        OversampledBy X y a (requested par.proportion (y.count b) (y.count a)) (fun x =>
          ∃ (j : Nat) (base : Row) (row nbIdx : List Nat) (nbrs : List Row) (w : List ℚ), danger[j]? = some base ∧
            (knn (min kept.length (par.kNeighbors + 1)) kept danger)[j]? = some row ∧
            -- the first two entries of the answer are not used
            (∀ i ∈ nbIdx, i ∈ row.drop 2) ∧ List.Forall₂ (fun i r => kept[i]? = some r) nbIdx nbrs ∧
            IsConvexComb d w (base :: nbrs) x) X' y') := by
  obtain ⟨s, hs, rfl, rfl⟩ := stats_of_isMinority hmin
  obtain ⟨hm, hM, hne⟩ := stats_min_mem hs
  obtain ⟨kept, danger, hdn, hkept, hdanger⟩ := dangerRemoveNoise_spec hk par.nNeighbors hwf.1
    (classRows X y s.minLabel) s.majLabel
  refine ⟨kept, danger, hkept, hdanger, ?_⟩
  rw [sample_default hs] at h
  by_cases h2 : y.count s.minLabel ≤ 2
  · rw [if_pos h2] at h
    injection h with h
    obtain ⟨rfl, rfl⟩ := Prod.mk.inj h
    exact ⟨fun _ => ⟨rfl, rfl⟩, fun hn => absurd (.inl h2) hn⟩
  rw [if_neg h2] at h
  unfold borderline1Alg at h
  rw [stats_count hs hm, stats_count hs hM, detN_eq_requested, ok_bind] at h
  set n := requested par.proportion (y.count s.majLabel) (y.count s.minLabel) with hnd
  by_cases hn0 : n = 0
  · rw [if_pos hn0] at h
    simp only [pure_ok, Prod.mk.injEq] at h
    obtain ⟨rfl, rfl⟩ := h
    refine ⟨fun _ => ⟨rfl, rfl⟩, fun _ => ?_⟩
    rw [hn0]; exact oversampledBy_none _ _ _ _
  rw [if_neg hn0, selectLabel_eq_classRows, hdn, ok_bind] at h
  dsimp only at h
  by_cases hsmall : kept.length < 2 ∨ danger.length = 0
  · rw [if_pos hsmall] at h
    simp only [pure_ok, Prod.mk.injEq] at h
    refine ⟨fun _ => ⟨h.1.symm, h.2.symm⟩, fun hn => absurd (.inr ?_) hn⟩
    rcases hsmall with h | h
    · exact .inl h
    · exact .inr (List.length_eq_zero_iff.1 h)
  rw [if_neg hsmall] at h
  refine ⟨fun hc => ?_, fun _ => ?_⟩
  · rcases hc with h | h | h
    · exact absurd h h2
    · exact absurd (.inl h) hsmall
    · exact absurd (.inr (by rw [h]; rfl)) hsmall
  rw [bind_ok] at h
  obtain ⟨out, hout, h⟩ := h
  simp only [pure_ok] at h
  have hA : ∀ (i : Nat) (r : Row), (classRows X y s.minLabel)[i]? = some r → r.length = d := by
    intro i r hr
    have := List.mem_of_getElem? hr
    rw [← selectLabel_eq_classRows] at this
    exact hwf.2 r (selectLabel_mem this)
  have hkd : ∀ r ∈ kept, r.length = d := fun r hr => by
    obtain ⟨i, hi, _⟩ := hkept.get hr; exact hA i r hi
  have hdd : ∀ r ∈ danger, r.length = d := fun r hr => by
    obtain ⟨i, hi, _⟩ := hdanger.get hr; exact hA i r hi
  obtain ⟨hk1, hk1t⟩ := hk (min kept.length (par.kNeighbors + 1)) kept danger (by omega)
  obtain ⟨g1, g2⟩ := sampleSimplex_weighted (cap := fun _ => 1) hdd
    (by intro V hV; injection hV with hV; subst hV; exact hkd) (by intro V hV; cases hV)
    (by intro hV; cases hV) hdr (by rw [List.length_map, hk1]) hg (by intro w hw; cases hw) (by intro w hw; cases hw) hvol
    ⟨fun _ _ => le_refl _, by intro ws hws; cases hws⟩ hout
  refine withSamples_oversampledBy g1 ?_ h
  intro x hx
  obtain ⟨j, ps, vs, hsel, base, nbrs, w0, wr, hbase, hnb, hcx, _⟩ := g2 x hx
  obtain ⟨row, hrow, hv⟩ := selected_dropped hsel
  exact ⟨j, base, row, vs, nbrs, w0 :: wr, hbase, hrow, hv, hnb, hcx⟩

/-- Every new row of Borderline_SMOTE1 lies around a minority row in danger, and mixes only minority rows that are not
noise. -/
theorem C48_borderline1_rows {par : BorderParams} {vol : List Row → ℚ} {dr : Draws} {d : Nat}
    {knn : Nat → List Row → List Row → List (List Nat)} {X X' : List Row} {y y' : List Int} {a b : Int} (hwf : WF d X y)
    (hk : KnnQueryOK knn) (hdr : dr.OK) (hmin : IsMinority y a b) (hg : par.ss.gaussian = .none)
    (hvol : ∀ vs, 0 ≤ vol vs)
    (h : sample defaultChecks d (borderline1Alg par vol dr d knn) X y = .ok (X', y')) :
    Oversampled X y a (requested par.proportion (y.count b) (y.count a)) (fun x =>
      ∃ i base nbrs w, (classRows X y a)[i]? = some base ∧ IsDangerRow (borderTab par knn X y a) y b i ∧
        (∀ r ∈ nbrs, ∃ j, (classRows X y a)[j]? = some r ∧ ¬ IsNoiseRow (borderTab par knn X y a) y b j) ∧
        IsConvexComb d w (base :: nbrs) x) X' y' := by
  obtain ⟨kept, danger, hkept, hdanger, e1, e2⟩ := C48_borderline1 hwf hk hdr hmin hg hvol h
  by_cases hc : y.count a ≤ 2 ∨ kept.length < 2 ∨ danger = []
  · exact .inl (e1 hc)
  · obtain ⟨new, n1, n2, n3, n4⟩ := e2 hc
    refine .inr ⟨new, n1, n2, n3, fun x hx => ?_⟩
    obtain ⟨j, base, row, nbIdx, nbrs, w, hb, _, _, hnb, hcx⟩ := n4 x hx
    obtain ⟨i, hi, hid⟩ := hdanger.get (List.mem_of_getElem? hb)
    refine ⟨i, base, nbrs, w, hi, hid, fun r hr => ?_, hcx⟩
    obtain ⟨v, _, hv⟩ := forall2_mem_right hnb hr
    exact hkept.get (List.mem_of_getElem? hv)

/-- With `k_neighbors = 1` every new row is a copy of a minority row in danger: nothing is interpolated. -/
theorem C48_borderline1_copies {par : BorderParams} {vol : List Row → ℚ} {dr : Draws} {d : Nat}
    {knn : Nat → List Row → List Row → List (List Nat)} {X X' : List Row} {y y' : List Int} {a b : Int} (hwf : WF d X y)
    (hk : KnnQueryOK knn) (hdr : dr.OK) (hmin : IsMinority y a b) (hg : par.ss.gaussian = .none)
    (hvol : ∀ vs, 0 ≤ vol vs) (hk1 : par.kNeighbors = 1)
    (h : sample defaultChecks d (borderline1Alg par vol dr d knn) X y = .ok (X', y')) :
    Oversampled X y a (requested par.proportion (y.count b) (y.count a)) (fun x => x ∈ classRows X y a) X' y' := by
  obtain ⟨kept, danger, hkept, hdanger, e1, e2⟩ := C48_borderline1 hwf hk hdr hmin hg hvol h
  by_cases hc : y.count a ≤ 2 ∨ kept.length < 2 ∨ danger = []
  · exact .inl (e1 hc)
  · obtain ⟨new, n1, n2, n3, n4⟩ := e2 hc
    refine .inr ⟨new, n1, n2, n3, fun x hx => ?_⟩
    obtain ⟨j, base, row, nbIdx, nbrs, w, hb, hrow, hin, hnb, hcx⟩ := n4 x hx
    obtain ⟨i, hi, hid⟩ := hdanger.get (List.mem_of_getElem? hb)
    have hrl := ((hk _ kept danger (by omega : min kept.length (par.kNeighbors + 1) ≤ kept.length)).2 row
      (List.mem_of_getElem? hrow)).1
    have hd2 : row.drop 2 = [] := List.length_eq_zero_iff.1 (by rw [List.length_drop, hrl, hk1]; omega)
    have hnil : nbIdx = [] := by
      cases nbIdx with
      | nil => rfl
      | cons v vs => have := hin v (by simp); rw [hd2] at this; simp at this
    subst hnil
    cases hnb
    have hbd : base.length = d := by
      have := List.mem_of_getElem? hi
      rw [← selectLabel_eq_classRows] at this
      exact hwf.2 _ (selectLabel_mem this)
    obtain ⟨c1, c2, c3, c4, c5⟩ := hcx
    match w, c1 with
    | [w0], _ =>
      simp at c3
      have : x = base := by
        apply row_ext c4 hbd
        intro k hk
        rw [c5 k hk, c3]; simp
      rw [this]
      exact List.mem_of_getElem? hi

/-! ## Borderline_SMOTE2 -/

/-- Borderline_SMOTE2: new rows lie around minority rows in danger; the other vertices may be any rows of the data set, and
a majority row has weight at most one half. -/
theorem C48_borderline2 {par : BorderParams} {vol : List Row → ℚ} {dr : Draws} {d : Nat}
    {knn : Nat → List Row → List Row → List (List Nat)} {X X' : List Row} {y y' : List Int} {a b : Int} (hwf : WF d X y)
    (hk : KnnQueryOK knn) (hdr : dr.OK) (hmin : IsMinority y a b) (hg : par.ss.gaussian = .none)
    (hvol : ∀ vs, 0 ≤ vol vs)
    (h : sample defaultChecks d (borderline2Alg par vol dr d knn) X y = .ok (X', y')) :
    Oversampled X y a (requested par.proportion (y.count b) (y.count a)) (fun x =>
      ∃ (i : Nat) (base : Row) (js : List Nat) (nbrs : List Row) (w0 : ℚ) (wr : List ℚ), (classRows X y a)[i]? = some base ∧ IsDangerRow (borderTab par knn X y a) y b i ∧
        List.Forall₂ (fun j r => X[j]? = some r) js nbrs ∧ IsConvexComb d (w0 :: wr) (base :: nbrs) x ∧
        List.Forall₂ (fun j c => y[j]? = some b → c ≤ 1/2) js wr) X' y' := by
  obtain ⟨s, hs, rfl, rfl⟩ := stats_of_isMinority hmin
  obtain ⟨hm, hM, hne⟩ := stats_min_mem hs
  obtain ⟨kept, danger, hdn, hkept, hdanger⟩ := dangerRemoveNoise_spec hk par.nNeighbors hwf.1
    (classRows X y s.minLabel) s.majLabel
  rcases sample_default_ok hs h with h | h
  · exact .inl h
  unfold borderline2Alg at h
  rw [stats_count hs hm, stats_count hs hM, detN_eq_requested, ok_bind] at h
  set n := requested par.proportion (y.count s.majLabel) (y.count s.minLabel) with hnd
  by_cases hn0 : n = 0
  · rw [if_pos hn0] at h
    simp only [pure_ok, Prod.mk.injEq] at h
    exact .inl ⟨h.1.symm, h.2.symm⟩
  rw [if_neg hn0, selectLabel_eq_classRows, hdn, ok_bind] at h
  dsimp only at h
  by_cases hsmall : kept.length < 2 ∨ danger.length = 0
  · rw [if_pos hsmall] at h
    simp only [pure_ok, Prod.mk.injEq] at h
    exact .inl ⟨h.1.symm, h.2.symm⟩
  rw [if_neg hsmall] at h
  rw [bind_ok] at h
  obtain ⟨out, hout, h⟩ := h
  simp only [pure_ok] at h
  have hdd : ∀ r ∈ danger, r.length = d := fun r hr => by
    obtain ⟨i, hi, _⟩ := hdanger.get hr
    have := List.mem_of_getElem? hi
    rw [← selectLabel_eq_classRows] at this
    exact hwf.2 r (selectLabel_mem this)
  obtain ⟨hk1, hk1t⟩ := hk (min (par.kNeighbors + 1) X.length) X danger (by omega)
  have hvwm : ∀ ws : List ℚ, some (y.map (fun l => if l = s.majLabel then (1 / 2 : ℚ) else 1)) = some ws →
      ∀ (i : Nat) (c : ℚ), ws[i]? = some c → ∃ l, y[i]? = some l ∧ c = if l = s.majLabel then (1 / 2 : ℚ) else 1 := by
    intro ws hws i c hc
    injection hws with hws
    subst hws
    rw [List.getElem?_map] at hc
    cases hy : y[i]? with
    | none => rw [hy] at hc; simp at hc
    | some l => rw [hy] at hc; simp only [Option.map_some, Option.some.injEq] at hc; exact ⟨l, rfl, hc.symm⟩
  obtain ⟨g1, g2⟩ := sampleSimplex_weighted (cap := fun i => if y[i]? = some s.majLabel then 1 / 2 else 1) hdd
    (by intro V hV; injection hV with hV; subst hV; exact hwf.2)
    (by
      intro ws hws c hc
      obtain ⟨i, hi⟩ := List.mem_iff_getElem?.1 hc
      obtain ⟨l, _, rfl⟩ := hvwm ws hws i c hi
      split <;> norm_num)
    (by intro hV; cases hV) hdr (by rw [List.length_map, hk1]) hg (by intro w hw; cases hw) (by intro w hw; cases hw) hvol
    ⟨by
      rintro (h | h)
      · cases h
      · simp [sortedPairs] at h,
     by
      intro ws hws i c hc
      obtain ⟨l, hl, rfl⟩ := hvwm ws hws i c hc
      simp only [hl, Option.some.injEq]
      exact le_refl _⟩ hout
  obtain ⟨new, n1, n2, n3, n4⟩ := withSamples_oversampledBy (P := fun x =>
      ∃ (i : Nat) (base : Row) (js : List Nat) (nbrs : List Row) (w0 : ℚ) (wr : List ℚ), (classRows X y s.minLabel)[i]? = some base ∧ IsDangerRow (borderTab par knn X y s.minLabel) y s.majLabel i ∧
        List.Forall₂ (fun j r => X[j]? = some r) js nbrs ∧ IsConvexComb d (w0 :: wr) (base :: nbrs) x ∧
        List.Forall₂ (fun j c => y[j]? = some s.majLabel → c ≤ 1/2) js wr) g1 (by
    intro x hx
    obtain ⟨j, ps, vs, hsel, base, nbrs, w0, wr, hbase, hnb, hcx, hcp⟩ := g2 x hx
    obtain ⟨i, hi, hid⟩ := hdanger.get (List.mem_of_getElem? hbase)
    refine ⟨i, base, vs, nbrs, w0, wr, hi, hid, hnb, hcx, hcp.imp ?_⟩
    intro j c hc hj
    dsimp only at hc
    rwa [if_pos hj] at hc) h
  exact .inr ⟨new, n1, n2, n3, n4⟩

/-! ## Totality -/

/-- Both Borderline-SMOTE classes succeed on every two-class data set. -/
theorem C48_total {par : BorderParams} {vol : List Row → ℚ} {dr : Draws} {d : Nat}
    {knn : Nat → List Row → List Row → List (List Nat)} {X : List Row} {y : List Int} {a b : Int} (hwf : WF d X y)
    (hk : KnnQueryOK knn) (hdr : dr.OK) (hu : ∀ i j, 0 < dr.simplexU i j) (hmin : IsMinority y a b)
    (hkn : 1 ≤ par.kNeighbors) (hd : 1 ≤ par.ss.nDim)
    (hmode : par.ss.simplexSampling = .random ∨ par.ss.simplexSampling = .deterministic ∨
      (par.ss.simplexSampling = .volume ∧ ∀ vs, 0 < vol vs))
    (hwi : par.ss.within = .random ∨ (par.ss.within = .deterministic ∧ par.ss.nDim ≤ 2)) :
    (∃ r, sample defaultChecks d (borderline1Alg par vol dr d knn) X y = .ok r) ∧
    (∃ r, sample defaultChecks d (borderline2Alg par vol dr d knn) X y = .ok r) := by
  obtain ⟨s, hs, rfl, rfl⟩ := stats_of_isMinority hmin
  obtain ⟨hm, hM, hne⟩ := stats_min_mem hs
  obtain ⟨kept, danger, hdn, hkept, hdanger⟩ := dangerRemoveNoise_spec hk par.nNeighbors hwf.1
    (classRows X y s.minLabel) s.majLabel
  have hxy := hwf.1
  rw [sample_default hs, sample_default hs]
  by_cases h2 : y.count s.minLabel ≤ 2
  · rw [if_pos h2, if_pos h2]; exact ⟨⟨_, rfl⟩, ⟨_, rfl⟩⟩
  rw [if_neg h2, if_neg h2]
  unfold borderline1Alg borderline2Alg
  rw [stats_count hs hm, stats_count hs hM, detN_eq_requested, ok_bind, ok_bind]
  set n := requested par.proportion (y.count s.majLabel) (y.count s.minLabel) with hnd
  by_cases hn0 : n = 0
  · rw [if_pos hn0, if_pos hn0]; exact ⟨⟨_, rfl⟩, ⟨_, rfl⟩⟩
  rw [if_neg hn0, if_neg hn0, selectLabel_eq_classRows, hdn, ok_bind, ok_bind]
  dsimp only
  by_cases hsmall : kept.length < 2 ∨ danger.length = 0
  · rw [if_pos hsmall, if_pos hsmall]; exact ⟨⟨_, rfl⟩, ⟨_, rfl⟩⟩
  rw [if_neg hsmall, if_neg hsmall]
  have hX2 : 2 ≤ X.length := by
    have := List.count_le_length (a := s.minLabel) (l := y)
    omega
  constructor
  · obtain ⟨hk1, hk1t⟩ := hk (min kept.length (par.kNeighbors + 1)) kept danger (by omega)
    obtain ⟨out, hout⟩ := sampleSimplex_ok (ss := par.ss) (vol := vol) (dr := dr) (d := d) (X := danger)
      (indices := (knn (min kept.length (par.kNeighbors + 1)) kept danger).map (fun row => row.drop 1))
      (k := min kept.length (par.kNeighbors + 1) - 1) (n := n) (a := { Xv := some kept }) (tableOK_drop hk1t)
      (by rw [List.length_map, hk1])
      (by intro he; have := congrArg List.length he; rw [List.length_map, hk1] at this; simp at this; simp [this] at hsmall)
      (by omega) hd rfl (by intro ws hws; cases hws) (by intro hV; cases hV) hmode hdr.choice hu
      (by
        rcases hwi with h | ⟨h, h'⟩
        · exact .inl h
        · exact .inr ⟨h, by omega⟩)
    rw [hout]; exact ⟨_, rfl⟩
  · obtain ⟨hk1, hk1t⟩ := hk (min (par.kNeighbors + 1) X.length) X danger (by omega)
    have hdl : danger.length ≤ X.length := by
      obtain ⟨K, hK, _, hf⟩ := hdanger
      have h1 := hK.length_le
      have h2 := hf.length_eq
      have h3 := selectLabel_length hwf.1 s.minLabel
      rw [selectLabel_eq_classRows] at h3
      have h4 := List.count_le_length (a := s.minLabel) (l := y)
      rw [List.length_range] at h1
      omega
    obtain ⟨out, hout⟩ := sampleSimplex_ok (ss := par.ss) (vol := vol) (dr := dr) (d := d) (X := danger)
      (indices := (knn (min (par.kNeighbors + 1) X.length) X danger).map (fun row => row.drop 1))
      (k := min (par.kNeighbors + 1) X.length - 1) (n := n)
      (a := { Xv := some X, vertexWeights := some (y.map (fun l => if l = s.majLabel then (1 / 2 : ℚ) else 1)) })
      (tableOK_drop hk1t) (by rw [List.length_map, hk1])
      (by intro he; have := congrArg List.length he; rw [List.length_map, hk1] at this; simp at this; simp [this] at hsmall)
      (by omega) hd rfl
      (by
        intro ws hws
        injection hws with hws
        subst hws
        rw [List.length_map]
        exact ⟨by omega, by simp [hxy]⟩)
      (by intro hV; cases hV) hmode hdr.choice hu
      (by
        rcases hwi with h | ⟨h, h'⟩
        · exact .inl h
        · exact .inr ⟨h, by omega⟩)
    rw [hout]; exact ⟨_, rfl⟩

/-! ## A concrete case -/

/-- Minority rows: a safe one (at 0), two in danger (at 8 and 9), one noise row (at 14). -/
def borX : List Row := [[0], [8], [9], [14], [10], [12], [13], [15], [16], [17]]
def borY : List Int := [1, 1, 1, 1, 0, 0, 0, 0, 0, 0]
def borPar : BorderParams := { proportion := 1, nNeighbors := 3, kNeighbors := 2, ss := exPar.ss }

example : WF 1 borX borY ∧ IsMinority borY 1 0 ∧ 2 < borY.count 1 ∧ KnnQueryOK bruteQuery ∧
    dangerRemoveNoise bruteQuery 3 borX borY (classRows borX borY 1) 0 = .ok ([[0], [8], [9]], [[8], [9]]) ∧
    (match sample defaultChecks 1 (borderline1Alg borPar (fun _ => 1) exDraws 1 bruteQuery) borX borY with
     | .ok r => decide (r.2 = borY ++ [1, 1] ∧ ∀ q ∈ r.1.drop 10, 0 < q.getD 0 0 ∧ q.getD 0 0 < 9)
     | .error _ => false) = true ∧
    (match sample defaultChecks 1 (borderline2Alg borPar (fun _ => 1) exDraws 1 bruteQuery) borX borY with
     | .ok r => decide (r.2 = borY ++ [1, 1] ∧ ∀ q ∈ r.1.drop 10, 9 < q.getD 0 0 ∧ q.getD 0 0 ≤ 21/2)
     | .error _ => false) = true := by
  refine ⟨⟨by decide, by decide +kernel⟩, ⟨by decide, by decide, by decide, Or.inl (by decide)⟩, by decide, bruteQuery_ok,
    by decide +kernel, by decide +kernel, by decide +kernel⟩

end Verif

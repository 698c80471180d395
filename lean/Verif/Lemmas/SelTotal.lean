import Verif.Lemmas.SelWeights

/-! # Existence of a result of `sample_simplex` with simplex weights -/

namespace Verif

theorem simplexDistribution_pos {mode : SimplexSampling} {vol : List Row → ℚ} {X : List Row}
    {all : List (List Nat)} {w : List ℚ} (hne : all ≠ [])
    (hm : mode = .random ∨ mode = .deterministic ∨ (mode = .volume ∧ ∀ vs, 0 < vol vs))
    (h : simplexDistribution mode vol X all = .ok w) : ∀ x ∈ w, 0 < x := by
  have hlen : 0 < all.length := List.length_pos_iff.2 hne
  have hq : (0:ℚ) < 1 / (all.length : ℚ) := by positivity
  intro x hx
  rcases hm with rfl | rfl | ⟨rfl, hv⟩
  · simp only [simplexDistribution] at h; injection h with h; subst h
    rw [List.eq_of_mem_replicate hx]; exact hq
  · simp only [simplexDistribution] at h; injection h with h; subst h
    rw [List.eq_of_mem_replicate hx]; exact hq
  · simp only [simplexDistribution] at h
    obtain ⟨s, _, hsx⟩ := mapM_ok_mem h hx
    rw [bind_ok] at hsx
    obtain ⟨vs, _, hsx⟩ := hsx
    simp only [pure_ok] at hsx
    rw [← hsx]; exact hv vs

theorem prod_pos_of_all {l : List ℚ} (h : ∀ x ∈ l, 0 < x) : 0 < l.prod := by
  induction l with
  | nil => simp
  | cons a l ih =>
    rw [List.prod_cons]
    exact mul_pos (h a (by simp)) (ih (fun x hx => h x (by simp [hx])))

theorem sum_pos_of_one {l : List ℚ} {i : Nat} {x : ℚ} (h0 : ∀ x ∈ l, 0 ≤ x) (hx : l[i]? = some x) (hp : 0 < x) : 0 < l.sum := by
  have hxm := List.mem_of_getElem? hx
  have := List.single_le_sum h0 x hxm
  linarith

theorem forall2_at {β : Type} {R : List Nat → β → Prop} {L : List (List Nat)} {M : List β} {b : β} {t : List Nat} {i : Nat}
    (hf : List.Forall₂ R L M) (ht : L[i]? = some t) (hb : M[i]? = some b) : R t b := by
  rw [List.forall₂_iff_get] at hf
  obtain ⟨h1, rfl⟩ := List.getElem?_eq_some_iff.1 ht
  obtain ⟨h2, rfl⟩ := List.getElem?_eq_some_iff.1 hb
  exact hf.2 i h1 h2

/-- A selection exists as soon as one simplex has positive weights. -/
theorem simplicesSel_ok_sw {mode : SimplexSampling} {vol : List Row → ℚ} {cu : Nat → ℚ}
    {X : List Row} {n : Nat} {bw : Option (List ℚ)} {indices : List (List Nat)} {k : Nat}
    {Xv : Option (List Row)} {nDim : Nat} {m : List (List ℚ)}
    (ht : TableOK indices k (Xv.getD X).length) (hI : indices.length ≤ X.length)
    (hu : ∀ i, 0 ≤ cu i ∧ cu i < 1) (hw : WeightsOK mode vol bw indices.length)
    (hm : indices.length ≤ m.length) (hmk : ∀ r ∈ m, k ≤ r.length ∧ ∀ x ∈ r, 0 ≤ x)
    (hpos : ∃ (b : Nat) (ps : List Nat), b < indices.length ∧ ps.Sublist (List.range' 1 (k - 1)) ∧ ps.length + 1 = nDim ∧
      (∀ w, bw = some w → ∃ c, w[b]? = some c ∧ 0 < c) ∧
      ∃ r, m[b]? = some r ∧ ∀ p ∈ ps, ∃ c, r[p]? = some c ∧ 0 < c) :
    ∃ sel, simplicesSel mode vol cu X n bw indices k Xv (some m) nDim = .ok sel := by
  obtain ⟨b, ps, hb, hps, hpl, hbw, r, hr, hrp⟩ := hpos
  have hd : 1 ≤ nDim := by omega
  have hdk : nDim - 1 ≤ k - 1 := by
    have := hps.length_le
    rw [List.length_range'] at this
    omega
  obtain ⟨all, hall, hcnt, hsh⟩ := allNeighbor_ok ht hd hdk
  have hmem : (b :: ps) ∈ posSimplices indices.length k nDim := mem_posSimplices.2 ⟨b, ps, rfl, hb, hps, by omega⟩
  obtain ⟨i, hi⟩ := List.mem_iff_getElem?.1 hmem
  have hil : i < (posSimplices indices.length k nDim).length := (List.getElem?_eq_some_iff.1 hi).1
  have hallen : all.length = (posSimplices indices.length k nDim).length := by
    rw [hcnt, length_posSimplices]
  have hallne : all ≠ [] := by
    intro he; rw [he] at hallen; simp at hallen; omega
  obtain ⟨w, hwe, hwl, hw0, _⟩ := determineWeights_ok (Xv := Xv) hallne hI hcnt (fun s hs => by
    obtain ⟨b, vs, row, rfl, hrow, hin, _⟩ := hsh s hs
    refine ⟨b, vs, rfl, (List.getElem?_eq_some_iff.1 hrow).1, fun v hv => ?_⟩
    exact (ht row (List.mem_of_getElem? hrow)).2 v (hin v hv)) hw
  -- node weights
  have hstep : ∀ s ∈ posSimplices indices.length k nDim, ∃ z, (match s with
      | [] => .error .indexError
      | b :: ps => do
        let row ← getRow m b
        let ws ← takeRows row ps
        return ws.prod : Res ℚ) = .ok z := by
    intro s hs
    obtain ⟨b', ps', rfl, hb', hps', _⟩ := mem_posSimplices.1 hs
    have hbm : b' < m.length := by omega
    obtain ⟨ws, hws⟩ := takeRows_ok_of_lt (X := m[b']) (idx := ps') (fun p hp => by
      have := hps'.subset hp
      rw [List.mem_range'] at this
      obtain ⟨q, hq, rfl⟩ := this
      have := (hmk m[b'] (List.getElem_mem _)).1
      omega)
    exact ⟨ws.prod, by simp only []; rw [getRow_lt hbm, ok_bind, hws]; rfl⟩
  obtain ⟨nw, hnw⟩ := mapM_exists_ok hstep
  have hnwe : nodeWeights (some m) indices.length k nDim all.length = .ok nw := by
    simp only [nodeWeights]
    rw [baseIdx_eq hd (Or.inl hdk), ok_bind]; exact hnw
  have hnwl := mapM_ok_length hnw
  have hnw0 : ∀ x ∈ nw, 0 ≤ x := by
    intro x hx
    obtain ⟨s, hs, hsx⟩ := mapM_ok_mem hnw hx
    cases s with
    | nil => simp at hsx
    | cons b ps =>
      simp only at hsx
      rw [bind_ok] at hsx
      obtain ⟨r, hr, hsx⟩ := hsx
      rw [bind_ok] at hsx
      obtain ⟨ws, hws, hsx⟩ := hsx
      simp only [pure_ok] at hsx
      rw [← hsx]
      exact prod_nonneg_of_all (fun c hc => (hmk r (getRow_mem hr)).2 c (takeRows_mem hws hc))
  -- the positive entry
  have hiw : i < w.length := by omega
  have hinw : i < nw.length := by omega
  have hwi := List.getElem?_eq_getElem hiw
  have hnwi := List.getElem?_eq_getElem hinw
  have hwp : 0 < w[i] := by
    rcases bw with _ | bw
    · rcases Xv with _ | V
      · exact simplexDistribution_pos hallne hw hwe _ (List.getElem_mem _)
      · exact simplexDistribution_pos (by simpa using hallne) hw hwe _ (List.getElem_mem _)
    · obtain ⟨hbl, _, _⟩ := hw
      simp only [determineWeights] at hwe
      rw [if_neg (by omega)] at hwe
      injection hwe with hwe
      have hdiv : all.length / bw.length = (combinations (List.range' 1 (k - 1)) (nDim - 1)).length := by
        rw [length_combinations, List.length_range', hcnt, hbl]
        exact Nat.mul_div_cancel_left _ (by omega)
      rw [hdiv] at hwe
      have hf := forall2_flatMap_replicate (forall2_range_get bw) (combinations (List.range' 1 (k - 1)) (nDim - 1))
      rw [hbl, hwe] at hf
      obtain ⟨b', ps', he, hba⟩ := forall2_at hf hi hwi
      injection he with he1 he2
      subst he1
      obtain ⟨c, hc, hcp⟩ := hbw bw rfl
      rw [hba] at hc
      injection hc with hc
      rw [hc]; exact hcp
  have hnwp : 0 < nw[i] := by
    have hsx := forall2_at (mapM_ok_iff.1 hnw) hi hnwi
    simp only at hsx
    rw [bind_ok] at hsx
    obtain ⟨r', hr', hsx⟩ := hsx
    rw [bind_ok] at hsx
    obtain ⟨ws, hws, hsx⟩ := hsx
    simp only [pure_ok] at hsx
    rw [← hsx]
    have := getRow_ok.1 hr'
    rw [hr] at this
    injection this with this
    subst this
    apply prod_pos_of_all
    intro x hx
    obtain ⟨p, hp, hpx⟩ := forall2_mem_right (takeRows_forall hws) hx
    obtain ⟨c, hc, hcp⟩ := hrp p hp
    rw [hpx] at hc
    injection hc with hc
    rw [hc]; exact hcp
  have hz0 : ∀ x ∈ List.zipWith (· * ·) w nw, 0 ≤ x := by
    intro x hx
    obtain ⟨i, hi⟩ := List.mem_iff_getElem?.1 hx
    obtain ⟨a, b, ha, hb, rfl⟩ := getElem?_zipWith_mul hi
    exact mul_nonneg (hw0 _ (List.mem_of_getElem? ha)) (hnw0 _ (List.mem_of_getElem? hb))
  have hzs : 0 < (List.zipWith (· * ·) w nw).sum := by
    refine sum_pos_of_one (i := i) (x := w[i] * nw[i]) hz0 ?_ (mul_pos hwp hnwp)
    rw [List.getElem?_zipWith, hwi, hnwi]
  obtain ⟨p, hp, hpl, hp0, hps⟩ := normalize_ok hz0 hzs
  rw [List.length_zipWith] at hpl
  have hrange : ∀ i : Nat, (∃ x, p[i]? = some x ∧ 0 < x) → i < all.length := by
    rintro i ⟨x, hx, _⟩
    have := (List.getElem?_eq_some_iff.1 hx).1
    omega
  unfold simplicesSel
  rw [hall, ok_bind, hnwe, ok_bind, hwe, ok_bind, if_neg (by omega), hp]
  by_cases hm : mode = .deterministic
  · obtain ⟨sel, hsel, _, hin⟩ := deterministicSample_ok (n := n) hp0 hps
    obtain ⟨r, hr⟩ := takeRows_ok_of_lt (X := all) (idx := sel) (fun i hi => hrange i (hin i hi))
    refine ⟨r, ?_⟩
    simp only [hm, if_true]
    show (deterministicSample n p >>= fun sel => takeRows all sel) = _
    rw [hsel, ok_bind, hr]
  · obtain ⟨sel, hsel, _, hin⟩ := npChoice_ok (m := all.length) (n := n) (by omega) hp0 hps hu
    obtain ⟨r, hr⟩ := takeRows_ok_of_lt (X := all) (idx := sel) (fun i hi => hrange i (hin i hi))
    refine ⟨r, ?_⟩
    simp only [hm, if_false]
    show (npChoice all.length n p cu >>= fun sel => takeRows all sel) = _
    rw [hsel, ok_bind, hr]

end Verif

import Verif.Lemmas.Comb
import Verif.Lemmas.Choice
import Verif.Lemmas.Unique
import Verif.Lemmas.Geometry
import Verif.Spec.Sampling

/-! # What a successful `sample_simplex` call returns -/

namespace Verif

theorem deterministicSample_length {n : Nat} {p : List ℚ} {sel : List Nat}
    (h : deterministicSample n p = .ok sel) : sel.length = n := by
  unfold deterministicSample at h
  rw [bind_ok] at h
  obtain ⟨c, hc, h⟩ := h
  have hsum : c.sum = (n : ℤ) := by
    unfold deterministicCounts at hc
    simp only at hc
    split at hc
    · rename_i hz; injection hc with hc; subst hc; omega
    · split at hc
      · simp at hc
      · split at hc
        · simp at hc
        · split at hc
          · rename_i hz; injection hc with hc; subst hc; exact hz
          · simp at hc
  unfold countsToVector at h
  split at h
  · simp at h
  · rename_i hneg
    simp at h
    have h0 : ∀ x ∈ c, 0 ≤ x := by
      intro x hx
      by_contra hx0
      exact hneg (by rw [List.any_eq_true]; exact ⟨x, hx, by simp; omega⟩)
    have := length_expand c 0 h0
    rw [h, hsum] at this
    exact_mod_cast this

theorem npChoice_length {m n : Nat} {p : List ℚ} {u : Nat → ℚ} {sel : List Nat}
    (h : npChoice m n p u = .ok sel) : sel.length = n := by
  unfold npChoice at h
  split at h
  · simp at h
  · split at h
    · simp at h
    · split at h
      · simp at h
      · simp at h; subst h; simp

/-- The shape of an enumerated simplex. -/
def SimplexShape (indices : List (List Nat)) (nDim : Nat) (s : List Nat) : Prop :=
  ∃ b vs row, s = b :: vs ∧ indices[b]? = some row ∧ (∀ v ∈ vs, v ∈ row) ∧ vs.length + 1 = nDim

theorem allNeighbor_sound {indices : List (List Nat)} {k nDim : Nat} {all : List (List Nat)}
    (h : allNeighborSimplicesRealIdx nDim indices k = .ok all) :
    1 ≤ nDim ∧ ∀ s ∈ all, SimplexShape indices nDim s := by
  obtain ⟨hd, -, h⟩ := allNeighbor_unfold h
  refine ⟨hd, ?_⟩
  intro s hs
  obtain ⟨t, ht, hts⟩ := mapM_ok_mem h hs
  obtain ⟨b, c, rfl, hb, hc, hl⟩ := mem_posSimplices.1 ht
  unfold realIdxRow at hts
  simp only at hts
  rw [bind_ok] at hts
  obtain ⟨row, hrow, hts⟩ := hts
  rw [bind_ok] at hts
  obtain ⟨vs, hvs, hts⟩ := hts
  simp only [pure_ok] at hts
  refine ⟨b, vs, row, hts.symm, getRow_ok.1 hrow, ?_, ?_⟩
  · intro v hv
    obtain ⟨i, _, hi⟩ := forall2_mem_right (takeRows_forall hvs) hv
    exact List.mem_of_getElem? hi
  · rw [takeRows_length hvs, hl]; omega

theorem simplicesSel_sound {mode : SimplexSampling} {vol : List Row → ℚ} {cu : Nat → ℚ}
    {X : List Row} {n : Nat} {bw : Option (List ℚ)} {indices : List (List Nat)} {k : Nat}
    {Xv : Option (List Row)} {sw : Option (List (List ℚ))} {nDim : Nat} {sel : List (List Nat)}
    (h : simplicesSel mode vol cu X n bw indices k Xv sw nDim = .ok sel) :
    sel.length = n ∧ 1 ≤ nDim ∧ ∀ s ∈ sel, SimplexShape indices nDim s := by
  unfold simplicesSel at h
  rw [bind_ok] at h
  obtain ⟨all, hall, h⟩ := h
  rw [bind_ok] at h
  obtain ⟨nw, hnw, h⟩ := h
  rw [bind_ok] at h
  obtain ⟨w, hw, h⟩ := h
  by_cases hlw : w.length ≠ nw.length
  · rw [if_pos hlw] at h
    simp [throw, throwThe, MonadExceptOf.throw, bind, Except.bind] at h
  · rw [if_neg hlw] at h
    rw [bind_ok] at h
    obtain ⟨p, hp, h⟩ := h
    have h' : ∃ ix, takeRows all ix = .ok sel ∧ ix.length = n := by
      split at h
      · rw [bind_ok] at h
        obtain ⟨ix, hix, h⟩ := h
        exact ⟨ix, h, deterministicSample_length hix⟩
      · rw [bind_ok] at h
        obtain ⟨ix, hix, h⟩ := h
        exact ⟨ix, h, npChoice_length hix⟩
    obtain ⟨ix, hix, hl⟩ := h'
    obtain ⟨hd, hsh⟩ := allNeighbor_sound hall
    exact ⟨by rw [takeRows_length hix, hl], hd, fun s hs => hsh s (takeRows_mem hix hs)⟩

theorem normalizeDraw_ok {u w : List ℚ} (h : normalizeDraw u = .ok w) (h0 : ∀ x ∈ u, 0 ≤ x) :
    w.length = u.length ∧ (∀ c ∈ w, 0 ≤ c) ∧ w.sum = 1 := by
  unfold normalizeDraw at h
  split at h
  · simp at h
  · rename_i hs
    simp at h
    subst h
    have hsum : 0 ≤ u.sum := List.sum_nonneg h0
    refine ⟨by simp, ?_, ?_⟩
    · intro c hc
      rw [List.mem_map] at hc
      obtain ⟨x, hx, rfl⟩ := hc
      exact div_nonneg (h0 x hx) hsum
    · have : ∀ (l : List ℚ) (s : ℚ), (l.map (· / s)).sum = l.sum / s := by
        intro l s
        induction l with
        | nil => simp
        | cons a l ih => simp [ih, add_div]
      rw [this, div_self hs]

/-- Re-weighting the neighbours towards the base keeps convex combinations. -/
theorem reweight_convex {d : Nat} {base x : Row} {nbs : List Row} {ws : List ℚ} {w : List ℚ}
    (hb : base.length = d) (hn : ∀ r ∈ nbs, r.length = d) (hl : ws.length = nbs.length)
    (hw : ∀ c ∈ ws, 0 ≤ c ∧ c ≤ 1)
    (h : IsConvexComb d w (base :: List.zipWith
      (fun nb w => Row.add (Row.smul w (Row.sub nb base)) base) nbs ws) x) :
    ∃ w', IsConvexComb d w' (base :: nbs) x := by
  obtain ⟨h1, h2, h3, h4, h5⟩ := h
  cases w with
  | nil => simp at h1
  | cons w0 wr =>
    have hlen : wr.length = nbs.length := by simpa [hl] using h1
    simp only [List.sum_cons] at h3
    have hw0 := h2 w0 (by simp)
    have hwr : ∀ c ∈ wr, 0 ≤ c := fun c hc => h2 c (by simp [hc])
    -- new weights
    refine ⟨(w0 + (List.zipWith (fun a c => a * (1 - c)) wr ws).sum) ::
      List.zipWith (fun a c => a * c) wr ws, ?_, ?_, ?_, h4, ?_⟩
    · simp [hlen, hl]
    · have hnn : ∀ (wr ws : List ℚ), (∀ c ∈ wr, 0 ≤ c) → (∀ c ∈ ws, 0 ≤ c ∧ c ≤ 1) →
          (0 ≤ (List.zipWith (fun a c => a * (1 - c)) wr ws).sum) ∧
          ∀ c ∈ List.zipWith (fun a c => a * c) wr ws, 0 ≤ c := by
        intro wr
        induction wr with
        | nil => intro ws _ _; simp
        | cons a wr ih =>
          intro ws ha hw
          cases ws with
          | nil => simp
          | cons c ws =>
            obtain ⟨i1, i2⟩ := ih ws (fun c hc => ha c (by simp [hc])) (fun c hc => hw c (by simp [hc]))
            have h1 := ha a (by simp)
            have h2 := hw c (by simp)
            constructor
            · simp only [List.zipWith_cons_cons, List.sum_cons]
              have : 0 ≤ a * (1 - c) := mul_nonneg h1 (by linarith)
              linarith
            · intro e he
              simp only [List.zipWith_cons_cons, List.mem_cons] at he
              rcases he with rfl | he
              · exact mul_nonneg h1 h2.1
              · exact i2 e he
      obtain ⟨j1, j2⟩ := hnn wr ws hwr hw
      intro c hc
      rcases List.mem_cons.1 hc with rfl | hc
      · linarith
      · exact j2 c hc
    · have hs : ∀ (wr ws : List ℚ), wr.length = ws.length →
          (List.zipWith (fun a c => a * (1 - c)) wr ws).sum +
          (List.zipWith (fun a c => a * c) wr ws).sum = wr.sum := by
        intro wr
        induction wr with
        | nil => intro ws _; simp
        | cons a wr ih =>
          intro ws hl
          cases ws with
          | nil => simp at hl
          | cons c ws =>
            have := ih ws (by simpa using hl)
            simp only [List.zipWith_cons_cons, List.sum_cons]
            linarith
      have := hs wr ws (by omega)
      simp only [List.sum_cons]
      linarith
    · intro k hk
      rw [h5 k hk]
      simp only [List.zipWith_cons_cons, List.sum_cons]
      have hs : ∀ (nbs : List Row) (wr ws : List ℚ), wr.length = nbs.length →
          ws.length = nbs.length → (∀ r ∈ nbs, r.length = d) →
          (List.zipWith (fun c (r : Row) => c * r.getD k 0) wr (List.zipWith
            (fun nb w => Row.add (Row.smul w (Row.sub nb base)) base) nbs ws)).sum =
          (List.zipWith (fun a c => a * (1 - c)) wr ws).sum * base.getD k 0 +
          (List.zipWith (fun c (r : Row) => c * r.getD k 0)
            (List.zipWith (fun a c => a * c) wr ws) nbs).sum := by
        intro nbs
        induction nbs with
        | nil =>
          intro wr ws h1 h2 _
          have : wr = [] := List.length_eq_zero_iff.1 (by simpa using h1)
          subst this; simp
        | cons nb nbs ih =>
          intro wr ws h1 h2 h3
          cases wr with
          | nil => simp at h1
          | cons a wr =>
            cases ws with
            | nil => simp at h2
            | cons c ws =>
              have := ih wr ws (by simpa using h1) (by simpa using h2)
                (fun r hr => h3 r (by simp [hr]))
              have hnb := h3 nb (by simp)
              simp only [List.zipWith_cons_cons, List.sum_cons]
              rw [this, Row.add_getD (by simp; omega) (by omega), Row.smul_getD,
                Row.sub_getD (by omega) (by omega)]
              ring
      rw [hs nbs wr ws hlen hl hn]
      ring

theorem takeRows_append_shift {X V : List Row} {ns : List Nat} {r : List Row}
    (h : takeRows (X ++ V) (ns.map (· + X.length)) = .ok r) :
    List.Forall₂ (fun i a => V[i]? = some a) ns r := by
  have := takeRows_forall h
  rw [List.forall₂_map_left_iff] at this
  refine this.imp (fun i a hi => ?_)
  rw [List.getElem?_append_right (by omega)] at hi
  simpa using hi

/-- Each randomly generated sample is a convex combination of base and listed neighbours. -/
theorem randomSample_sound {d : Nat} {X : List Row} {Xv : Option (List Row)}
    {vw : Option (List ℚ)} {s : List Nat} {u : Nat → ℚ} {x : Row} {indices : List (List Nat)}
    {nDim : Nat}
    (hX : ∀ r ∈ X, r.length = d) (hV : ∀ V, Xv = some V → ∀ r ∈ V, r.length = d)
    (hvw : ∀ ws, vw = some ws → ∀ c ∈ ws, 0 ≤ c ∧ c ≤ 1) (hu : ∀ j, 0 ≤ u j)
    (hI : indices.length ≤ X.length) (hs : SimplexShape indices nDim s)
    (h : (do
      let w ← normalizeDraw ((List.range s.length).map u)
      let vs ← simplexVertices X Xv vw s
      return rowSum d (List.zipWith Row.smul w vs) : Res Row) = .ok x) :
    GeneratedFrom d X (Xv.getD X) indices x := by
  rw [bind_ok] at h
  obtain ⟨w, hw, h⟩ := h
  rw [bind_ok] at h
  obtain ⟨vs, hvs, h⟩ := h
  simp only [pure_ok] at h
  obtain ⟨hwl, hw0, hw1⟩ := normalizeDraw_ok hw (by
    intro c hc; rw [List.mem_map] at hc; obtain ⟨j, _, rfl⟩ := hc; exact hu j)
  obtain ⟨b, ns, row, rfl, hrow, hin, hlen⟩ := hs
  have hwl' : w.length = ns.length + 1 := by simpa using hwl
  subst h
  rcases vw with _ | vw
  · rcases Xv with _ | V
    · simp only [simplexVertices, takeRows, List.mapM_cons] at hvs
      rw [bind_ok] at hvs
      obtain ⟨base, hbase, hvs⟩ := hvs
      rw [bind_ok] at hvs
      obtain ⟨nbrs, hnb, hvs⟩ := hvs
      simp only [pure_ok] at hvs
      subst hvs
      refine ⟨b, base, row, ns, nbrs, w, getRow_ok.1 hbase, hrow, hin, takeRows_forall hnb, ?_⟩
      refine rowSum_convex (by rw [hwl']; simp [takeRows_length hnb]) hw0 hw1 ?_
      intro v hv
      rcases List.mem_cons.1 hv with rfl | hv
      · exact hX _ (getRow_mem hbase)
      · exact hX _ (takeRows_mem hnb hv)
    · simp only [simplexVertices, shiftNeighbors, takeRows, List.mapM_cons] at hvs
      rw [bind_ok] at hvs
      obtain ⟨base, hbase, hvs⟩ := hvs
      rw [bind_ok] at hvs
      obtain ⟨nbrs, hnb, hvs⟩ := hvs
      simp only [pure_ok] at hvs
      subst hvs
      have hf := takeRows_append_shift hnb
      have hbl : b < X.length := lt_of_lt_of_le (List.getElem?_eq_some_iff.1 hrow).1 hI
      have hb' : X[b]? = some base := by
        have := getRow_ok.1 hbase
        rwa [List.getElem?_append_left hbl] at this
      refine ⟨b, base, row, ns, nbrs, w, hb', hrow, hin, hf, ?_⟩
      refine rowSum_convex (by rw [hwl']; simp [hf.length_eq]) hw0 hw1 ?_
      intro v hv
      rcases List.mem_cons.1 hv with rfl | hv
      · exact hX _ (List.mem_of_getElem? hb')
      · obtain ⟨i, _, hi⟩ := forall2_mem_right hf hv
        exact hV V rfl _ (List.mem_of_getElem? hi)
  · simp only [simplexVertices] at hvs
    rw [bind_ok] at hvs
    obtain ⟨base, hbase, hvs⟩ := hvs
    rw [bind_ok] at hvs
    obtain ⟨nbs, hnb, hvs⟩ := hvs
    rw [bind_ok] at hvs
    obtain ⟨ws, hws, hvs⟩ := hvs
    simp only [pure_ok] at hvs
    subst hvs
    have hbd : base.length = d := hX _ (getRow_mem hbase)
    have hnd : ∀ r ∈ nbs, r.length = d := by
      intro r hr
      have := takeRows_mem hnb hr
      rcases Xv with _ | V
      · exact hX _ this
      · exact hV V rfl _ this
    have hl : ws.length = nbs.length := by rw [takeRows_length hws, takeRows_length hnb]
    have hcx : IsConvexComb d w (base :: List.zipWith
        (fun nb w => Row.add (Row.smul w (Row.sub nb base)) base) nbs ws)
        (rowSum d (List.zipWith Row.smul w (base :: List.zipWith
        (fun nb w => Row.add (Row.smul w (Row.sub nb base)) base) nbs ws))) := by
      refine rowSum_convex ?_ hw0 hw1 ?_
      · simp [hwl', hl, takeRows_length hnb]
      · intro v hv
        rcases List.mem_cons.1 hv with rfl | hv
        · exact hbd
        · obtain ⟨i, hi, rfl⟩ := List.mem_iff_getElem.1 hv
          simp only [List.length_zipWith] at hi
          simp only [List.getElem_zipWith, Row.add_length, Row.smul_length, Row.sub_length]
          have := hnd _ (List.getElem_mem (l := nbs) (n := i) (by omega))
          omega
    obtain ⟨w', hw'⟩ := reweight_convex hbd hnd hl
      (fun c hc => hvw vw rfl c (takeRows_mem hws hc)) hcx
    exact ⟨b, base, row, ns, nbs, w', getRow_ok.1 hbase, hrow, hin, takeRows_forall hnb, hw'⟩

theorem randomSamples_sound {d : Nat} {X : List Row} {Xv : Option (List Row)}
    {vw : Option (List ℚ)} {sel : List (List Nat)} {u : Nat → Nat → ℚ} {out : List Row}
    {indices : List (List Nat)} {nDim : Nat}
    (hX : ∀ r ∈ X, r.length = d) (hV : ∀ V, Xv = some V → ∀ r ∈ V, r.length = d)
    (hvw : ∀ ws, vw = some ws → ∀ c ∈ ws, 0 ≤ c ∧ c ≤ 1) (hu : ∀ i j, 0 ≤ u i j)
    (hI : indices.length ≤ X.length) (hs : ∀ s ∈ sel, SimplexShape indices nDim s)
    (h : randomSamplesFromSimplices d X sel Xv vw u = .ok out) :
    out.length = sel.length ∧ ∀ x ∈ out, GeneratedFrom d X (Xv.getD X) indices x := by
  unfold randomSamplesFromSimplices at h
  constructor
  · rw [mapM_ok_length h]; simp
  · intro x hx
    obtain ⟨⟨s, i⟩, hsi, hgen⟩ := mapM_ok_mem h hx
    exact randomSample_sound hX hV hvw (hu i) hI
      (hs s (by have := List.mem_zipIdx hsi; simp at this; rw [this.2]; exact List.getElem_mem _)) hgen

/-- A point of the segment between the two rows of a pair. -/
def OnPair (d : Nat) (X V : List Row) (p : Nat × Nat) (x : Row) : Prop :=
  ∃ base nb t, X[p.1]? = some base ∧ V[p.2]? = some nb ∧ 0 ≤ t ∧ t ≤ 1 ∧
    IsConvexComb d [1 - t, t] [base, nb] x

theorem addSamples_sound {d : Nat} {pairs : List ((Nat × Nat) × Nat)} {count : Nat}
    {X V : List Row} {vw : Option (List ℚ)} {out : List Row}
    (hX : ∀ r ∈ X, r.length = d) (hV : ∀ r ∈ V, r.length = d)
    (hvw : ∀ ws, vw = some ws → ∀ c ∈ ws, 0 ≤ c ∧ c ≤ 1)
    (h : addSamples pairs count X V vw = .ok out) :
    out.length = count * (pairs.filter (fun pc => pc.2 == count)).length ∧
    ∀ x ∈ out, ∃ p ∈ pairs, OnPair d X V p.1 x := by
  unfold addSamples at h
  simp only at h
  rw [bind_ok] at h
  obtain ⟨rows, hrows, h⟩ := h
  simp only [pure_ok] at h
  subst h
  constructor
  · rw [List.length_flatMap]
    simp only [List.length_map, List.map_const', List.length_range', List.sum_replicate,
      nsmul_eq_mul, Nat.cast_id, mapM_ok_length hrows]
  · intro x hx
    rw [List.mem_flatMap] at hx
    obtain ⟨j, hj, hx⟩ := hx
    rw [List.mem_map] at hx
    obtain ⟨bd, hbd, rfl⟩ := hx
    obtain ⟨p, hp, hpb⟩ := mapM_ok_mem hrows hbd
    rw [List.mem_map] at hp
    obtain ⟨pc, hpc, rfl⟩ := hp
    refine ⟨pc, (List.mem_filter.1 hpc).1, ?_⟩
    rw [bind_ok] at hpb
    obtain ⟨base, hbase, hpb⟩ := hpb
    rw [bind_ok] at hpb
    obtain ⟨nb, hnb, hpb⟩ := hpb
    have hwex : ∃ w : ℚ, 0 ≤ w ∧ w ≤ 1 ∧ bd = (base, Row.smul w (Row.sub nb base)) := by
      rw [bind_ok] at hpb
      obtain ⟨w, hw, hpb⟩ := hpb
      simp only [pure_ok] at hpb
      rcases vw with _ | ws
      · simp only [vertexWeight] at hw
        injection hw with hw
        subst hw
        exact ⟨1, by norm_num, le_refl _, hpb.symm⟩
      · simp only [vertexWeight] at hw
        have := hvw ws rfl w (getRow_mem hw)
        exact ⟨w, this.1, this.2, hpb.symm⟩
    obtain ⟨w, hw0, hw1, rfl⟩ := hwex
    have hbl := hX _ (getRow_mem hbase)
    have hnl := hV _ (getRow_mem hnb)
    simp only [List.mem_range'_1] at hj
    set s : ℚ := 1 / ((count : ℚ) + 1) * (j : ℚ) with hs
    have hc : (0:ℚ) < (count : ℚ) + 1 := by positivity
    have hs0 : 0 ≤ s := by rw [hs]; positivity
    have hs1 : s ≤ 1 := by
      rw [hs, one_div, inv_mul_le_iff₀ hc]
      have : (j : ℚ) ≤ count := by exact_mod_cast (by omega : j ≤ count)
      linarith
    refine ⟨base, nb, s * w, getRow_ok.1 hbase, getRow_ok.1 hnb, mul_nonneg hs0 hw0,
      mul_le_one₀ hs1 hw0 hw1, ?_⟩
    refine segment_convex hbl hnl (mul_nonneg hs0 hw0) (mul_le_one₀ hs1 hw0 hw1) ?_
    simp [Row.smul, mul_assoc, Function.comp_def]

theorem sum_mul_count (D L : List Nat) (hnd : D.Nodup) (hmem : ∀ c ∈ L, 0 < c → c ∈ D) :
    (D.map (fun c => c * L.count c)).sum = L.sum := by
  induction L with
  | nil => simp
  | cons a L ih =>
    have h1 : ∀ D : List Nat, D.Nodup →
        (D.map (fun c => c * (a :: L).count c)).sum =
        (D.map (fun c => c * L.count c)).sum + (if a ∈ D then a else 0) := by
      intro D hD
      induction D with
      | nil => simp
      | cons b D ihD =>
        obtain ⟨hb, hD⟩ := List.nodup_cons.1 hD
        rw [List.map_cons, List.sum_cons, ihD hD, List.map_cons, List.sum_cons, List.count_cons]
        by_cases hab : a = b
        · subst hab
          simp [hb, Nat.mul_add]; omega
        · simp [hab]; omega
    rw [h1 D hnd, ih (fun c hc => hmem c (by simp [hc]))]
    by_cases ha : 0 < a
    · simp [hmem a (by simp) ha, add_comm]
    · have : a = 0 := by omega
      simp [this]

theorem foldr_max_ge {L : List Nat} {c : Nat} (h : c ∈ L) : c ≤ L.foldr max 0 := by
  induction L with
  | nil => simp at h
  | cons a L ih =>
    simp only [List.foldr_cons]
    rcases List.mem_cons.1 h with rfl | h
    · omega
    · have := ih h; omega

theorem mapM_flatten_length {α β : Type} {l : List α} {f : α → Res (List β)} {parts : List (List β)}
    {g : α → Nat} (h : l.mapM f = .ok parts) (hg : ∀ a b, f a = .ok b → b.length = g a) :
    parts.flatten.length = (l.map g).sum := by
  rw [mapM_ok_iff] at h
  induction h with
  | nil => rfl
  | cons hab _ ih => simp [hg _ _ hab, ih]

/-- Soundness of the deterministic sampling of edges. -/
theorem deterministicSamplesDim2_sound {d : Nat} {X : List Row} {sel : List (List Nat)}
    {Xv : Option (List Row)} {same : Bool} {vw : Option (List ℚ)} {out : List Row}
    {indices : List (List Nat)}
    (hX : ∀ r ∈ X, r.length = d) (hV : ∀ V, Xv = some V → ∀ r ∈ V, r.length = d)
    (hvw : ∀ ws, vw = some ws → ∀ c ∈ ws, 0 ≤ c ∧ c ≤ 1)
    (hsame : same = true → Xv = some X)
    (hs : ∀ s ∈ sel, SimplexShape indices 2 s)
    (h : deterministicSamplesDim2 X sel Xv same vw = .ok out) :
    out.length = sel.length ∧ ∀ x ∈ out, GeneratedFrom d X (Xv.getD X) indices x := by
  unfold deterministicSamplesDim2 at h
  rw [bind_ok] at h
  obtain ⟨pairs, hpairs, h⟩ := h
  simp only at h
  rw [bind_ok] at h
  obtain ⟨parts, hparts, h⟩ := h
  simp only [pure_ok] at h
  subst h
  set sorted : Bool := Xv.isNone || same with hsorted
  set pairs' : List (Nat × Nat) :=
    if sorted = true then pairs.map (fun p => (min p.1 p.2, max p.1 p.2)) else pairs with hp'
  set V : List Row := if sorted = true then X else Xv.getD X with hVdef
  have hVX : sorted = true → Xv.getD X = X := by
    intro hso
    rw [hsorted, Bool.or_eq_true] at hso
    rcases hso with h | h
    · simp at h; simp [h]
    · simp [hsame h]
  have hVeq : V = Xv.getD X := by
    rw [hVdef]; split
    · rename_i hso; exact (hVX hso).symm
    · rfl
  have hVd : ∀ r ∈ V, r.length = d := by
    rw [hVeq]
    rcases Xv with _ | V'
    · exact hX
    · exact hV V' rfl
  have hlen' : pairs'.length = sel.length := by
    have := mapM_ok_length hpairs
    rw [hp']; split <;> simp [this]
  set uc : List ((Nat × Nat) × Nat) :=
    (npUniqueCounts (pairs'.map (fun p => toLex p))).map (fun vc => (ofLex vc.1, vc.2)) with huc
  -- the counts add up to the number of pairs
  have hsum : (uc.map Prod.snd).sum = sel.length := by
    rw [huc, List.map_map]
    have := sum_npUnique_counts (pairs'.map (fun p => (toLex p : Nat ×ₗ Nat)))
    unfold npUniqueCounts
    rw [List.map_map]
    rw [List.length_map, hlen'] at this
    rw [← this]
    rfl
  -- members of uc are pairs
  have hmem : ∀ pc ∈ uc, pc.1 ∈ pairs' := by
    intro pc hpc
    rw [huc, List.mem_map] at hpc
    obtain ⟨vc, hvc, rfl⟩ := hpc
    unfold npUniqueCounts at hvc
    rw [List.mem_map] at hvc
    obtain ⟨v, hv, rfl⟩ := hvc
    rw [mem_npUnique, List.mem_map] at hv
    obtain ⟨p, hp, rfl⟩ := hv
    exact hp
  constructor
  · rw [mapM_flatten_length hparts
      (g := fun c => c * (uc.filter (fun pc => pc.2 == c)).length)
      (fun c b hb => (addSamples_sound hX hVd hvw hb).1)]
    rw [← hsum]
    have hcnt : ∀ c, (uc.filter (fun pc => pc.2 == c)).length = (uc.map Prod.snd).count c := by
      have : ∀ (l : List ((Nat × Nat) × Nat)) (c : Nat),
          (l.filter (fun pc => pc.2 == c)).length = (l.map Prod.snd).count c := by
        intro l c
        rw [← List.countP_eq_length_filter, List.count, List.countP_map]
        rfl
      exact this uc
    simp only [hcnt]
    apply sum_mul_count
    · exact List.Nodup.filter _ (List.nodup_range' (step := 1))
    · intro c hc hpos
      rw [List.mem_filter]
      refine ⟨?_, by simpa using hc⟩
      rw [List.mem_range'_1]
      have := foldr_max_ge hc
      omega
  · intro x hx
    rw [List.mem_flatten] at hx
    obtain ⟨part, hpart, hx⟩ := hx
    obtain ⟨c, _, hc⟩ := mapM_ok_mem hparts hpart
    obtain ⟨pc, hpc, base, nb, t, h1, h2, ht0, ht1, hcx⟩ := (addSamples_sound hX hVd hvw hc).2 x hx
    have hp := hmem pc hpc
    -- the original pair
    have horig : ∀ q ∈ pairs, ∃ row, indices[q.1]? = some row ∧ q.2 ∈ row := by
      intro q hq
      obtain ⟨s, hsm, hsq⟩ := mapM_ok_mem hpairs hq
      obtain ⟨b, vs, row, rfl, hrow, hin, hl⟩ := hs s hsm
      match vs, hl with
      | [v], _ =>
        simp only [edgeOf] at hsq
        injection hsq with hsq
        subst hsq
        exact ⟨row, hrow, hin v (by simp)⟩
    rw [hp'] at hp
    split at hp
    · rename_i hso
      rw [List.mem_map] at hp
      obtain ⟨q, hq, hqp⟩ := hp
      obtain ⟨row, hrow, hin⟩ := horig q hq
      rw [hVeq, hVX hso] at h2
      rcases le_total q.1 q.2 with hle | hle
      · have e1 : pc.1.1 = q.1 := by rw [← hqp]; simp [hle]
        have e2 : pc.1.2 = q.2 := by rw [← hqp]; simp [hle]
        rw [e1] at h1; rw [e2] at h2
        refine ⟨q.1, base, row, [q.2], [nb], _, h1, hrow, by simpa using hin, ?_, hcx⟩
        rw [hVX hso]
        exact List.Forall₂.cons h2 List.Forall₂.nil
      · have e1 : pc.1.1 = q.2 := by rw [← hqp]; simp [hle]
        have e2 : pc.1.2 = q.1 := by rw [← hqp]; simp [hle]
        rw [e1] at h1; rw [e2] at h2
        refine ⟨q.1, nb, row, [q.2], [base], [t, 1 - t], h2, hrow, by simpa using hin, ?_, ?_⟩
        · rw [hVX hso]
          exact List.Forall₂.cons h1 List.Forall₂.nil
        · obtain ⟨_, _, _, g4, g5⟩ := hcx
          refine ⟨rfl, ?_, by simp, g4, fun k hk => ?_⟩
          · intro c hc
            simp at hc
            rcases hc with rfl | rfl <;> linarith
          · rw [g5 k hk]; simp; ring
    · obtain ⟨row, hrow, hin⟩ := horig _ hp
      rw [hVeq] at h2
      exact ⟨pc.1.1, base, row, [pc.1.2], [nb], _, h1, hrow, by simpa using hin,
        List.Forall₂.cons h2 List.Forall₂.nil, hcx⟩

end Verif

import Verif.Lemmas.SamplerTotal

/-! # Which simplices `sample_simplex` may select, and how their vertices are weighted -/

namespace Verif

/-- `x` is a convex combination of the row `X[b]` and of the rows `V[i]` for the listed `i`, where the
weight of `V[i]` is at most `cap i`. -/
def Mixed (d : Nat) (X V : List Row) (b : Nat) (ns : List Nat) (cap : Nat → ℚ) (x : Row) : Prop :=
  ∃ (base : Row) (nbrs : List Row) (w0 : ℚ) (wr : List ℚ),
    X[b]? = some base ∧ List.Forall₂ (fun i r => V[i]? = some r) ns nbrs ∧
    IsConvexComb d (w0 :: wr) (base :: nbrs) x ∧ List.Forall₂ (fun i c => c ≤ cap i) ns wr

theorem convex_le_one {d : Nat} {w : List ℚ} {vs : List Row} {x : Row} (h : IsConvexComb d w vs x) :
    ∀ c ∈ w, c ≤ 1 := by
  obtain ⟨h1, h2, h3, h4⟩ := h
  rw [← h3]
  clear h3 h1 h4
  intro c hc
  induction w with
  | nil => simp at hc
  | cons a w ih =>
    have h0 : 0 ≤ w.sum := List.sum_nonneg (fun x hx => h2 x (by simp [hx]))
    have ha := h2 a (by simp)
    rw [List.sum_cons]
    rcases List.mem_cons.1 hc with rfl | hc
    · linarith
    · have := ih (fun c hc => h2 c (by simp [hc])) hc
      linarith

theorem forall2_of_all {α β : Type} {R : α → β → Prop} {l : List α} {m : List β} (hl : l.length = m.length)
    (h : ∀ a ∈ l, ∀ b ∈ m, R a b) : List.Forall₂ R l m := by
  induction l generalizing m with
  | nil =>
    have : m = [] := List.length_eq_zero_iff.1 (by simpa using hl.symm)
    subst this; exact .nil
  | cons a l ih =>
    cases m with
    | nil => simp at hl
    | cons b m =>
      exact .cons (h a (by simp) b (by simp))
        (ih (by simpa using hl) (fun a ha b hb => h a (by simp [ha]) b (by simp [hb])))

/-- A row between base and neighbours, with no cap below one. -/
theorem mixed_of_convex {d : Nat} {X V : List Row} {b : Nat} {ns : List Nat} {cap : Nat → ℚ} {x base : Row}
    {nbrs : List Row} {w : List ℚ} (hb : X[b]? = some base)
    (hn : List.Forall₂ (fun i r => V[i]? = some r) ns nbrs) (hc : IsConvexComb d w (base :: nbrs) x)
    (hcap : ∀ i ∈ ns, 1 ≤ cap i) : Mixed d X V b ns cap x := by
  match w, hc with
  | [], hc => have := hc.1; simp at this
  | w0 :: wr, hc =>
    refine ⟨base, nbrs, w0, wr, hb, hn, hc, forall2_of_all ?_ ?_⟩
    · have h1 := hc.1
      have h2 := hn.length_eq
      simp at h1; omega
    · intro i hi c hcw
      exact le_trans (convex_le_one hc c (by simp [hcw])) (hcap i hi)

/-- Like `reweight_convex`, with the weights of the neighbours bounded by the vertex weights. -/
theorem reweight_convex_cap {d : Nat} {base x : Row} {nbs : List Row} {ws : List ℚ} {w : List ℚ}
    (hb : base.length = d) (hn : ∀ r ∈ nbs, r.length = d) (hl : ws.length = nbs.length)
    (hw : ∀ c ∈ ws, 0 ≤ c ∧ c ≤ 1)
    (h : IsConvexComb d w (base :: List.zipWith
      (fun nb w => Row.add (Row.smul w (Row.sub nb base)) base) nbs ws) x) :
    ∃ w0 wr, IsConvexComb d (w0 :: wr) (base :: nbs) x ∧ List.Forall₂ (fun c c' => c' ≤ c) ws wr := by
  have hle := convex_le_one h
  obtain ⟨h1, h2, h3, h4, h5⟩ := h
  cases w with
  | nil => simp at h1
  | cons w0 wr =>
    have hlen : wr.length = nbs.length := by simpa [hl] using h1
    simp only [List.sum_cons] at h3
    have hw0 := h2 w0 (by simp)
    have hwr : ∀ c ∈ wr, 0 ≤ c := fun c hc => h2 c (by simp [hc])
    refine ⟨(w0 + (List.zipWith (fun a c => a * (1 - c)) wr ws).sum),
      List.zipWith (fun a c => a * c) wr ws, ⟨?_, ?_, ?_, h4, ?_⟩, ?_⟩
    · simp [hlen, hl]
    · have hnn : ∀ (wr ws : List ℚ), (∀ c ∈ wr, 0 ≤ c) → (∀ c ∈ ws, 0 ≤ c ∧ c ≤ 1) →
          (0 ≤ (List.zipWith (fun a c => a * (1 - c)) wr ws).sum) ∧
          ∀ c ∈ List.zipWith (fun a c => a * c) wr ws, 0 ≤ c := by
        intro wr
        induction wr with
        | nil => intro ws _ _; simp
        | cons a wr ih =>
          intro ws ha hw
          cases ws with
          | nil => simp
          | cons c ws =>
            obtain ⟨i1, i2⟩ := ih ws (fun c hc => ha c (by simp [hc])) (fun c hc => hw c (by simp [hc]))
            have h1 := ha a (by simp)
            have h2 := hw c (by simp)
            constructor
            · simp only [List.zipWith_cons_cons, List.sum_cons]
              have : 0 ≤ a * (1 - c) := mul_nonneg h1 (by linarith)
              linarith
            · intro e he
              simp only [List.zipWith_cons_cons, List.mem_cons] at he
              rcases he with rfl | he
              · exact mul_nonneg h1 h2.1
              · exact i2 e he
      obtain ⟨j1, j2⟩ := hnn wr ws hwr hw
      intro c hc
      rcases List.mem_cons.1 hc with rfl | hc
      · linarith
      · exact j2 c hc
    · have hs : ∀ (wr ws : List ℚ), wr.length = ws.length →
          (List.zipWith (fun a c => a * (1 - c)) wr ws).sum +
          (List.zipWith (fun a c => a * c) wr ws).sum = wr.sum := by
        intro wr
        induction wr with
        | nil => intro ws _; simp
        | cons a wr ih =>
          intro ws hl
          cases ws with
          | nil => simp at hl
          | cons c ws =>
            have := ih ws (by simpa using hl)
            simp only [List.zipWith_cons_cons, List.sum_cons]
            linarith
      have := hs wr ws (by omega)
      simp only [List.sum_cons]
      linarith
    · intro k hk
      rw [h5 k hk]
      simp only [List.zipWith_cons_cons, List.sum_cons]
      have hs : ∀ (nbs : List Row) (wr ws : List ℚ), wr.length = nbs.length →
          ws.length = nbs.length → (∀ r ∈ nbs, r.length = d) →
          (List.zipWith (fun c (r : Row) => c * r.getD k 0) wr (List.zipWith
            (fun nb w => Row.add (Row.smul w (Row.sub nb base)) base) nbs ws)).sum =
          (List.zipWith (fun a c => a * (1 - c)) wr ws).sum * base.getD k 0 +
          (List.zipWith (fun c (r : Row) => c * r.getD k 0)
            (List.zipWith (fun a c => a * c) wr ws) nbs).sum := by
        intro nbs
        induction nbs with
        | nil =>
          intro wr ws h1 h2 _
          have : wr = [] := List.length_eq_zero_iff.1 (by simpa using h1)
          subst this; simp
        | cons nb nbs ih =>
          intro wr ws h1 h2 h3
          cases wr with
          | nil => simp at h1
          | cons a wr =>
            cases ws with
            | nil => simp at h2
            | cons c ws =>
              have := ih wr ws (by simpa using h1) (by simpa using h2)
                (fun r hr => h3 r (by simp [hr]))
              have hnb := h3 nb (by simp)
              simp only [List.zipWith_cons_cons, List.sum_cons]
              rw [this, Row.add_getD (by simp; omega) (by omega), Row.smul_getD,
                Row.sub_getD (by omega) (by omega)]
              ring
      rw [hs nbs wr ws hlen hl hn]
      ring
    · have hcap : ∀ (ws wr : List ℚ), wr.length = ws.length → (∀ c ∈ wr, 0 ≤ c ∧ c ≤ 1) →
          (∀ c ∈ ws, 0 ≤ c ∧ c ≤ 1) →
          List.Forall₂ (fun c c' => c' ≤ c) ws (List.zipWith (fun a c => a * c) wr ws) := by
        intro ws
        induction ws with
        | nil => intro wr hl _ _; simp
        | cons c ws ih =>
          intro wr hl h1 h2
          cases wr with
          | nil => simp at hl
          | cons a wr =>
            refine .cons ?_ (ih wr (by simpa using hl) (fun c hc => h1 c (by simp [hc])) (fun c hc => h2 c (by simp [hc])))
            have ha := h1 a (by simp)
            have hc := h2 c (by simp)
            nlinarith
      exact hcap ws wr (by omega) (fun c hc => ⟨hwr c hc, hle c (by simp [hc])⟩) hw

/-- The bound on the weight of vertex `i` that the vertex weights give. -/
def CapOK (sortedPairs : Bool) (vw : Option (List ℚ)) (cap : Nat → ℚ) : Prop :=
  (vw = none ∨ sortedPairs = true → ∀ i, 1 ≤ cap i) ∧
  (∀ ws, vw = some ws → ∀ i c, ws[i]? = some c → c ≤ cap i)

theorem randomSample_mixed {d : Nat} {X : List Row} {Xv : Option (List Row)}
    {vw : Option (List ℚ)} {s : List Nat} {u : Nat → ℚ} {x : Row} {indices : List (List Nat)}
    {nDim : Nat} {cap : Nat → ℚ} {so : Bool}
    (hX : ∀ r ∈ X, r.length = d) (hV : ∀ V, Xv = some V → ∀ r ∈ V, r.length = d)
    (hvw : ∀ ws, vw = some ws → ∀ c ∈ ws, 0 ≤ c ∧ c ≤ 1) (hu : ∀ j, 0 ≤ u j)
    (hI : indices.length ≤ X.length) (hs : SimplexShape indices nDim s) (hcap : CapOK so vw cap)
    (h : (do
      let w ← normalizeDraw ((List.range s.length).map u)
      let vs ← simplexVertices X Xv vw s
      return rowSum d (List.zipWith Row.smul w vs) : Res Row) = .ok x) :
    ∃ b ns, s = b :: ns ∧ Mixed d X (Xv.getD X) b ns cap x := by
  rw [bind_ok] at h
  obtain ⟨w, hw, h⟩ := h
  rw [bind_ok] at h
  obtain ⟨vs, hvs, h⟩ := h
  simp only [pure_ok] at h
  obtain ⟨hwl, hw0, hw1⟩ := normalizeDraw_ok hw (by
    intro c hc; rw [List.mem_map] at hc; obtain ⟨j, _, rfl⟩ := hc; exact hu j)
  obtain ⟨b, ns, row, rfl, hrow, hin, hlen⟩ := hs
  have hwl' : w.length = ns.length + 1 := by simpa using hwl
  subst h
  refine ⟨b, ns, rfl, ?_⟩
  rcases vw with _ | vw
  · have hc1 := hcap.1 (.inl rfl)
    rcases Xv with _ | V
    · simp only [simplexVertices, takeRows, List.mapM_cons] at hvs
      rw [bind_ok] at hvs
      obtain ⟨base, hbase, hvs⟩ := hvs
      rw [bind_ok] at hvs
      obtain ⟨nbrs, hnb, hvs⟩ := hvs
      simp only [pure_ok] at hvs
      subst hvs
      refine mixed_of_convex (w := w) (getRow_ok.1 hbase) (takeRows_forall hnb) ?_ (fun i _ => hc1 i)
      refine rowSum_convex (by rw [hwl']; simp [takeRows_length hnb]) hw0 hw1 ?_
      intro v hv
      rcases List.mem_cons.1 hv with rfl | hv
      · exact hX _ (getRow_mem hbase)
      · exact hX _ (takeRows_mem hnb hv)
    · simp only [simplexVertices, shiftNeighbors, takeRows, List.mapM_cons] at hvs
      rw [bind_ok] at hvs
      obtain ⟨base, hbase, hvs⟩ := hvs
      rw [bind_ok] at hvs
      obtain ⟨nbrs, hnb, hvs⟩ := hvs
      simp only [pure_ok] at hvs
      subst hvs
      have hf := takeRows_append_shift hnb
      have hbl : b < X.length := lt_of_lt_of_le (List.getElem?_eq_some_iff.1 hrow).1 hI
      have hb' : X[b]? = some base := by
        have := getRow_ok.1 hbase
        rwa [List.getElem?_append_left hbl] at this
      refine mixed_of_convex (w := w) hb' hf ?_ (fun i _ => hc1 i)
      refine rowSum_convex (by rw [hwl']; simp [hf.length_eq]) hw0 hw1 ?_
      intro v hv
      rcases List.mem_cons.1 hv with rfl | hv
      · exact hX _ (List.mem_of_getElem? hb')
      · obtain ⟨i, _, hi⟩ := forall2_mem_right hf hv
        exact hV V rfl _ (List.mem_of_getElem? hi)
  · simp only [simplexVertices] at hvs
    rw [bind_ok] at hvs
    obtain ⟨base, hbase, hvs⟩ := hvs
    rw [bind_ok] at hvs
    obtain ⟨nbs, hnb, hvs⟩ := hvs
    rw [bind_ok] at hvs
    obtain ⟨ws, hws, hvs⟩ := hvs
    simp only [pure_ok] at hvs
    subst hvs
    have hbd : base.length = d := hX _ (getRow_mem hbase)
    have hnd : ∀ r ∈ nbs, r.length = d := by
      intro r hr
      have := takeRows_mem hnb hr
      rcases Xv with _ | V
      · exact hX _ this
      · exact hV V rfl _ this
    have hl : ws.length = nbs.length := by rw [takeRows_length hws, takeRows_length hnb]
    have hcx : IsConvexComb d w (base :: List.zipWith
        (fun nb w => Row.add (Row.smul w (Row.sub nb base)) base) nbs ws)
        (rowSum d (List.zipWith Row.smul w (base :: List.zipWith
        (fun nb w => Row.add (Row.smul w (Row.sub nb base)) base) nbs ws))) := by
      refine rowSum_convex ?_ hw0 hw1 ?_
      · simp [hwl', hl, takeRows_length hnb]
      · intro v hv
        rcases List.mem_cons.1 hv with rfl | hv
        · exact hbd
        · obtain ⟨i, hi, rfl⟩ := List.mem_iff_getElem.1 hv
          simp only [List.length_zipWith] at hi
          simp only [List.getElem_zipWith, Row.add_length, Row.smul_length, Row.sub_length]
          have := hnd _ (List.getElem_mem (l := nbs) (n := i) (by omega))
          omega
    obtain ⟨w0', wr', hw', hcp⟩ := reweight_convex_cap hbd hnd hl
      (fun c hc => hvw vw rfl c (takeRows_mem hws hc)) hcx
    refine ⟨base, nbs, w0', wr', getRow_ok.1 hbase, takeRows_forall hnb, hw', ?_⟩
    have hfw := takeRows_forall hws
    have hgoal : ∀ {ns : List Nat} {ws : List ℚ}, List.Forall₂ (fun i c => vw[i]? = some c) ns ws →
        ∀ {wr : List ℚ}, List.Forall₂ (fun c c' => c' ≤ c) ws wr → List.Forall₂ (fun i c => c ≤ cap i) ns wr := by
      intro ns ws h
      induction h with
      | nil => intro wr h; cases h; exact .nil
      | cons h1 _ ih =>
        intro wr h
        cases h with
        | cons h2 h3 => exact .cons (le_trans h2 (hcap.2 vw rfl _ _ h1)) (ih h3)
    exact hgoal hfw hcp

theorem addSamples_cap {d : Nat} {pairs : List ((Nat × Nat) × Nat)} {count : Nat}
    {X V : List Row} {vw : Option (List ℚ)} {out : List Row} {cap : Nat → ℚ}
    (hX : ∀ r ∈ X, r.length = d) (hV : ∀ r ∈ V, r.length = d)
    (hvw : ∀ ws, vw = some ws → ∀ c ∈ ws, 0 ≤ c ∧ c ≤ 1) (hcap : CapOK false vw cap)
    (h : addSamples pairs count X V vw = .ok out) :
    ∀ x ∈ out, ∃ p ∈ pairs, Mixed d X V p.1.1 [p.1.2] cap x := by
  unfold addSamples at h
  simp only at h
  rw [bind_ok] at h
  obtain ⟨rows, hrows, h⟩ := h
  simp only [pure_ok] at h
  subst h
  intro x hx
  rw [List.mem_flatMap] at hx
  obtain ⟨j, hj, hx⟩ := hx
  rw [List.mem_map] at hx
  obtain ⟨bd, hbd, rfl⟩ := hx
  obtain ⟨p, hp, hpb⟩ := mapM_ok_mem hrows hbd
  rw [List.mem_map] at hp
  obtain ⟨pc, hpc, rfl⟩ := hp
  refine ⟨pc, (List.mem_filter.1 hpc).1, ?_⟩
  rw [bind_ok] at hpb
  obtain ⟨base, hbase, hpb⟩ := hpb
  rw [bind_ok] at hpb
  obtain ⟨nb, hnb, hpb⟩ := hpb
  have hwex : ∃ w : ℚ, 0 ≤ w ∧ w ≤ 1 ∧ w ≤ cap pc.1.2 ∧ bd = (base, Row.smul w (Row.sub nb base)) := by
    rw [bind_ok] at hpb
    obtain ⟨w, hw, hpb⟩ := hpb
    simp only [pure_ok] at hpb
    rcases vw with _ | ws
    · simp only [vertexWeight] at hw
      injection hw with hw
      subst hw
      exact ⟨1, by norm_num, le_refl _, hcap.1 (.inl rfl) _, hpb.symm⟩
    · simp only [vertexWeight] at hw
      have := hvw ws rfl w (getRow_mem hw)
      exact ⟨w, this.1, this.2, hcap.2 ws rfl _ _ (getRow_ok.1 hw), hpb.symm⟩
  obtain ⟨w, hw0, hw1, hwc, rfl⟩ := hwex
  have hbl := hX _ (getRow_mem hbase)
  have hnl := hV _ (getRow_mem hnb)
  simp only [List.mem_range'_1] at hj
  set s : ℚ := 1 / ((count : ℚ) + 1) * (j : ℚ) with hs
  have hc : (0:ℚ) < (count : ℚ) + 1 := by positivity
  have hs0 : 0 ≤ s := by rw [hs]; positivity
  have hs1 : s ≤ 1 := by
    rw [hs, one_div, inv_mul_le_iff₀ hc]
    have : (j : ℚ) ≤ count := by exact_mod_cast (by omega : j ≤ count)
    linarith
  refine ⟨base, [nb], 1 - s * w, [s * w], getRow_ok.1 hbase, .cons (getRow_ok.1 hnb) .nil, ?_, .cons ?_ .nil⟩
  · refine segment_convex hbl hnl (mul_nonneg hs0 hw0) (mul_le_one₀ hs1 hw0 hw1) ?_
    simp [Row.smul, mul_assoc, Function.comp_def]
  · nlinarith

/-- The deterministic edge samples, with the edge they lie on. -/
theorem deterministicSamplesDim2_mixed {d : Nat} {X : List Row} {sel : List (List Nat)}
    {Xv : Option (List Row)} {same : Bool} {vw : Option (List ℚ)} {out : List Row}
    {indices : List (List Nat)} {cap : Nat → ℚ}
    (hX : ∀ r ∈ X, r.length = d) (hV : ∀ V, Xv = some V → ∀ r ∈ V, r.length = d)
    (hvw : ∀ ws, vw = some ws → ∀ c ∈ ws, 0 ≤ c ∧ c ≤ 1)
    (hsame : same = true → Xv = some X)
    (hs : ∀ s ∈ sel, SimplexShape indices 2 s) (hcap : CapOK (Xv.isNone || same) vw cap)
    (h : deterministicSamplesDim2 X sel Xv same vw = .ok out) :
    ∀ x ∈ out, ∃ b ns, (b :: ns) ∈ sel ∧ Mixed d X (Xv.getD X) b ns cap x := by
  unfold deterministicSamplesDim2 at h
  rw [bind_ok] at h
  obtain ⟨pairs, hpairs, h⟩ := h
  simp only at h
  rw [bind_ok] at h
  obtain ⟨parts, hparts, h⟩ := h
  simp only [pure_ok] at h
  subst h
  set sorted : Bool := Xv.isNone || same with hsorted
  set pairs' : List (Nat × Nat) :=
    if sorted = true then pairs.map (fun p => (min p.1 p.2, max p.1 p.2)) else pairs with hp'
  set V : List Row := if sorted = true then X else Xv.getD X with hVdef
  have hVX : sorted = true → Xv.getD X = X := by
    intro hso
    rw [hsorted, Bool.or_eq_true] at hso
    rcases hso with h | h
    · simp at h; simp [h]
    · simp [hsame h]
  have hVeq : V = Xv.getD X := by
    rw [hVdef]; split
    · rename_i hso; exact (hVX hso).symm
    · rfl
  have hVd : ∀ r ∈ V, r.length = d := by
    rw [hVeq]
    rcases Xv with _ | V'
    · exact hX
    · exact hV V' rfl
  set uc : List ((Nat × Nat) × Nat) :=
    (npUniqueCounts (pairs'.map (fun p => toLex p))).map (fun vc => (ofLex vc.1, vc.2)) with huc
  have hmem : ∀ pc ∈ uc, pc.1 ∈ pairs' := by
    intro pc hpc
    rw [huc, List.mem_map] at hpc
    obtain ⟨vc, hvc, rfl⟩ := hpc
    unfold npUniqueCounts at hvc
    rw [List.mem_map] at hvc
    obtain ⟨v, hv, rfl⟩ := hvc
    rw [mem_npUnique, List.mem_map] at hv
    obtain ⟨p, hp, rfl⟩ := hv
    exact hp
  intro x hx
  rw [List.mem_flatten] at hx
  obtain ⟨part, hpart, hx⟩ := hx
  obtain ⟨c, _, hc⟩ := mapM_ok_mem hparts hpart
  have horig : ∀ q ∈ pairs, [q.1, q.2] ∈ sel := by
    intro q hq
    obtain ⟨s, hsm, hsq⟩ := mapM_ok_mem hpairs hq
    obtain ⟨b, vs, row, rfl, hrow, hin, hl⟩ := hs s hsm
    match vs, hl with
    | [v], _ =>
      simp only [edgeOf] at hsq
      injection hsq with hsq
      subst hsq
      exact hsm
  obtain ⟨pc, hpc, hmix⟩ := addSamples_cap hX hVd hvw
    ⟨fun h => hcap.1 (by rcases h with h | h; exact .inl h; simp at h), hcap.2⟩ hc x hx
  have hp := hmem pc hpc
  rw [hVeq] at hmix
  by_cases hso : sorted = true
  · rw [hp', if_pos hso, List.mem_map] at hp
    obtain ⟨q, hq, hqp⟩ := hp
    refine ⟨q.1, [q.2], horig q hq, ?_⟩
    have hone := hcap.1 (.inr hso)
    rw [hVX hso] at hmix ⊢
    rcases le_total q.1 q.2 with hle | hle
    · have e1 : pc.1.1 = q.1 := by rw [← hqp]; simp [hle]
      have e2 : pc.1.2 = q.2 := by rw [← hqp]; simp [hle]
      rwa [e1, e2] at hmix
    · have e1 : pc.1.1 = q.2 := by rw [← hqp]; simp [hle]
      have e2 : pc.1.2 = q.1 := by rw [← hqp]; simp [hle]
      rw [e1, e2] at hmix
      obtain ⟨base, nbrs, w0, wr, h1, h2, h3, h4⟩ := hmix
      cases h2 with
      | cons h2 h2' =>
        cases h2'
        cases h4 with
        | cons h4 h4' =>
          cases h4'
          rename_i nb c1
          refine mixed_of_convex (w := [c1, w0]) h2 (.cons h1 .nil) ?_ (fun i _ => hone i)
          obtain ⟨_, g2, g3, g4, g5⟩ := h3
          refine ⟨rfl, ?_, by simp at g3 ⊢; linarith, g4, fun k hk => ?_⟩
          · intro e he
            simp at he
            rcases he with rfl | rfl <;> exact g2 _ (by simp)
          · rw [g5 k hk]; simp; ring
  · rw [hp', if_neg hso] at hp
    exact ⟨pc.1.1, [pc.1.2], horig _ hp, hmix⟩


/-! ## Selection -/

theorem forall2_flatMap_replicate {R : Nat → ℚ → Prop} {bs : List Nat} {ws : List ℚ} (h : List.Forall₂ R bs ws)
    (cs : List (List Nat)) :
    List.Forall₂ (fun (s : List Nat) w => ∃ b ps, s = b :: ps ∧ R b w)
      (bs.flatMap (fun b => cs.map (fun c => b :: c))) (ws.flatMap (fun w => List.replicate cs.length w)) := by
  induction h with
  | nil => exact .nil
  | @cons b w bs ws hbw _ ih =>
    rw [List.flatMap_cons, List.flatMap_cons]
    refine List.rel_append ?_ ih
    clear ih
    induction cs with
    | nil => exact .nil
    | cons c cs ih => exact .cons ⟨b, c, rfl, hbw⟩ ih

theorem forall2_range_get (bw : List ℚ) :
    List.Forall₂ (fun b w => bw[b]? = some w) (List.range bw.length) bw := by
  rw [List.forall₂_iff_get]
  refine ⟨by simp, fun i h1 h2 => ?_⟩
  simp

theorem prod_nonneg_of_all {l : List ℚ} (h0 : ∀ x ∈ l, 0 ≤ x) : 0 ≤ l.prod := by
  induction l with
  | nil => simp
  | cons a l ih =>
    rw [List.prod_cons]
    exact mul_nonneg (h0 a (by simp)) (ih (fun x hx => h0 x (by simp [hx])))

theorem prod_pos_of_nonneg {l : List ℚ} (h0 : ∀ x ∈ l, 0 ≤ x) (h : 0 < l.prod) : ∀ x ∈ l, 0 < x := by
  induction l with
  | nil => simp
  | cons a l ih =>
    rw [List.prod_cons] at h
    have h1 := h0 a (by simp)
    have h2 : 0 ≤ l.prod := prod_nonneg_of_all (fun x hx => h0 x (by simp [hx]))
    have ha : 0 < a := lt_of_le_of_ne h1 (fun he => by rw [← he] at h; simp at h)
    have hl : 0 < l.prod := lt_of_le_of_ne h2 (fun he => by rw [← he] at h; simp at h)
    intro x hx
    rcases List.mem_cons.1 hx with rfl | hx
    · exact ha
    · exact ih (fun x hx => h0 x (by simp [hx])) hl x hx

theorem normalize_pos {w p : List ℚ} (h0 : ∀ x ∈ w, 0 ≤ x) (h : normalize w = .ok p) :
    (∀ x ∈ p, 0 ≤ x) ∧ p.sum = 1 ∧ p.length = w.length ∧
    ∀ (i : Nat) (x : ℚ), p[i]? = some x → 0 < x → ∃ z, w[i]? = some z ∧ 0 < z := by
  unfold normalize at h
  split at h
  · simp at h
  · rename_i hs
    injection h with h
    subst h
    have hs0 : 0 ≤ w.sum := List.sum_nonneg h0
    have hs1 : 0 < w.sum := lt_of_le_of_ne hs0 (Ne.symm hs)
    refine ⟨?_, by rw [sum_map_div, div_self hs], by simp, ?_⟩
    · intro x hx
      rw [List.mem_map] at hx
      obtain ⟨y, hy, rfl⟩ := hx
      exact div_nonneg (h0 y hy) hs0
    · intro i x hx hpos
      rw [List.getElem?_map] at hx
      cases hw : w[i]? with
      | none => rw [hw] at hx; simp at hx
      | some z =>
        rw [hw] at hx
        simp at hx
        refine ⟨z, rfl, ?_⟩
        rw [← hx] at hpos
        by_contra hz
        have : z / w.sum ≤ 0 := div_nonpos_of_nonpos_of_nonneg (not_lt.1 hz) hs0
        linarith

theorem getElem?_zipWith_mul {w v : List ℚ} {i : Nat} {z : ℚ} (h : (List.zipWith (· * ·) w v)[i]? = some z) :
    ∃ a b, w[i]? = some a ∧ v[i]? = some b ∧ z = a * b := by
  rw [List.getElem?_zipWith] at h
  cases ha : w[i]? with
  | none => rw [ha] at h; simp at h
  | some a =>
    cases hb : v[i]? with
    | none => rw [ha, hb] at h; simp at h
    | some b => rw [ha, hb] at h; simp at h; exact ⟨a, b, rfl, rfl, h.symm⟩

/-- What is known of a selected simplex `b :: vs`: the neighbours stand at increasing positions, from 1 on,
of row `b` of the table, and every weight that was given for the base and for these positions is positive. -/
def Selected (indices : List (List Nat)) (k nDim : Nat) (bw : Option (List ℚ)) (sw : Option (List (List ℚ)))
    (b : Nat) (ps vs : List Nat) : Prop :=
  (∃ row, indices[b]? = some row ∧ List.Forall₂ (fun p v => row[p]? = some v) ps vs) ∧
  ps.Sublist (List.range' 1 (k - 1)) ∧ ps.length + 1 = nDim ∧
  (∀ w, bw = some w → ∃ c, w[b]? = some c ∧ 0 < c) ∧
  (∀ m, sw = some m → ∃ r, m[b]? = some r ∧ ∀ p ∈ ps, ∃ c, r[p]? = some c ∧ 0 < c)

theorem simplicesSel_weighted {mode : SimplexSampling} {vol : List Row → ℚ} {cu : Nat → ℚ}
    {X : List Row} {n : Nat} {bw : Option (List ℚ)} {indices : List (List Nat)} {k : Nat}
    {Xv : Option (List Row)} {sw : Option (List (List ℚ))} {nDim : Nat} {sel : List (List Nat)}
    (hu : ∀ i, 0 ≤ cu i ∧ cu i < 1)
    (hbw : ∀ w, bw = some w → w.length = indices.length ∧ ∀ x ∈ w, 0 ≤ x)
    (hsw : ∀ m, sw = some m → ∀ r ∈ m, ∀ x ∈ r, 0 ≤ x)
    (hvol : ∀ vs, 0 ≤ vol vs)
    (h : simplicesSel mode vol cu X n bw indices k Xv sw nDim = .ok sel) :
    ∀ s ∈ sel, ∃ b ps vs, s = b :: vs ∧ Selected indices k nDim bw sw b ps vs := by
  unfold simplicesSel at h
  rw [bind_ok] at h
  obtain ⟨all, hall, h⟩ := h
  rw [bind_ok] at h
  obtain ⟨nw, hnw, h⟩ := h
  rw [bind_ok] at h
  obtain ⟨w, hw, h⟩ := h
  obtain ⟨hd, _⟩ := allNeighbor_sound hall
  by_cases hlw : w.length ≠ nw.length
  · rw [if_pos hlw] at h
    simp [throw, throwThe, MonadExceptOf.throw, bind, Except.bind] at h
  rw [if_neg hlw] at h
  rw [bind_ok] at h
  obtain ⟨p, hp, h⟩ := h
  obtain ⟨-, hdk, hall⟩ := allNeighbor_unfold hall
  have hall2 := mapM_ok_iff.1 hall
  have hallen : all.length = indices.length * Nat.choose (k - 1) (nDim - 1) := by
    rw [← hall2.length_eq, length_posSimplices]
  -- the weights of the bases
  have hw0 : ∀ x ∈ w, 0 ≤ x := by
    intro x hx
    rcases bw with _ | bw
    · have hdist : ∀ (X : List Row) (S : List (List Nat)) (w : List ℚ), simplexDistribution mode vol X S = .ok w →
          ∀ x ∈ w, 0 ≤ x := by
        intro X S w hw x hx
        have hrep : ∀ x ∈ List.replicate S.length (1 / (S.length : ℚ)), 0 ≤ x := by
          intro x hx; rw [List.eq_of_mem_replicate hx]; positivity
        cases mode with
        | random => simp only [simplexDistribution] at hw; injection hw with hw; subst hw; exact hrep x hx
        | deterministic => simp only [simplexDistribution] at hw; injection hw with hw; subst hw; exact hrep x hx
        | volume =>
          simp only [simplexDistribution] at hw
          obtain ⟨s, _, hsx⟩ := mapM_ok_mem hw hx
          rw [bind_ok] at hsx
          obtain ⟨vs, _, hsx⟩ := hsx
          simp only [pure_ok] at hsx
          rw [← hsx]; exact hvol vs
        | unknown => simp [simplexDistribution] at hw
      rcases Xv with _ | V
      · exact hdist _ _ _ hw x hx
      · exact hdist _ _ _ hw x hx
    · simp only [determineWeights] at hw
      split at hw
      · simp at hw
      · injection hw with hw
        subst hw
        rw [List.mem_flatMap] at hx
        obtain ⟨c, hc, hx⟩ := hx
        rw [List.eq_of_mem_replicate hx]
        exact (hbw bw rfl).2 c hc
  have hnw0 : ∀ x ∈ nw, 0 ≤ x := by
    intro x hx
    rcases sw with _ | sw
    · simp only [nodeWeights] at hnw
      injection hnw with hnw
      subst hnw
      rw [List.eq_of_mem_replicate hx]; norm_num
    · simp only [nodeWeights] at hnw
      rw [baseIdx_eq hd hdk, ok_bind] at hnw
      obtain ⟨s, hs, hsx⟩ := mapM_ok_mem hnw hx
      cases s with
      | nil => simp at hsx
      | cons b ps =>
        simp only at hsx
        rw [bind_ok] at hsx
        obtain ⟨r, hr, hsx⟩ := hsx
        rw [bind_ok] at hsx
        obtain ⟨ws, hws, hsx⟩ := hsx
        simp only [pure_ok] at hsx
        rw [← hsx]
        exact prod_nonneg_of_all (fun c hc => hsw sw rfl r (getRow_mem hr) c (takeRows_mem hws hc))
  have hz0 : ∀ x ∈ List.zipWith (· * ·) w nw, 0 ≤ x := by
    intro x hx
    obtain ⟨i, hi⟩ := List.mem_iff_getElem?.1 hx
    obtain ⟨a, b, ha, hb, rfl⟩ := getElem?_zipWith_mul hi
    exact mul_nonneg (hw0 _ (List.mem_of_getElem? ha)) (hnw0 _ (List.mem_of_getElem? hb))
  obtain ⟨hp0, hp1, hpl, hppos⟩ := normalize_pos hz0 hp
  have hsel : ∃ ix, takeRows all ix = .ok sel ∧ ∀ i ∈ ix, ∃ x, p[i]? = some x ∧ 0 < x := by
    split at h
    · rw [bind_ok] at h
      obtain ⟨ix, hix, h⟩ := h
      obtain ⟨ix', hix', _, hin⟩ := deterministicSample_ok (n := n) hp0 hp1
      rw [hix] at hix'
      injection hix' with hix'
      subst hix'
      exact ⟨ix, h, hin⟩
    · rw [bind_ok] at h
      obtain ⟨ix, hix, h⟩ := h
      have hm : p.length = all.length := by
        unfold npChoice at hix
        split at hix
        · simp at hix
        · rename_i hne; simpa using hne
      obtain ⟨ix', hix', _, hin⟩ := npChoice_ok (n := n) hm hp0 hp1 hu
      rw [hix] at hix'
      injection hix' with hix'
      subst hix'
      exact ⟨ix, h, hin⟩
  obtain ⟨ix, hix, hin⟩ := hsel
  intro s hs
  obtain ⟨i, hi, his⟩ := forall2_mem_right (takeRows_forall hix) hs
  obtain ⟨x, hx, hxp⟩ := hin i hi
  obtain ⟨z, hz, hzp⟩ := hppos i x hx hxp
  obtain ⟨a, c, ha, hc, rfl⟩ := getElem?_zipWith_mul hz
  have ha0 := hw0 _ (List.mem_of_getElem? ha)
  have hc0 := hnw0 _ (List.mem_of_getElem? hc)
  have hap : 0 < a := lt_of_le_of_ne ha0 (fun he => by rw [← he] at hzp; simp at hzp)
  have hcp : 0 < c := lt_of_le_of_ne hc0 (fun he => by rw [← he] at hzp; simp at hzp)
  -- the position simplex behind `s`
  have hil : i < all.length := (List.getElem?_eq_some_iff.1 his).1
  have hget : ∀ {β : Type} {R : List Nat → β → Prop} {L : List (List Nat)} {M : List β} {b : β} {t : List Nat},
      List.Forall₂ R L M → L[i]? = some t → M[i]? = some b → R t b := by
    intro β R L M b t hf ht hb
    rw [List.forall₂_iff_get] at hf
    obtain ⟨h1, rfl⟩ := List.getElem?_eq_some_iff.1 ht
    obtain ⟨h2, rfl⟩ := List.getElem?_eq_some_iff.1 hb
    exact hf.2 i h1 h2
  obtain ⟨t, ht⟩ : ∃ t, (posSimplices indices.length k nDim)[i]? = some t :=
    ⟨_, List.getElem?_eq_getElem (by rw [hall2.length_eq]; exact hil)⟩
  have hts := hget hall2 ht his
  obtain ⟨b, ps, rfl, hb, hps, hpl'⟩ := mem_posSimplices.1 (List.mem_of_getElem? ht)
  unfold realIdxRow at hts
  simp only at hts
  rw [bind_ok] at hts
  obtain ⟨row, hrow, hts⟩ := hts
  rw [bind_ok] at hts
  obtain ⟨vs, hvs, hts⟩ := hts
  simp only [pure_ok] at hts
  refine ⟨b, ps, vs, hts.symm, ⟨row, getRow_ok.1 hrow, takeRows_forall hvs⟩, hps, by omega, ?_, ?_⟩
  · rintro bw' rfl
    obtain ⟨hbl, _⟩ := hbw bw' rfl
    simp only [determineWeights] at hw
    split at hw
    · simp at hw
    · rename_i hne
      injection hw with hw
      subst hw
      have hdiv : all.length / bw'.length = (combinations (List.range' 1 (k - 1)) (nDim - 1)).length := by
        rw [length_combinations, List.length_range', hallen, hbl]
        exact Nat.mul_div_cancel_left _ (by omega)
      rw [hdiv] at ha
      have hf := forall2_flatMap_replicate (forall2_range_get bw') (combinations (List.range' 1 (k - 1)) (nDim - 1))
      rw [hbl] at hf
      obtain ⟨b', ps', he, hba⟩ := hget hf ht ha
      injection he with he1 he2
      subst he1
      exact ⟨a, hba, hap⟩
  · rintro m rfl
    simp only [nodeWeights] at hnw
    rw [baseIdx_eq hd hdk, ok_bind] at hnw
    have hsx := hget (mapM_ok_iff.1 hnw) ht hc
    simp only at hsx
    rw [bind_ok] at hsx
    obtain ⟨r, hr, hsx⟩ := hsx
    rw [bind_ok] at hsx
    obtain ⟨ws, hws, hsx⟩ := hsx
    simp only [pure_ok] at hsx
    refine ⟨r, getRow_ok.1 hr, fun q hq => ?_⟩
    obtain ⟨e, he, hqe⟩ := forall₂_mem_left (takeRows_forall hws) hq
    refine ⟨e, hqe, ?_⟩
    rw [← hsx] at hcp
    exact prod_pos_of_nonneg (fun x hx => hsw m rfl r (getRow_mem hr) x (takeRows_mem hws hx)) hcp e he

/-- Whether `sample_simplex` draws its points on sorted pairs. -/
def sortedPairs (ss : SSParams) (a : SSArgs) : Bool :=
  decide (ss.within = .deterministic) && (a.Xv.isNone || a.sameVertices)

theorem Selected.shape {indices : List (List Nat)} {k nDim : Nat} {bw : Option (List ℚ)} {sw : Option (List (List ℚ))}
    {b : Nat} {ps vs : List Nat} (h : Selected indices k nDim bw sw b ps vs) : SimplexShape indices nDim (b :: vs) := by
  obtain ⟨⟨row, hrow, hf⟩, _, hl, _⟩ := h
  refine ⟨b, vs, row, rfl, hrow, ?_, by rw [← hf.length_eq]; exact hl⟩
  intro v hv
  obtain ⟨p, _, hp⟩ := forall2_mem_right hf hv
  exact List.mem_of_getElem? hp

/-- What `sample_simplex` returns when no gaussian noise is added. -/
theorem sampleSimplex_weighted {ss : SSParams} {vol : List Row → ℚ} {dr : Draws} {d : Nat}
    {X : List Row} {indices : List (List Nat)} {k n : Nat} {a : SSArgs} {out : List Row} {cap : Nat → ℚ}
    (hX : ∀ r ∈ X, r.length = d) (hV : ∀ V, a.Xv = some V → ∀ r ∈ V, r.length = d)
    (hvw : ∀ ws, a.vertexWeights = some ws → ∀ c ∈ ws, 0 ≤ c ∧ c ≤ 1)
    (hsame : a.sameVertices = true → a.Xv = some X) (hdr : dr.OK) (hI : indices.length ≤ X.length)
    (hg : ss.gaussian = .none)
    (hbw : ∀ w, a.baseWeights = some w → w.length = indices.length ∧ ∀ x ∈ w, 0 ≤ x)
    (hsw : ∀ m, a.simplexWeights = some m → ∀ r ∈ m, ∀ x ∈ r, 0 ≤ x)
    (hvol : ∀ vs, 0 ≤ vol vs) (hcap : CapOK (sortedPairs ss a) a.vertexWeights cap)
    (h : sampleSimplex ss vol dr d X indices k n a = .ok out) :
    out.length = n ∧ ∀ x ∈ out, ∃ b ps vs,
      Selected indices k (min ss.nDim k) a.baseWeights a.simplexWeights b ps vs ∧
      Mixed d X (a.Xv.getD X) b vs cap x := by
  obtain ⟨gen, g1, _, g3⟩ := sampleSimplex_sound hX hV hvw hsame (fun i j => (hdr.simplex i j).1) hI h
  rw [hg] at g3
  simp only [addGaussianNoise] at g3
  refine ⟨by rw [g3]; exact g1, ?_⟩
  clear g1 g3
  unfold sampleSimplex at h
  split at h
  · simp only [pure_ok] at h; subst h; simp
  simp only at h
  rw [bind_ok] at h
  obtain ⟨sel, hsel, h⟩ := h
  have hw := simplicesSel_weighted hdr.choice hbw hsw hvol hsel
  have hsh : ∀ s ∈ sel, SimplexShape indices (min ss.nDim k) s := by
    intro s hs
    obtain ⟨b, ps, vs, rfl, hx⟩ := hw s hs
    exact hx.shape
  have hfin : ∀ b vs, (b :: vs) ∈ sel → ∃ ps, Selected indices k (min ss.nDim k) a.baseWeights a.simplexWeights b ps vs := by
    intro b vs hm
    obtain ⟨b', ps, vs', he, hx⟩ := hw _ hm
    injection he with h1 h2
    subst h1; subst h2
    exact ⟨ps, hx⟩
  cases hwi : ss.within with
  | random =>
    rw [hwi] at h
    simp only at h
    rw [bind_ok] at h
    obtain ⟨samples, hsam, h⟩ := h
    simp only [pure_ok, hg, addGaussianNoise] at h
    subst h
    intro x hx
    unfold randomSamplesFromSimplices at hsam
    obtain ⟨⟨s, i⟩, hsi, hgen⟩ := mapM_ok_mem hsam hx
    have hsm : s ∈ sel := by
      have := List.mem_zipIdx hsi; simp at this; rw [this.2]; exact List.getElem_mem _
    obtain ⟨b, ns, rfl, hmix⟩ := randomSample_mixed hX hV hvw (fun j => (hdr.simplex i j).1) hI (hsh s hsm) hcap hgen
    obtain ⟨ps, hps⟩ := hfin b ns hsm
    exact ⟨b, ps, ns, hps, hmix⟩
  | deterministic =>
    rw [hwi] at h
    simp only at h
    rw [bind_ok] at h
    obtain ⟨samples, hsam, h⟩ := h
    simp only [pure_ok, hg, addGaussianNoise] at h
    subst h
    intro x hx
    unfold deterministicSamples at hsam
    split at hsam
    · rename_i h2
      rw [h2] at hsh
      have hso : sortedPairs ss a = (a.Xv.isNone || a.sameVertices) := by simp [sortedPairs, hwi]
      rw [hso] at hcap
      obtain ⟨b, ns, hm, hmix⟩ := deterministicSamplesDim2_mixed hX hV hvw hsame hsh hcap hsam x hx
      obtain ⟨ps, hps⟩ := hfin b ns hm
      exact ⟨b, ps, ns, hps, hmix⟩
    · split at hsam
      · rename_i h1
        obtain ⟨s, hsm, hsx⟩ := mapM_ok_mem hsam hx
        obtain ⟨b, ps, vs, rfl, hps⟩ := hw s hsm
        have hpl : ps.length = 0 := by have := hps.2.2.1; omega
        have hvl : vs = [] := by
          obtain ⟨⟨row, _, hf⟩, _⟩ := hps
          exact List.length_eq_zero_iff.1 (by rw [← hf.length_eq]; exact hpl)
        subst hvl
        simp only at hsx
        refine ⟨b, ps, [], hps, x, [], 1, [], getRow_ok.1 hsx, .nil, ?_, .nil⟩
        exact ⟨rfl, by simp, by simp, hX _ (getRow_mem hsx), fun k hk => by simp⟩
      · simp at hsam
  | unknown =>
    rw [hwi] at h
    simp at h

end Verif

import Verif.Lemmas.Clusters
import Verif.Lemmas.Drawn
import Mathlib.Tactic.FieldSimp

/-! # Which rows `sample_simplex` can return -/

namespace Verif

/-- Items of a list behind the first one are the items at a choice of positions. -/
theorem positions_of_sublist {row vs : List Nat} (h : vs.Sublist (row.drop 1)) :
    ∃ ps : List Nat, ps.Sublist (List.range' 1 (row.length - 1)) ∧ ps.length = vs.length ∧
      List.Forall₂ (fun p v => row[p]? = some v) ps vs := by
  have e : row.drop 1 = (List.range' 1 (row.length - 1)).map (fun i => row.getD i 0) := by
    apply List.ext_getElem
    · simp
    · intro i h1 h2
      simp only [List.getElem_drop, List.getElem_map, List.getElem_range', Nat.one_mul]
      rw [List.length_drop] at h1
      simp only [List.getD]
      rw [List.getElem?_eq_getElem (by omega)]
      rfl
  rw [e, List.sublist_map_iff] at h
  obtain ⟨ps, hps, rfl⟩ := h
  refine ⟨ps, hps, by simp, ?_⟩
  rw [List.forall₂_map_right_iff]
  have : ∀ p ∈ ps, row[p]? = some (row.getD p 0) := by
    intro p hp
    have := List.mem_range'_1.1 (hps.subset hp)
    simp only [List.getD]
    rw [List.getElem?_eq_getElem (by omega)]
    rfl
  clear hps e
  induction ps with
  | nil => exact List.Forall₂.nil
  | cons p ps ih => exact List.Forall₂.cons (this p (by simp)) (ih fun q hq => this q (by simp [hq]))

theorem takeRows_of_forall₂ {α : Type} {X : List α} {idx : List Nat} {rows : List α}
    (h : List.Forall₂ (fun i r => X[i]? = some r) idx rows) : takeRows X idx = .ok rows := by
  unfold takeRows
  rw [mapM_ok_iff]
  exact h.imp fun i r hr => getRow_ok.2 hr

/-- Every choice of positions is among the enumerated simplices. -/
theorem allNeighbor_mem {indices : List (List Nat)} {k nDim : Nat} {all : List (List Nat)} {b : Nat} {row vs : List Nat}
    (h : allNeighborSimplicesRealIdx nDim indices k = .ok all) (hb : indices[b]? = some row) (hk : row.length = k)
    (hvs : vs.Sublist (row.drop 1)) (hl : vs.length + 1 = nDim) :
    ∃ j : Nat, all[j]? = some (b :: vs) ∧ j / Nat.choose (k - 1) (nDim - 1) = b := by
  obtain ⟨-, -, h⟩ := allNeighbor_unfold h
  obtain ⟨ps, hps, hpl, hf⟩ := positions_of_sublist hvs
  rw [hk] at hps
  have hcm : ps ∈ combinations (List.range' 1 (k - 1)) (nDim - 1) := mem_combinations.2 ⟨hps, by omega⟩
  obtain ⟨q, hq, hqe⟩ := List.getElem_of_mem hcm
  have hcl : (combinations (List.range' 1 (k - 1)) (nDim - 1)).length = Nat.choose (k - 1) (nDim - 1) := by
    rw [length_combinations, List.length_range']
  rw [hcl] at hq
  have hbi := (List.getElem?_eq_some_iff.1 hb).1
  set c := Nat.choose (k - 1) (nDim - 1) with hc
  have h1 : (b * c + q) / c = b := by rw [Nat.mul_comm, Nat.mul_add_div (by omega), Nat.div_eq_of_lt hq, Nat.add_zero]
  have h2 : (b * c + q) % c = q := by rw [Nat.mul_comm, Nat.mul_add_mod, Nat.mod_eq_of_lt hq]
  have hpos : (posSimplices indices.length k nDim)[b * c + q]? = some (b :: ps) := by
    unfold posSimplices
    rw [getElem?_flatMap_const (c := c) (by omega) (by intro a _; rw [List.length_map, hcl]), h1, h2]
    rw [List.getElem?_range hbi]
    show (List.map _ _)[q]? = _
    rw [List.getElem?_map, List.getElem?_eq_getElem (by rw [hcl]; exact hq), hqe]
    rfl
  obtain ⟨t, ht1, ht2⟩ := mapM_ok_get h hpos
  refine ⟨b * c + q, ?_, h1⟩
  rw [ht1]
  unfold realIdxRow at ht2
  dsimp only at ht2
  rw [getRow_ok.2 hb, ok_bind, takeRows_of_forall₂ hf, ok_bind] at ht2
  injection ht2 with ht2
  rw [ht2]

/-- A draw that selects a given entry of positive weight. -/
theorem choice_reaches {p : List ℚ} (h0 : ∀ x ∈ p, 0 ≤ x) (h1 : p.sum = 1) {j : Nat} {x : ℚ} (hj : p[j]? = some x) (hx : 0 < x) :
    ∃ u, 0 ≤ u ∧ u < 1 ∧ choiceIdx p u = j := by
  obtain ⟨hlt, hje⟩ := List.getElem?_eq_some_iff.1 hj
  have hstep : (p.take (j + 1)).sum = (p.take j).sum + x := by
    rw [List.take_add_one, List.sum_append, hj]
    simp
  have hle : (p.take (j + 1)).sum ≤ 1 := by
    rw [← h1]
    conv_rhs => rw [← List.take_append_drop (j + 1) p, List.sum_append]
    have : 0 ≤ (p.drop (j + 1)).sum := List.sum_nonneg fun y hy => h0 y (List.mem_of_mem_drop hy)
    linarith
  have hu0 : 0 ≤ (p.take j).sum := List.sum_nonneg fun y hy => h0 y (List.mem_of_mem_take hy)
  have hu1 : (p.take j).sum < 1 := by linarith
  refine ⟨(p.take j).sum, hu0, hu1, ?_⟩
  obtain ⟨w, hw, hwp, g1, g2⟩ := choiceIdx_spec h1 hu0 hu1
  rcases lt_trichotomy (choiceIdx p (p.take j).sum) j with hlt' | heq | hgt
  · have := sum_take_mono h0 (Nat.succ_le_of_lt hlt')
    linarith
  · exact heq
  · have := sum_take_mono h0 (Nat.succ_le_of_lt hgt)
    rw [Nat.succ_eq_add_one] at this
    linarith

theorem sum_map_half (w : List ℚ) : (w.map (fun x => x / 2)).sum = w.sum / 2 := sum_map_div w 2

/-- Draws in `[0, 1)` with given normalised weights. -/
theorem normalizeDraw_half {w : List ℚ} (h1 : w.sum = 1) :
    normalizeDraw ((List.range w.length).map (fun j => w.getD j 0 / 2)) = .ok w := by
  have e : (List.range w.length).map (fun j => w.getD j 0 / 2) = w.map (fun x => x / 2) := by
    apply List.ext_getElem
    · simp
    · intro i h1 h2
      simp only [List.getElem_map, List.getElem_range, List.getD]
      rw [List.length_map] at h2
      rw [List.getElem?_eq_getElem h2]
      rfl
  unfold normalizeDraw
  rw [e, sum_map_half, h1, if_neg (by norm_num), List.map_map]
  congr 1
  conv_rhs => rw [← List.map_id w]
  apply List.map_congr_left
  intro x _
  simp only [Function.comp, id]
  field_simp

theorem convexComb_eq {d : Nat} {w : List ℚ} {V : List Row} {x : Row} (hV : ∀ v ∈ V, v.length = d) (h : IsConvexComb d w V x) :
    rowSum d (List.zipWith Row.smul w V) = x := by
  obtain ⟨hl, h0, h1, hx, hc⟩ := h
  obtain ⟨_, _, _, hx', hc'⟩ := rowSum_convex hl h0 h1 hV
  apply List.ext_getElem (by rw [hx, hx'])
  intro i g1 g2
  have e1 := hc i (by omega)
  have e2 := hc' i (by omega)
  rw [← e1] at e2
  simp only [List.getD] at e2
  rw [List.getElem?_eq_getElem g1, List.getElem?_eq_getElem g2] at e2
  exact e2

theorem weight_le_one {w : List ℚ} (h0 : ∀ c ∈ w, 0 ≤ c) (h1 : w.sum = 1) {c : ℚ} (hc : c ∈ w) : c ≤ 1 := by
  rw [← h1]
  exact List.single_le_sum h0 c hc

/-- The positive entries among the weights of all simplices. -/
theorem determineWeights_positive {vol : List Row → ℚ} {X : List Row} {mode : SimplexSampling}
    {bw : Option (List ℚ)} {Xv : Option (List Row)} {all : List (List Nat)} {m c j b : Nat} {w : List ℚ} (hc : 0 < c)
    (hcnt : all.length = m * c) (hj : j < all.length) (hjb : j / c = b) (hmode : bw = none → mode = .random)
    (hbl : ∀ ws, bw = some ws → ws.length = m)
    (hb : ∀ ws, bw = some ws → ∃ x, ws[b]? = some x ∧ 0 < x) (h : determineWeights mode vol X bw Xv all m = .ok w) :
    ∃ x, w[j]? = some x ∧ 0 < x := by
  have hunif : ∀ L : List (List Nat), L.length = all.length →
      ∃ x, (List.replicate L.length (1 / (L.length : ℚ)))[j]? = some x ∧ 0 < x := by
    intro L hL
    refine ⟨1 / (L.length : ℚ), by rw [List.getElem?_replicate, if_pos (by omega)], ?_⟩
    have : (0 : ℚ) < L.length := by
      have : 0 < L.length := by omega
      exact_mod_cast this
    positivity
  rcases bw with _ | ws
  · rw [hmode rfl] at h
    rcases Xv with _ | V
    · simp only [determineWeights, simplexDistribution] at h
      injection h with h
      rw [← h]
      exact hunif all rfl
    · simp only [determineWeights, simplexDistribution] at h
      injection h with h
      rw [← h]
      exact hunif _ (by simp)
  · have hl := hbl ws rfl
    obtain ⟨x, hx, hp⟩ := hb ws rfl
    simp only [determineWeights] at h
    split at h
    · cases h
    injection h with h
    have hm : 0 < m := by omega
    have hdiv : all.length / ws.length = c := by rw [hcnt, hl]; exact Nat.mul_div_cancel_left c hm
    rw [hdiv] at h
    refine ⟨x, ?_, hp⟩
    rw [← h, getElem?_flatMap_const (c := c) hc (by simp), hjb, hx]
    show (List.replicate c x)[j % c]? = _
    rw [List.getElem?_replicate, if_pos (Nat.mod_lt j hc)]

/-- Random selection and random points: every list of points of the simplices can be drawn. -/
theorem sampleSimplex_reaches {ss : SSParams} {vol : List Row → ℚ} {d : Nat} {X : List Row} {indices : List (List Nat)} {k n : Nat}
    {bw : Option (List ℚ)} {Xv : Option (List Row)} {out : List Row}
    (hX : ∀ r ∈ X, r.length = d) (hV : ∀ V, Xv = some V → ∀ r ∈ V, r.length = d)
    (ht : TableOK indices k (Xv.getD X).length) (hI : indices.length ≤ X.length) (hne : indices ≠ []) (hk : 1 ≤ k) (hd : 1 ≤ ss.nDim)
    (hmode : ss.simplexSampling = .random) (hwi : ss.within = .random) (hg : ss.gaussian = .none)
    (hbw : ∀ w, bw = some w → w.length = indices.length ∧ (∀ x ∈ w, 0 ≤ x) ∧ 0 < w.sum)
    (hl : out.length = n) (hout : ∀ x ∈ out, SimplexOf d (min ss.nDim k) X (Xv.getD X) indices
      (fun b => ∀ w, bw = some w → ∃ c, w[b]? = some c ∧ 0 < c) x) :
    ∃ dr : Draws, dr.OK ∧ sampleSimplex ss vol dr d X indices k n { baseWeights := bw, Xv := Xv } = .ok out := by
  obtain ⟨all, hall, hcnt, hsh⟩ := allNeighbor_ok (nDim := min ss.nDim k) ht (by omega) (by omega)
  have hcpos : 0 < Nat.choose (k - 1) (min ss.nDim k - 1) := Nat.choose_pos (by omega)
  have hpos : 0 < all.length := by
    rw [hcnt]
    exact Nat.mul_pos (List.length_pos_iff.2 hne) hcpos
  have hallne : all ≠ [] := List.length_pos_iff.1 hpos
  have hwok : WeightsOK ss.simplexSampling vol bw indices.length := by
    unfold WeightsOK
    cases bw with
    | none => exact Or.inl hmode
    | some w => exact hbw w rfl
  obtain ⟨w, hw, hwl, hw0, hws⟩ := determineWeights_ok (Xv := Xv) hallne hI hcnt (fun s hs => by
    obtain ⟨b, vs, row, rfl, hrow, hin, _⟩ := hsh s hs
    refine ⟨b, vs, rfl, (List.getElem?_eq_some_iff.1 hrow).1, fun v hv => ?_⟩
    exact (ht row (List.mem_of_getElem? hrow)).2 v (hin v hv)) hwok
  have hmul : List.zipWith (· * ·) w (List.replicate all.length (1:ℚ)) = w := by
    rw [← hwl]
    clear hw hwl hw0 hws
    induction w with
    | nil => rfl
    | cons a w ih => simp [List.replicate_succ, ih]
  obtain ⟨p, hp, hpl, hp0, hps⟩ := normalize_ok hw0 hws
  -- the draws for one row
  have hone : ∀ x ∈ out, ∃ (u : ℚ) (v : Nat → ℚ) (s : List Nat), 0 ≤ u ∧ u < 1 ∧ (∀ j, 0 ≤ v j ∧ v j < 1) ∧
      all[choiceIdx p u]? = some s ∧ (do
        let w ← normalizeDraw ((List.range s.length).map v)
        let vs ← simplexVertices X Xv none s
        return rowSum d (List.zipWith Row.smul w vs) : Res Row) = .ok x := by
    intro x hx
    obtain ⟨b, base, row, nb, nbrs, c, hb, hbwp, hrow, hsub, hnl, hnf, hcx⟩ := hout x hx
    obtain ⟨hrl, hrb⟩ := ht row (List.mem_of_getElem? hrow)
    obtain ⟨j, hj, hjb⟩ := allNeighbor_mem hall hrow hrl hsub hnl
    have hjl := (List.getElem?_eq_some_iff.1 hj).1
    obtain ⟨q, hq, hqp⟩ := determineWeights_positive hcpos hcnt hjl hjb (fun _ => hmode) (fun ws h => (hbw ws h).1) hbwp hw
    have hpj : ∃ z, p[j]? = some z ∧ 0 < z := by
      unfold normalize at hp
      rw [if_neg hws.ne'] at hp
      injection hp with hp
      rw [← hp, List.getElem?_map, hq]
      exact ⟨_, rfl, div_pos hqp hws⟩
    obtain ⟨z, hz, hzp⟩ := hpj
    obtain ⟨u, hu0, hu1, hue⟩ := choice_reaches hp0 hps hz hzp
    have hcl : c.length = (b :: nb).length := by rw [hcx.1, List.length_cons, List.length_cons, hnf.length_eq]
    refine ⟨u, fun i => c.getD i 0 / 2, b :: nb, hu0, hu1, ?_, by rw [hue]; exact hj, ?_⟩
    · intro i
      simp only [List.getD]
      cases hi : c[i]? with
      | none => norm_num
      | some t =>
        have hm := List.mem_of_getElem? hi
        have h0 := hcx.2.1 t hm
        have h1 := weight_le_one hcx.2.1 hcx.2.2.1 hm
        simp only [Option.getD_some]
        constructor <;> linarith
    · rw [← hcl, normalizeDraw_half hcx.2.2.1, ok_bind]
      have hverts : simplexVertices X Xv none (b :: nb) = .ok (base :: nbrs) := by
        rcases Xv with _ | V
        · exact takeRows_of_forall₂ (List.Forall₂.cons hb hnf)
        · show takeRows (X ++ V) (b :: nb.map (· + X.length)) = _
          apply takeRows_of_forall₂
          refine List.Forall₂.cons ?_ ?_
          · rw [List.getElem?_append_left (List.getElem?_eq_some_iff.1 hb).1]
            exact hb
          · rw [List.forall₂_map_left_iff]
            refine hnf.imp fun i r hr => ?_
            rw [List.getElem?_append_right (by omega), Nat.add_sub_cancel]
            exact hr
      rw [hverts, ok_bind]
      show Except.ok _ = _
      rw [convexComb_eq ?_ hcx]
      intro v hv
      rcases List.mem_cons.1 hv with rfl | hv
      · exact hX _ (List.mem_of_getElem? hb)
      · obtain ⟨i, _, hi⟩ := forall2_mem_right hnf hv
        rcases Xv with _ | V
        · exact hX _ (List.mem_of_getElem? hi)
        · exact hV V rfl _ (List.mem_of_getElem? hi)
  -- all draws
  have hch : ∀ i : Nat, ∃ (u : ℚ) (v : Nat → ℚ), (0 ≤ u ∧ u < 1) ∧ (∀ j, 0 ≤ v j ∧ v j < 1) ∧ ∀ x, out[i]? = some x →
      ∃ s, all[choiceIdx p u]? = some s ∧ (do
        let w ← normalizeDraw ((List.range s.length).map v)
        let vs ← simplexVertices X Xv none s
        return rowSum d (List.zipWith Row.smul w vs) : Res Row) = .ok x := by
    intro i
    cases hi : out[i]? with
    | none => exact ⟨0, fun _ => 0, ⟨le_refl _, one_pos⟩, fun _ => ⟨le_refl _, one_pos⟩, fun x hx => by cases hx⟩
    | some x =>
      obtain ⟨u, v, s, h1, h2, h3, h4, h5⟩ := hone x (List.mem_of_getElem? hi)
      refine ⟨u, v, ⟨h1, h2⟩, h3, fun x' hx' => ?_⟩
      injection hx' with hx'
      subst hx'
      exact ⟨s, h4, h5⟩
  choose cu su hcu hsu hboth using hch
  refine ⟨⟨cu, su, fun _ _ => 0⟩, ⟨hcu, hsu⟩, ?_⟩
  unfold sampleSimplex
  by_cases hn : n = 0
  · rw [if_pos hn]
    rw [hn] at hl
    rw [List.length_eq_zero_iff.1 hl]
    rfl
  rw [if_neg hn]
  have hex : ∃ sel : List (List Nat), takeRows all ((List.range n).map (fun i => choiceIdx p (cu i))) = .ok sel := by
    apply takeRows_ok_of_lt
    intro j hj
    obtain ⟨i, hi, rfl⟩ := List.mem_map.1 hj
    obtain ⟨z, hz, _⟩ := choiceIdx_spec hps (hcu i).1 (hcu i).2
    have := (List.getElem?_eq_some_iff.1 hz).1
    omega
  obtain ⟨sel, hsel⟩ := hex
  have hsl : sel.length = n := by rw [takeRows_length hsel]; simp
  have hsf := takeRows_forall hsel
  rw [List.forall₂_map_left_iff] at hsf
  have hselat : ∀ i s, sel[i]? = some s → all[choiceIdx p (cu i)]? = some s := by
    intro i s hs
    obtain ⟨i', hi', hr⟩ := forall2_getElem_right hsf hs
    have : i' = i := by
      obtain ⟨h1, h2⟩ := List.getElem?_eq_some_iff.1 hi'
      rw [← h2, List.getElem_range]
    rw [this] at hr
    exact hr
  have hsims : simplicesSel ss.simplexSampling vol cu X n bw indices k Xv none (min ss.nDim k) = .ok sel := by
    unfold simplicesSel
    rw [hall, ok_bind]
    show (do let nw ← nodeWeights none indices.length k (min ss.nDim k) all.length; _ : Res _) = _
    have hnw : nodeWeights none indices.length k (min ss.nDim k) all.length = .ok (List.replicate all.length 1) := rfl
    rw [hnw, ok_bind, hw, ok_bind, if_neg (by simp [hwl]), hmul, hp]
    have hnp : npChoice all.length n p cu = .ok ((List.range n).map (fun i => choiceIdx p (cu i))) := by
      unfold npChoice
      rw [if_neg (by omega), if_neg, if_neg (by simp [hps])]
      rw [List.any_eq_true]
      rintro ⟨t, ht, hlt⟩
      have := hp0 t ht
      simp at hlt; linarith
    have hmd : ¬ ss.simplexSampling = .deterministic := by rw [hmode]; simp
    simp only [hmd, if_false]
    show (npChoice all.length n p cu >>= fun sel => takeRows all sel) = _
    rw [hnp, ok_bind, hsel]
  have hrand : randomSamplesFromSimplices d X sel Xv none su = .ok out := by
    unfold randomSamplesFromSimplices
    rw [mapM_ok_iff, List.forall₂_iff_get]
    refine ⟨by simp [hsl, hl], fun i h1 h2 => ?_⟩
    simp only [List.get_eq_getElem, List.getElem_zipIdx, Nat.zero_add]
    rw [List.length_zipIdx] at h1
    obtain ⟨s, hs1, hs2⟩ := hboth i _ (List.getElem?_eq_getElem h2)
    have := hselat i _ (List.getElem?_eq_getElem h1)
    rw [hs1] at this
    injection this with this
    rw [← this]
    exact hs2
  dsimp only
  rw [hsims, ok_bind, hwi]
  dsimp only
  rw [hrand, ok_bind, hg]
  rfl

end Verif

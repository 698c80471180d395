import Verif.Lemmas.Reorder
import Verif.Lemmas.Comb
import Verif.Lemmas.Drawn

/-! # `sample_simplex` on reordered rows -/

namespace Verif

theorem getD_lt {α : Type} {X : List α} {i : Nat} (h : i < X.length) (a : α) : X.getD i a = X[i] := by
  rw [List.getD_eq_getElem?_getD, List.getElem?_eq_getElem h]
  rfl

theorem mapM_congr_mem {α β : Type} {f g : α → Res β} {l : List α} (h : ∀ a ∈ l, f a = g a) : l.mapM f = l.mapM g := by
  induction l with
  | nil => rfl
  | cons a l ih => rw [List.mapM_cons, List.mapM_cons, h a (by simp), ih fun b hb => h b (by simp [hb])]

theorem takeRows_getD {α : Type} {X : List α} {idx : List Nat} (h : ∀ i ∈ idx, i < X.length) (a : α) :
    takeRows X idx = .ok (idx.map (fun i => X.getD i a)) := by
  unfold takeRows
  refine mapM_ok_of fun i hi => ?_
  rw [getRow_lt (h i hi), getD_lt (h i hi)]

/-- The simplex at base `b` with the neighbours at the positions `c`. -/
def simplexAt (T : List (List Nat)) (b : Nat) (c : List Nat) : List Nat := b :: c.map (fun p => (T.getD b []).getD p 0)

/-- All simplices. -/
def simplexList (T : List (List Nat)) (k nDim : Nat) : List (List Nat) :=
  (List.range T.length).flatMap (fun b => (combinations (List.range' 1 (k - 1)) (nDim - 1)).map (simplexAt T b))

/-- The vertices of all simplices. -/
def vertexList (X : List Row) (T : List (List Nat)) (k nDim : Nat) : List (List Row) :=
  (simplexList T k nDim).map (fun s => s.map (fun i => X.getD i []))

theorem comb_lt {k r : Nat} {c : List Nat} (h : c ∈ combinations (List.range' 1 (k - 1)) r) : ∀ p ∈ c, p < k := by
  intro p hp
  have := (mem_combinations.1 h).1.subset hp
  rw [List.mem_range'_1] at this
  omega

theorem simplexList_eq {T : List (List Nat)} {k m nDim : Nat} (ht : TableOK T k m) (hd : nDim ≠ 0)
    (hdk : nDim - 1 ≤ k - 1 ∨ T.length = 0) :
    allNeighborSimplicesRealIdx nDim T k = .ok (simplexList T k nDim) := by
  unfold allNeighborSimplicesRealIdx
  rw [baseIdx_eq (by omega) hdk]
  unfold posSimplices
  rw [ok_bind, mapM_ok_of (g := fun s => match s with | [] => [] | b :: c => simplexAt T b c)]
  · unfold simplexList
    rw [List.map_flatMap]
    simp only [List.map_map]
    rfl
  · intro s hs
    obtain ⟨b, hb, hs⟩ := List.mem_flatMap.1 hs
    obtain ⟨c, hc, rfl⟩ := List.mem_map.1 hs
    have hb' := List.mem_range.1 hb
    have hrow := ht _ (List.getElem_mem hb')
    unfold realIdxRow simplexAt
    dsimp only
    rw [getRow_lt hb', ok_bind, takeRows_getD (a := 0) (by rw [hrow.1]; exact comb_lt hc), ok_bind, getD_lt hb']
    rfl

theorem simplexList_lt {T : List (List Nat)} {k m nDim : Nat} (ht : TableOK T k m) (hT : T.length ≤ m) {s : List Nat}
    (hs : s ∈ simplexList T k nDim) : ∀ i ∈ s, i < m := by
  obtain ⟨b, hb, hs⟩ := List.mem_flatMap.1 hs
  obtain ⟨c, hc, rfl⟩ := List.mem_map.1 hs
  have hb' := List.mem_range.1 hb
  intro i hi
  rcases List.mem_cons.1 hi with rfl | hi
  · omega
  · obtain ⟨p, hp, rfl⟩ := List.mem_map.1 hi
    have hrow := ht _ (List.getElem_mem hb')
    have hlt : p < T[b].length := by rw [hrow.1]; exact comb_lt hc p hp
    rw [getD_lt hb', getD_lt hlt]
    exact hrow.2 _ (List.getElem_mem hlt)

section
variable {σ : List Nat} {X X' : List Row} {T T' : List (List Nat)} {k : Nat}

theorem vertexList_perm (hX : Reordered σ X X') (hS : SameNeighbors σ T T') (hl : T.length = X.length) (hl' : T'.length = X'.length)
    (ht' : TableOK T' k X'.length) (nDim : Nat) : (vertexList X' T' k nDim).Perm (vertexList X T k nDim) := by
  have hn : X'.length = σ.length := by rw [hX.length_eq, hX.length_pos]
  have hget : ∀ p, p < σ.length → σ[p]? = some (σ.getD p 0) := by
    intro p hp
    rw [List.getD_eq_getElem?_getD, List.getElem?_eq_getElem hp]
    rfl
  have hval : ∀ p i : Nat, σ[p]? = some i → X'.getD p [] = X.getD i [] := by
    intro p i hp
    rw [List.getD_eq_getElem?_getD, List.getD_eq_getElem?_getD, hX.get? hp]
  unfold vertexList simplexList
  rw [List.map_flatMap, List.map_flatMap]
  simp only [List.map_map]
  have e : (List.range T'.length).flatMap (fun b => (combinations (List.range' 1 (k - 1)) (nDim - 1)).map
        ((fun s => s.map (fun i => X'.getD i [])) ∘ simplexAt T' b)) =
      ((List.range T'.length).map (fun p => σ.getD p 0)).flatMap (fun b => (combinations (List.range' 1 (k - 1)) (nDim - 1)).map
        ((fun s => s.map (fun i => X.getD i [])) ∘ simplexAt T b)) := by
    rw [List.flatMap_map]
    refine List.flatMap_congr fun p hp => ?_
    have hp' := List.mem_range.1 hp
    have hpσ : p < σ.length := by rw [← hn, ← hl']; exact hp'
    refine List.map_congr_left fun c hc => ?_
    obtain ⟨r, r', h1, h2, h3⟩ := hS p _ (hget p hpσ)
    have g1 : T.getD (σ.getD p 0) [] = r := by rw [List.getD_eq_getElem?_getD, h1]; rfl
    have g2 : T'.getD p [] = r' := by rw [List.getD_eq_getElem?_getD, h2]; rfl
    have hr' := (ht' r' (List.mem_of_getElem? h2)).1
    simp only [Function.comp, simplexAt, List.map_cons, List.map_map, g1, g2]
    refine congrArg₂ List.cons (hval p _ (hget p hpσ)) (List.map_congr_left fun q hq => ?_)
    have hq' : q < r'.length := by rw [hr']; exact comb_lt hc q hq
    obtain ⟨j, hj, hj'⟩ := forall₂_get? h3 (List.getElem?_eq_getElem hq')
    have f1 : r'.getD q 0 = r'[q] := getD_lt hq' _
    have f2 : r.getD q 0 = j := by rw [List.getD_eq_getElem?_getD, hj]; rfl
    simp only [Function.comp, f1, f2]
    exact hval _ _ hj'
  rw [e]
  refine List.Perm.flatMap_right _ ?_
  have : (List.range T'.length).map (fun p => σ.getD p 0) = σ := by
    rw [hl', hn]
    refine List.ext_getElem (by simp) fun i h1 h2 => ?_
    simp [List.getD_eq_getElem?_getD, List.getElem?_eq_getElem h2]
  rw [this, hl]
  exact hX.perm

end

/-- Any position with a positive weight can be drawn. -/
theorem choiceIdx_attain {p : List ℚ} (h1 : p.sum = 1) (h0 : ∀ x ∈ p, 0 ≤ x) {q : Nat} {w : ℚ} (hq : p[q]? = some w) (hw : 0 < w) :
    ∃ u, 0 ≤ u ∧ u < 1 ∧ choiceIdx p u = q := by
  have hs : (p.take (q + 1)).sum = (p.take q).sum + w := by
    obtain ⟨hlt, rfl⟩ := List.getElem?_eq_some_iff.1 hq
    rw [List.sum_take_succ _ _ hlt]
  have hle : (p.take (q + 1)).sum ≤ 1 := by
    rw [← h1]
    have := sum_take_mono h0 (a := q + 1) (b := max (q + 1) p.length) (le_max_left _ _)
    rwa [List.take_of_length_le (le_max_right _ _)] at this
  have hu0 : 0 ≤ (p.take q).sum := List.sum_nonneg fun x hx => h0 x (List.mem_of_mem_take hx)
  refine ⟨(p.take q).sum, hu0, by linarith, ?_⟩
  obtain ⟨w', h2, h3, h4, h5⟩ := choiceIdx_spec h1 hu0 (by linarith : (p.take q).sum < 1)
  rcases Nat.lt_trichotomy (choiceIdx p (p.take q).sum) q with h | h | h
  · have := sum_take_mono h0 (a := choiceIdx p (p.take q).sum + 1) (b := q) h
    linarith
  · exact h
  · have := sum_take_mono h0 (a := q + 1) (b := choiceIdx p (p.take q).sum) h
    linarith

/-- The weight of a simplex as a function of its vertices. -/
def simplexWeight (mode : SimplexSampling) (vol : List Row → ℚ) (m : Nat) (vs : List Row) : ℚ :=
  if mode = .volume then vol vs else 1 / (m : ℚ)

theorem simplicesSel_plain {mode : SimplexSampling} {vol : List Row → ℚ} {u : Nat → ℚ} {X : List Row} {n : Nat} {T : List (List Nat)} {k nDim : Nat}
    (hm : mode = .random ∨ mode = .volume) (ht : TableOK T k X.length) (hT : T.length ≤ X.length) (hd : nDim ≠ 0)
    (hdk : nDim - 1 ≤ k - 1 ∨ T.length = 0) :
    simplicesSel mode vol u X n none T k none none nDim =
      (normalize ((vertexList X T k nDim).map (simplexWeight mode vol (vertexList X T k nDim).length))) >>= fun p =>
        npChoice (vertexList X T k nDim).length n p u >>= fun sel => takeRows (simplexList T k nDim) sel := by
  have hlen : (vertexList X T k nDim).length = (simplexList T k nDim).length := by simp [vertexList]
  have hW : determineWeights mode vol X none none (simplexList T k nDim) T.length =
      .ok ((vertexList X T k nDim).map (simplexWeight mode vol (vertexList X T k nDim).length)) := by
    rcases hm with rfl | rfl
    · have : simplexWeight .random vol (vertexList X T k nDim).length = fun _ => 1 / ((vertexList X T k nDim).length : ℚ) := by
        funext vs
        unfold simplexWeight
        rw [if_neg (by decide)]
      simp only [determineWeights, simplexDistribution]
      rw [this, List.map_const', hlen]
    · have : simplexWeight .volume vol (vertexList X T k nDim).length = vol := by
        funext vs
        unfold simplexWeight
        rw [if_pos rfl]
      simp only [determineWeights, simplexDistribution]
      rw [this, mapM_ok_of (g := fun s => vol (s.map (fun i => X.getD i [])))]
      · unfold vertexList
        rw [List.map_map]
        rfl
      · intro s hs
        rw [takeRows_getD (a := []) (simplexList_lt ht hT hs), ok_bind]
        rfl
  have hmul : ∀ W : List ℚ, W.length = (simplexList T k nDim).length →
      List.zipWith (· * ·) W (List.replicate (simplexList T k nDim).length 1) = W := by
    intro W h
    rw [← h]
    refine List.ext_getElem (by simp) fun i h1 h2 => by simp
  have hne : mode ≠ .deterministic := by rcases hm with rfl | rfl <;> decide
  unfold simplicesSel
  rw [simplexList_eq ht hd hdk, ok_bind]
  unfold nodeWeights
  dsimp only
  rw [ok_bind, hW, ok_bind]
  rw [if_neg (by simp [hlen]), hmul _ (by simp [hlen])]
  simp only [hne, if_false, hlen]

section
variable {σ : List Nat} {X X' : List Row} {T T' : List (List Nat)} {k : Nat}

/-- The same exception, or simplices with the same vertices. -/
def SameSelection (X X' : List Row) (r r' : Res (List (List Nat))) : Prop :=
  (∃ e, r = .error e ∧ r' = .error e) ∨ ∃ sel sel', r = .ok sel ∧ r' = .ok sel' ∧
    (∀ s ∈ sel, ∀ i ∈ s, i < X.length) ∧ (∀ s ∈ sel', ∀ i ∈ s, i < X'.length) ∧
    sel'.map (fun s => s.map (fun i => X'.getD i [])) = sel.map (fun s => s.map (fun i => X.getD i []))

theorem simplicesSel_reordered {mode : SimplexSampling} {vol : List Row → ℚ} {u : Nat → ℚ} {n nDim : Nat} (hm : mode ≠ .deterministic)
    (hu : ∀ i, 0 ≤ u i ∧ u i < 1) (hX : Reordered σ X X') (hS : SameNeighbors σ T T') (hl : T.length = X.length) (hl' : T'.length = X'.length)
    (ht : TableOK T k X.length) (ht' : TableOK T' k X'.length) :
    ∃ u' : Nat → ℚ, (∀ i, 0 ≤ u' i ∧ u' i < 1) ∧
      SameSelection X X' (simplicesSel mode vol u X n none T k none none nDim) (simplicesSel mode vol u' X' n none T' k none none nDim) := by
  by_cases hd : nDim = 0
  · refine ⟨u, hu, Or.inl ⟨.valueError, ?_, ?_⟩⟩ <;>
      (unfold simplicesSel allNeighborSimplicesRealIdx baseIdxNeighborIdxSimplices; rw [if_pos hd]; rfl)
  have hll : T.length = T'.length := by rw [hl, hl', hX.length_eq]
  by_cases hdk : nDim - 1 ≤ k - 1 ∨ T.length = 0
  swap
  · refine ⟨u, hu, Or.inl ⟨.valueError, ?_, ?_⟩⟩ <;>
      (unfold simplicesSel; rw [allNeighbor_error (by omega) (by omega)]; rfl)
  have hdk' : nDim - 1 ≤ k - 1 ∨ T'.length = 0 := by rw [← hll]; exact hdk
  by_cases hmode : mode = .random ∨ mode = .volume
  · rw [simplicesSel_plain hmode ht (le_of_eq hl) hd hdk]
    have hperm := vertexList_perm (k := k) hX hS hl hl' ht' nDim
    have hplain : ∀ u' : Nat → ℚ, _ := fun u' =>
      simplicesSel_plain (vol := vol) (u := u') (n := n) hmode ht' (le_of_eq hl') hd hdk'
    have hlen := hperm.length_eq
    rw [hlen] at hplain
    set V := vertexList X T k nDim with hV
    set V' := vertexList X' T' k nDim with hV'
    set wt := simplexWeight mode vol V.length with hwt
    have hsum : (V'.map wt).sum = (V.map wt).sum := (hperm.map wt).sum_eq
    by_cases h0 : (V.map wt).sum = 0
    · refine ⟨u, hu, Or.inl ⟨.valueError, ?_, ?_⟩⟩
      · unfold normalize; rw [if_pos h0]; rfl
      · rw [hplain u]; unfold normalize; rw [if_pos (hsum.trans h0)]; rfl
    · set S := (V.map wt).sum with hSdef
      have hp : normalize (V.map wt) = .ok (V.map (fun v => wt v / S)) := by
        unfold normalize; rw [if_neg h0, List.map_map]; rfl
      have hp' : normalize (V'.map wt) = .ok (V'.map (fun v => wt v / S)) := by
        unfold normalize; rw [hsum, if_neg h0, List.map_map]; rfl
      have hp1 : (V.map (fun v => wt v / S)).sum = 1 := by
        rw [show (fun v => wt v / S) = fun v => wt v * S⁻¹ from funext fun v => div_eq_mul_inv _ _, List.sum_map_mul_right, ← hSdef]
        exact mul_inv_cancel₀ h0
      have hp1' : (V'.map (fun v => wt v / S)).sum = 1 := by rw [← hp1]; exact (hperm.map _).sum_eq
      by_cases hneg : (V.map (fun v => wt v / S)).any (fun x => decide (x < 0)) = true
      · have hneg' : (V'.map (fun v => wt v / S)).any (fun x => decide (x < 0)) = true := by
          rw [List.any_eq_true] at hneg ⊢
          obtain ⟨x, hx, h⟩ := hneg
          exact ⟨x, (hperm.map _).mem_iff.2 hx, h⟩
        refine ⟨u, hu, Or.inl ⟨.valueError, ?_, ?_⟩⟩
        · rw [hp, ok_bind]; unfold npChoice; rw [if_neg (by simp), if_pos hneg]; rfl
        · rw [hplain u, hp', ok_bind]; unfold npChoice; rw [if_neg (by simp [hlen]), if_pos hneg']; rfl
      · have hnn : ∀ x ∈ V.map (fun v => wt v / S), 0 ≤ x := by
          intro x hx
          by_contra hc
          exact hneg (List.any_eq_true.2 ⟨x, hx, decide_eq_true (not_le.1 hc)⟩)
        have hnn' : ∀ x ∈ V'.map (fun v => wt v / S), 0 ≤ x := fun x hx => hnn x ((hperm.map _).mem_iff.1 hx)
        have hneg' : ¬ (V'.map (fun v => wt v / S)).any (fun x => decide (x < 0)) = true := by
          intro h
          obtain ⟨x, hx, h⟩ := List.any_eq_true.1 h
          exact absurd (hnn' x hx) (not_le.2 (of_decide_eq_true h))
        have hchoose : ∀ i, ∃ u', (0 ≤ u' ∧ u' < 1) ∧ ∃ vs, V[choiceIdx (V.map (fun v => wt v / S)) (u i)]? = some vs ∧
            V'[choiceIdx (V'.map (fun v => wt v / S)) u']? = some vs := by
          intro i
          obtain ⟨w, g1, g2, -, -⟩ := choiceIdx_spec hp1 (hu i).1 (hu i).2
          rw [List.getElem?_map, Option.map_eq_some_iff] at g1
          obtain ⟨vs, g1, g3⟩ := g1
          obtain ⟨q, hq⟩ := List.mem_iff_getElem?.1 (hperm.mem_iff.2 (List.mem_of_getElem? g1))
          have hq' : (V'.map (fun v => wt v / S))[q]? = some w := by rw [List.getElem?_map, hq, ← g3]; rfl
          obtain ⟨u', k1, k2, k3⟩ := choiceIdx_attain hp1' hnn' hq' g2
          exact ⟨u', ⟨k1, k2⟩, vs, g1, by rw [k3]; exact hq⟩
        choose u' hu' hvs using hchoose
        have hlenV : V.length = (simplexList T k nDim).length := by rw [hV]; simp [vertexList]
        have hlenV' : V'.length = (simplexList T' k nDim).length := by rw [hV']; simp [vertexList]
        have hlt : ∀ j ∈ (List.range n).map (fun i => choiceIdx (V.map (fun v => wt v / S)) (u i)), j < (simplexList T k nDim).length := by
          intro j hj
          obtain ⟨i, _, rfl⟩ := List.mem_map.1 hj
          obtain ⟨vs, g1, _⟩ := hvs i
          rw [← hlenV]
          exact (List.getElem?_eq_some_iff.1 g1).1
        have hlt' : ∀ j ∈ (List.range n).map (fun i => choiceIdx (V'.map (fun v => wt v / S)) (u' i)), j < (simplexList T' k nDim).length := by
          intro j hj
          obtain ⟨i, _, rfl⟩ := List.mem_map.1 hj
          obtain ⟨vs, _, g1⟩ := hvs i
          rw [← hlenV']
          exact (List.getElem?_eq_some_iff.1 g1).1
        refine ⟨u', hu', Or.inr ⟨((List.range n).map (fun i => choiceIdx (V.map (fun v => wt v / S)) (u i))).map (fun j => (simplexList T k nDim).getD j []),
          ((List.range n).map (fun i => choiceIdx (V'.map (fun v => wt v / S)) (u' i))).map (fun j => (simplexList T' k nDim).getD j []),
          ?_, ?_, ?_, ?_, ?_⟩⟩
        · rw [hp, ok_bind]; unfold npChoice
          rw [if_neg (by simp), if_neg hneg, if_neg (by simp [hp1]), ok_bind, takeRows_getD (a := []) hlt]
        · rw [hplain u', hp', ok_bind]; unfold npChoice
          rw [if_neg (by simp [hlen]), if_neg hneg', if_neg (by simp [hp1']), ok_bind, takeRows_getD (a := []) hlt']
        · intro s hs
          obtain ⟨j, hj, rfl⟩ := List.mem_map.1 hs
          rw [getD_lt (hlt j hj)]
          exact simplexList_lt ht (le_of_eq hl) (List.getElem_mem _)
        · intro s hs
          obtain ⟨j, hj, rfl⟩ := List.mem_map.1 hs
          rw [getD_lt (hlt' j hj)]
          exact simplexList_lt ht' (le_of_eq hl') (List.getElem_mem _)
        · rw [List.map_map, List.map_map, List.map_map, List.map_map]
          refine List.map_congr_left fun i hi => ?_
          obtain ⟨vs, g1, g2⟩ := hvs i
          have f1 : ∀ j, V[j]? = some vs → ((simplexList T k nDim).getD j []).map (fun i => X.getD i []) = vs := by
            intro j hj
            rw [hV, vertexList, List.getElem?_map, Option.map_eq_some_iff] at hj
            obtain ⟨s, hs, rfl⟩ := hj
            rw [List.getD_eq_getElem?_getD, hs]; rfl
          have f2 : ∀ j, V'[j]? = some vs → ((simplexList T' k nDim).getD j []).map (fun i => X'.getD i []) = vs := by
            intro j hj
            rw [hV', vertexList, List.getElem?_map, Option.map_eq_some_iff] at hj
            obtain ⟨s, hs, rfl⟩ := hj
            rw [List.getD_eq_getElem?_getD, hs]; rfl
          simp only [Function.comp]
          rw [f1 _ g1, f2 _ g2]
  · have hun : mode = .unknown := by
      cases mode
      · exact absurd (Or.inl rfl) hmode
      · exact absurd rfl hm
      · exact absurd (Or.inr rfl) hmode
      · rfl
    subst hun
    refine ⟨u, hu, Or.inl ⟨.valueError, ?_, ?_⟩⟩
    · unfold simplicesSel
      rw [simplexList_eq ht hd hdk]; rfl
    · unfold simplicesSel
      rw [simplexList_eq ht' hd hdk']; rfl

theorem randomSamples_rows {d : Nat} {X : List Row} {sel : List (List Nat)} (h : ∀ s ∈ sel, ∀ i ∈ s, i < X.length) (u : Nat → Nat → ℚ) :
    randomSamplesFromSimplices d X sel none none u = (sel.map (fun s => s.map (fun i => X.getD i []))).zipIdx.mapM (fun (vs, i) => do
      let w ← normalizeDraw ((List.range vs.length).map (u i))
      return rowSum d (List.zipWith Row.smul w vs)) := by
  unfold randomSamplesFromSimplices
  rw [List.zipIdx_map, List.mapM_map]
  refine mapM_congr_mem fun ⟨s, i⟩ hs => ?_
  have hs' : s ∈ sel := (List.mem_zipIdx_iff_getElem?.1 hs) |> List.mem_of_getElem?
  simp only [Function.comp, Prod.map, id, simplexVertices, List.length_map]
  rw [takeRows_getD (a := []) (h s hs')]
  rfl

/-- With simplices drawn at random, every outcome for some rows is an outcome for the reordered rows. -/
theorem sampleSimplex_reordered {ss : SSParams} {vol : List Row → ℚ} {dr : Draws} {d n : Nat} (hm : ss.simplexSampling ≠ .deterministic)
    (hw : ss.within ≠ .deterministic) (hdr : dr.OK) (hX : Reordered σ X X') (hS : SameNeighbors σ T T') (hl : T.length = X.length)
    (hl' : T'.length = X'.length) (ht : TableOK T k X.length) (ht' : TableOK T' k X'.length) :
    ∃ dr' : Draws, dr'.OK ∧ sampleSimplex ss vol dr' d X' T' k n {} = sampleSimplex ss vol dr d X T k n {} := by
  obtain ⟨u', hu', h⟩ := simplicesSel_reordered (vol := vol) (n := n) (nDim := min ss.nDim k) hm hdr.choice hX hS hl hl' ht ht'
  refine ⟨⟨u', dr.simplexU, dr.normalU⟩, ⟨hu', hdr.simplex⟩, ?_⟩
  unfold sampleSimplex
  split
  · rfl
  · rcases h with ⟨e, h1, h2⟩ | ⟨sel, sel', h1, h2, h3, h4, h5⟩
    · dsimp only
      rw [h1, h2]
      rfl
    · dsimp only
      rw [h1, h2, ok_bind, ok_bind]
      cases hww : ss.within with
      | random =>
        dsimp only
        rw [randomSamples_rows h3, randomSamples_rows h4, h5]
      | deterministic => exact absurd hww hw
      | unknown => rfl

end

end Verif

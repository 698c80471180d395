import Verif.Spec.Affine
import Verif.Lemmas.Geometry
import Verif.Lemmas.Rename
import Verif.Lemmas.Sampler
import Mathlib.Tactic.Linarith
import Mathlib.Tactic.FieldSimp
import Mathlib.Algebra.BigOperators.Group.List.Basic
import Mathlib.Algebra.BigOperators.Ring.List

/-!
# Lemmas: affine maps and the simplex sampler
-/

namespace Verif

/-- The linear part of a coordinate. -/
def linForm (d : Nat) (m : Nat → ℚ) (r : Row) : ℚ := ((List.range d).map (fun j => m j * r.getD j 0)).sum

theorem linForm_add {d : Nat} (m : Nat → ℚ) {a b : Row} (ha : a.length = d) (hb : b.length = d) :
    linForm d m (Row.add a b) = linForm d m a + linForm d m b := by
  unfold linForm
  rw [← List.sum_map_add]
  refine congrArg _ (List.map_congr_left fun j hj => ?_)
  rw [List.mem_range] at hj
  rw [Row.add_getD (by omega) (by omega)]
  ring

theorem linForm_sub {d : Nat} (m : Nat → ℚ) {a b : Row} (ha : a.length = d) (hb : b.length = d) :
    linForm d m (Row.sub a b) = linForm d m a - linForm d m b := by
  have : linForm d m a = linForm d m (Row.sub a b) + linForm d m b := by
    unfold linForm
    rw [← List.sum_map_add]
    refine congrArg _ (List.map_congr_left fun j hj => ?_)
    rw [List.mem_range] at hj
    rw [Row.sub_getD (by omega) (by omega)]
    ring
  linarith

theorem linForm_smul (d : Nat) (m : Nat → ℚ) (t : ℚ) (a : Row) : linForm d m (Row.smul t a) = t * linForm d m a := by
  unfold linForm
  rw [← List.sum_map_mul_left]
  refine congrArg _ (List.map_congr_left fun j _ => ?_)
  rw [Row.smul_getD]
  ring

theorem linForm_rowSum {d : Nat} (m : Nat → ℚ) {rows : List Row} (h : ∀ r ∈ rows, r.length = d) :
    linForm d m (rowSum d rows) = (rows.map (linForm d m)).sum := by
  induction rows with
  | nil =>
    have : ∀ j, (List.replicate d (0 : ℚ)).getD j 0 = 0 := by
      intro j
      by_cases hj : j < d <;> simp [List.getD, hj]
    show ((List.range d).map (fun j => m j * (List.replicate d (0 : ℚ)).getD j 0)).sum = 0
    simp only [this, mul_zero]
    simp
  | cons r rows ih =>
    have h' : ∀ r ∈ rows, r.length = d := fun q hq => h q (List.mem_cons_of_mem _ hq)
    rw [show rowSum d (r :: rows) = Row.add r (rowSum d rows) from rfl, linForm_add m (h r (List.mem_cons_self ..)) (rowSum_length h'), ih h']
    simp

theorem affineRow_length (d : Nat) (M : Nat → Nat → ℚ) (c : Nat → ℚ) (r : Row) : (affineRow d M c r).length = d := by simp [affineRow]

theorem affineRow_getD {d : Nat} (M : Nat → Nat → ℚ) (c : Nat → ℚ) (r : Row) {i : Nat} (hi : i < d) :
    (affineRow d M c r).getD i 0 = linForm d (M i) r + c i := by
  simp [affineRow, linForm, List.getD, hi]

/-- What the samplers need of a change of coordinates. -/
structure AffineOn (d : Nat) (g : Row → Row) : Prop where
  len : ∀ r : Row, r.length = d → (g r).length = d
  seg : ∀ (a b : Row) (t : ℚ), a.length = d → b.length = d →
    g (Row.add (Row.smul t (Row.sub b a)) a) = Row.add (Row.smul t (Row.sub (g b) (g a))) (g a)
  step : ∀ (a b : Row) (t w : ℚ), a.length = d → b.length = d →
    g (Row.add a (Row.smul t (Row.smul w (Row.sub b a)))) = Row.add (g a) (Row.smul t (Row.smul w (Row.sub (g b) (g a))))
  comb : ∀ (w : List ℚ) (vs : List Row), w.length = vs.length → w.sum = 1 → (∀ v ∈ vs, v.length = d) →
    g (rowSum d (List.zipWith Row.smul w vs)) = rowSum d (List.zipWith Row.smul w (vs.map g))

theorem zipWith_smul_length {d : Nat} {w : List ℚ} {V : List Row} (hV : ∀ v ∈ V, v.length = d) :
    ∀ r ∈ List.zipWith Row.smul w V, r.length = d := by
  intro r hr
  obtain ⟨i, hi, rfl⟩ := List.getElem_of_mem hr
  simp only [List.getElem_zipWith, Row.smul_length]
  exact hV _ (List.getElem_mem _)

theorem affineRow_affine (d : Nat) (M : Nat → Nat → ℚ) (c : Nat → ℚ) : AffineOn d (affineRow d M c) where
  len _ _ := affineRow_length ..
  seg a b t ha hb := by
    refine row_ext (d := d) (affineRow_length ..) (by simp [affineRow_length]) fun i hi => ?_
    rw [affineRow_getD M c _ hi, Row.add_getD (by simpa [affineRow_length] using hi) (by simpa [affineRow_length] using hi), Row.smul_getD,
      Row.sub_getD (by simpa [affineRow_length] using hi) (by simpa [affineRow_length] using hi), affineRow_getD M c _ hi, affineRow_getD M c _ hi,
      linForm_add _ (by simp [ha, hb]) ha, linForm_smul, linForm_sub _ hb ha]
    ring
  step a b t w ha hb := by
    refine row_ext (d := d) (affineRow_length ..) (by simp [affineRow_length]) fun i hi => ?_
    rw [affineRow_getD M c _ hi, Row.add_getD (by simpa [affineRow_length] using hi) (by simpa [affineRow_length] using hi), Row.smul_getD, Row.smul_getD,
      Row.sub_getD (by simpa [affineRow_length] using hi) (by simpa [affineRow_length] using hi), affineRow_getD M c _ hi, affineRow_getD M c _ hi,
      linForm_add _ ha (by simp [ha, hb]), linForm_smul, linForm_smul, linForm_sub _ hb ha]
    ring
  comb w vs hl h1 hv := by
    have hz := zipWith_smul_length (w := w) hv
    have hz' : ∀ r ∈ List.zipWith Row.smul w (vs.map (affineRow d M c)), r.length = d :=
      zipWith_smul_length fun v hv => by
        obtain ⟨u, _, rfl⟩ := List.mem_map.1 hv
        exact affineRow_length ..
    refine row_ext (d := d) (affineRow_length ..) (rowSum_length hz') fun i hi => ?_
    rw [affineRow_getD M c _ hi, linForm_rowSum _ hz, rowSum_getD hz' hi]
    have : ∀ (w : List ℚ) (vs : List Row), w.length = vs.length →
        ((List.zipWith Row.smul w (vs.map (affineRow d M c))).map (fun r => r.getD i 0)).sum
          = ((List.zipWith Row.smul w vs).map (linForm d (M i))).sum + w.sum * c i := by
      intro w
      induction w with
      | nil => simp
      | cons a w ih =>
        intro vs hl
        cases vs with
        | nil => simp at hl
        | cons v vs =>
          have := ih vs (by simpa using hl)
          simp only [List.map_cons, List.zipWith_cons_cons, List.sum_cons, this]
          rw [Row.smul_getD, affineRow_getD M c _ hi, linForm_smul]
          ring
    rw [this w vs hl, h1, one_mul]

section
variable {d : Nat} {g : Row → Row}

theorem affine_len {S : List Row} (hg : AffineOn d g) (h : ∀ r ∈ S, r.length = d) : ∀ r ∈ S.map g, r.length = d := by
  intro r hr
  obtain ⟨q, hq, rfl⟩ := List.mem_map.1 hr
  exact hg.len q (h q hq)

theorem takeRows_len {S V : List Row} {idx : List Nat} (h : ∀ r ∈ S, r.length = d) (hV : takeRows S idx = .ok V) : ∀ r ∈ V, r.length = d :=
  fun _ hr => h _ (takeRows_mem hV hr)

theorem normalize_scale {c : ℚ} (hc : c ≠ 0) (w nw : List ℚ) :
    normalize (List.zipWith (· * ·) (w.map (c * ·)) nw) = normalize (List.zipWith (· * ·) w nw) := by
  have e : List.zipWith (· * ·) (w.map (c * ·)) nw = (List.zipWith (· * ·) w nw).map (c * ·) := by
    rw [List.zipWith_map_left, List.map_zipWith]
    refine congrArg (fun k => List.zipWith k w nw) ?_
    funext a b
    ring
  unfold normalize
  rw [e, List.sum_map_mul_left, List.map_id']
  by_cases hs : (List.zipWith (· * ·) w nw).sum = 0
  · rw [if_pos hs, if_pos (by rw [hs, mul_zero])]
  · rw [if_neg hs, if_neg (mul_ne_zero hc hs), List.map_map]
    refine congrArg _ (List.map_congr_left fun x _ => ?_)
    simp only [Function.comp]
    field_simp

theorem mapM_same {α β : Type} {l : List α} {p q : α → Res β} (h : ∀ a ∈ l, p a = q a) : l.mapM p = l.mapM q := by
  induction l with
  | nil => rfl
  | cons a l ih =>
    rw [List.mapM_cons, List.mapM_cons, h a (List.mem_cons_self ..), ih fun b hb => h b (List.mem_cons_of_mem _ hb)]

theorem distribution_affine {mode : SimplexSampling} {vol : List Row → ℚ} (hv : VolScaled d g vol) {S : List Row}
    (hS : ∀ r ∈ S, r.length = d) {m : Nat} {all : List (List Nat)} (ha : ∀ s ∈ all, s.length = m) :
    ∃ c : ℚ, c ≠ 0 ∧ simplexDistribution mode vol (S.map g) all = (fun w => w.map (c * ·)) <$> simplexDistribution mode vol S all := by
  obtain ⟨c, hc, h⟩ := hv m
  cases mode with
  | random => exact ⟨1, one_ne_zero, by simp [simplexDistribution]⟩
  | deterministic => exact ⟨1, one_ne_zero, by simp [simplexDistribution]⟩
  | unknown => exact ⟨1, one_ne_zero, rfl⟩
  | volume =>
    refine ⟨c, hc, ?_⟩
    unfold simplexDistribution
    simp only
    rw [← mapM_rename]
    refine mapM_same fun s hs => ?_
    rw [takeRows_rename, bind_map_left, map_bind]
    match hT : takeRows S s with
    | .error e => rfl
    | .ok V =>
      simp only [ok_bind]
      rw [h V (by rw [takeRows_length hT, ha s hs]) (takeRows_len hS hT)]
      rfl

theorem shiftNeighbors_length (n : Nat) (s : List Nat) : (shiftNeighbors n s).length = s.length := by
  cases s <;> simp [shiftNeighbors]

theorem weights_affine {mode : SimplexSampling} {vol : List Row → ℚ} (hv : VolScaled d g vol) {S : List Row} (hS : ∀ r ∈ S, r.length = d)
    (bw : Option (List ℚ)) {Xv : Option (List Row)} (hXv : ∀ V, Xv = some V → ∀ r ∈ V, r.length = d) {m : Nat} {all : List (List Nat)}
    (ha : ∀ s ∈ all, s.length = m) (n : Nat) :
    ∃ c : ℚ, c ≠ 0 ∧ determineWeights mode vol (S.map g) bw (Xv.map (List.map g)) all n
      = (fun w => w.map (c * ·)) <$> determineWeights mode vol S bw Xv all n := by
  cases bw with
  | some w =>
    refine ⟨1, one_ne_zero, ?_⟩
    simp only [determineWeights]
    split
    · rfl
    · simp
  | none =>
    cases Xv with
    | none => exact distribution_affine hv hS ha
    | some V =>
      have h1 : ∀ r ∈ S ++ V, r.length = d := by
        intro r hr
        rcases List.mem_append.1 hr with h | h
        · exact hS r h
        · exact hXv V rfl r h
      obtain ⟨c, hc, h⟩ := distribution_affine (mode := mode) hv h1 (m := m) (all := all.map (shiftNeighbors n)) (by
        intro s hs
        obtain ⟨t, ht, rfl⟩ := List.mem_map.1 hs
        rw [shiftNeighbors_length, ha t ht])
      refine ⟨c, hc, ?_⟩
      simp only [determineWeights, Option.map_some]
      rw [← List.map_append]
      exact h

theorem sel_affine {mode : SimplexSampling} {vol : List Row → ℚ} (hv : VolScaled d g vol) (cu : Nat → ℚ) {S : List Row}
    (hS : ∀ r ∈ S, r.length = d) (n : Nat) (bw : Option (List ℚ)) (ind : List (List Nat)) (k : Nat) {Xv : Option (List Row)}
    (hXv : ∀ V, Xv = some V → ∀ r ∈ V, r.length = d) (sw : Option (List (List ℚ))) (nDim : Nat) :
    simplicesSel mode vol cu (S.map g) n bw ind k (Xv.map (List.map g)) sw nDim = simplicesSel mode vol cu S n bw ind k Xv sw nDim := by
  unfold simplicesSel
  match hall : allNeighborSimplicesRealIdx nDim ind k with
  | .error e => rfl
  | .ok all =>
    have hl : ∀ s ∈ all, s.length = nDim := by
      intro s hs
      obtain ⟨b, vs, row, rfl, -, -, h⟩ := (allNeighbor_sound hall).2 s hs
      simpa using h
    obtain ⟨c, hc, h⟩ := weights_affine (mode := mode) hv hS bw hXv hl ind.length
    simp only [ok_bind]
    refine bind_congr fun nw => ?_
    rw [h, bind_map_left]
    simp only [normalize_scale hc, List.length_map]

theorem vertices_affine (hg : AffineOn d g) {S : List Row} (hS : ∀ r ∈ S, r.length = d) {Xv : Option (List Row)}
    (hXv : ∀ V, Xv = some V → ∀ r ∈ V, r.length = d) (vw : Option (List ℚ)) (s : List Nat) :
    simplexVertices (S.map g) (Xv.map (List.map g)) vw s = (fun V => V.map g) <$> simplexVertices S Xv vw s := by
  cases vw with
  | none =>
    cases Xv with
    | none => exact takeRows_rename g S s
    | some V =>
      simp only [simplexVertices, Option.map_some, List.length_map]
      rw [← List.map_append]
      exact takeRows_rename g _ _
  | some vw =>
    cases s with
    | nil => cases Xv <;> rfl
    | cons b ns =>
      have hV : ∀ r ∈ Xv.getD S, r.length = d := by
        cases Xv with
        | none => exact hS
        | some V => exact hXv V rfl
      have e : (Xv.map (List.map g)).getD (S.map g) = (Xv.getD S).map g := by cases Xv <;> rfl
      have e1 : ∀ (Xv : Option (List Row)) (S : List Row), simplexVertices S Xv (some vw) (b :: ns) = (do
          let base ← getRow S b
          let nbs ← takeRows (Xv.getD S) ns
          let ws ← takeRows vw ns
          return base :: List.zipWith (fun nb w => Row.add (Row.smul w (Row.sub nb base)) base) nbs ws) := by
        intro Xv S
        cases Xv <;> rfl
      rw [e1, e1, e, getRow_rename, bind_map_left, map_bind]
      match hb : getRow S b with
      | .error e => rfl
      | .ok base =>
        simp only [ok_bind]
        rw [takeRows_rename, bind_map_left, map_bind]
        match hn : takeRows (Xv.getD S) ns with
        | .error e => rfl
        | .ok nbs =>
          simp only [ok_bind, map_bind]
          refine bind_congr fun ws => ?_
          have hbl : base.length = d := hS _ (getRow_mem hb)
          have hnl := takeRows_len hV hn
          show Except.ok _ = Except.ok _
          congr 1
          show _ = List.map g (base :: _)
          rw [List.map_cons]
          congr 1
          clear hn
          induction nbs generalizing ws with
          | nil => simp
          | cons q nbs ih =>
            cases ws with
            | nil => simp
            | cons w ws =>
              simp only [List.map_cons, List.zipWith_cons_cons]
              rw [ih ws fun r hr => hnl r (List.mem_cons_of_mem _ hr), hg.seg base q w hbl (hnl q (List.mem_cons_self ..))]

theorem vertices_spec {S : List Row} (hS : ∀ r ∈ S, r.length = d) {Xv : Option (List Row)} (hXv : ∀ V, Xv = some V → ∀ r ∈ V, r.length = d)
    {vw : Option (List ℚ)} {s : List Nat} {V : List Row} (h : simplexVertices S Xv vw s = .ok V) : V.length = s.length ∧ ∀ r ∈ V, r.length = d := by
  cases vw with
  | none =>
    cases Xv with
    | none => exact ⟨takeRows_length h, takeRows_len hS h⟩
    | some W =>
      simp only [simplexVertices] at h
      refine ⟨by rw [takeRows_length h, shiftNeighbors_length], takeRows_len (fun r hr => ?_) h⟩
      rcases List.mem_append.1 hr with h | h
      · exact hS r h
      · exact hXv W rfl r h
  | some vw =>
    cases s with
    | nil => cases Xv <;> simp [simplexVertices] at h
    | cons b ns =>
      have hV : ∀ r ∈ Xv.getD S, r.length = d := by
        cases Xv with
        | none => exact hS
        | some V => exact hXv V rfl
      have e1 : simplexVertices S Xv (some vw) (b :: ns) = (do
          let base ← getRow S b
          let nbs ← takeRows (Xv.getD S) ns
          let ws ← takeRows vw ns
          return base :: List.zipWith (fun nb w => Row.add (Row.smul w (Row.sub nb base)) base) nbs ws) := by
        cases Xv <;> rfl
      rw [e1, bind_ok] at h
      obtain ⟨base, hb, h⟩ := h
      rw [bind_ok] at h
      obtain ⟨nbs, hn, h⟩ := h
      rw [bind_ok] at h
      obtain ⟨ws, hw, h⟩ := h
      rw [pure_ok] at h
      subst h
      have hbl : base.length = d := hS _ (getRow_mem hb)
      have hnl := takeRows_len hV hn
      refine ⟨by simp [takeRows_length hn, takeRows_length hw], fun r hr => ?_⟩
      rcases List.mem_cons.1 hr with rfl | hr
      · exact hbl
      · obtain ⟨i, hi, rfl⟩ := List.getElem_of_mem hr
        simp only [List.getElem_zipWith, Row.add_length, Row.smul_length, Row.sub_length]
        rw [hnl _ (List.getElem_mem _), hbl]
        simp

theorem random_affine (hg : AffineOn d g) {S : List Row} (hS : ∀ r ∈ S, r.length = d) (sel : List (List Nat)) {Xv : Option (List Row)}
    (hXv : ∀ V, Xv = some V → ∀ r ∈ V, r.length = d) (vw : Option (List ℚ)) (u : Nat → Nat → ℚ) :
    randomSamplesFromSimplices d (S.map g) sel (Xv.map (List.map g)) vw u
      = (fun V => V.map g) <$> randomSamplesFromSimplices d S sel Xv vw u := by
  unfold randomSamplesFromSimplices
  rw [← mapM_rename]
  refine mapM_same fun p _ => ?_
  obtain ⟨s, i⟩ := p
  simp only
  rw [map_bind]
  match hw : normalizeDraw ((List.range s.length).map (u i)) with
  | .error e => rfl
  | .ok w =>
    simp only [ok_bind]
    rw [vertices_affine hg hS hXv, bind_map_left, map_bind]
    match hV : simplexVertices S Xv vw s with
    | .error e => rfl
    | .ok V =>
      obtain ⟨h1, h2⟩ := vertices_spec hS hXv hV
      have h3 : w.length = s.length ∧ w.sum = 1 := by
        unfold normalizeDraw at hw
        split at hw
        · simp at hw
        · rename_i h0
          injection hw with hw
          subst hw
          refine ⟨by simp, ?_⟩
          have e : (fun x : ℚ => x / ((List.range s.length).map (u i)).sum) = fun x => (((List.range s.length).map (u i)).sum)⁻¹ * x := by
            funext x
            rw [div_eq_inv_mul]
          rw [e, List.sum_map_mul_left, List.map_id', inv_mul_cancel₀ h0]
      show Except.ok _ = Except.ok _
      rw [hg.comb w V (by omega) h3.2 h2]

/-- The three ingredients of a row of `add_samples`. -/
def addParts (X V : List Row) (vw : Option (List ℚ)) (p : Nat × Nat) : Res (Row × Row × ℚ) := do
  let base ← getRow X p.1
  let nb ← getRow V p.2
  let w ← vertexWeight vw p.2
  return (base, nb, w)

theorem addSamples_parts (pairs : List ((Nat × Nat) × Nat)) (count : Nat) (S V : List Row) (vw : Option (List ℚ)) :
    addSamples pairs count S V vw = (fun rows : List (Row × Row × ℚ) => (List.range' 1 count).flatMap (fun (j : Nat) =>
      rows.map (fun t => Row.add t.1 (Row.smul (1 / ((count : ℚ) + 1) * (j : ℚ)) (Row.smul t.2.2 (Row.sub t.2.1 t.1))))))
      <$> ((pairs.filter (fun pc => pc.2 == count)).map Prod.fst).mapM (addParts S V vw) := by
  have e : (fun p : Nat × Nat => (do
      let base ← getRow S p.1
      let nb ← getRow V p.2
      let w ← vertexWeight vw p.2
      return (base, Row.smul w (Row.sub nb base)) : Res (Row × Row)))
      = fun p => (fun t : Row × Row × ℚ => (t.1, Row.smul t.2.2 (Row.sub t.2.1 t.1))) <$> addParts S V vw p := by
    funext p
    simp only [addParts, map_bind]
    rfl
  unfold addSamples
  simp only
  rw [e, mapM_rename, bind_map_left]
  simp only [List.map_map, Function.comp_def]
  rfl

theorem addParts_map (S V : List Row) (vw : Option (List ℚ)) (p : Nat × Nat) :
    addParts (S.map g) (V.map g) vw p = (fun t : Row × Row × ℚ => (g t.1, g t.2.1, t.2.2)) <$> addParts S V vw p := by
  unfold addParts
  simp only [getRow_rename, bind_map_left, map_bind]
  rfl

theorem addSamples_affine (hg : AffineOn d g) (pairs : List ((Nat × Nat) × Nat)) (count : Nat) {S V : List Row} (hS : ∀ r ∈ S, r.length = d)
    (hV : ∀ r ∈ V, r.length = d) (vw : Option (List ℚ)) :
    addSamples pairs count (S.map g) (V.map g) vw = (fun R => R.map g) <$> addSamples pairs count S V vw := by
  rw [addSamples_parts, addSamples_parts, show addParts (S.map g) (V.map g) vw = _ from funext (addParts_map S V vw), mapM_rename]
  rcases hm : ((pairs.filter (fun pc => pc.2 == count)).map Prod.fst).mapM (addParts S V vw) with e | rows
  · erw [hm]
    rfl
  · erw [hm]
    show Except.ok _ = Except.ok _
    congr 1
    have hr : ∀ t ∈ rows, t.1.length = d ∧ t.2.1.length = d := by
      intro t ht
      obtain ⟨p, -, hp⟩ := forall2_mem_right (mapM_ok_iff.1 hm) ht
      unfold addParts at hp
      rw [bind_ok] at hp
      obtain ⟨base, hb, hp⟩ := hp
      rw [bind_ok] at hp
      obtain ⟨nb, hn, hp⟩ := hp
      rw [bind_ok] at hp
      obtain ⟨w, hw, hp⟩ := hp
      rw [pure_ok] at hp
      subst hp
      exact ⟨hS _ (getRow_mem hb), hV _ (getRow_mem hn)⟩
    simp only [List.map_flatMap, List.map_map]
    congr 1
    funext j
    refine List.map_congr_left fun t ht => ?_
    simp only [Function.comp_apply]
    rw [hg.step _ _ _ _ (hr t ht).1 (hr t ht).2]

theorem dim2_affine (hg : AffineOn d g) {S : List Row} (hS : ∀ r ∈ S, r.length = d) (sel : List (List Nat)) {Xv : Option (List Row)}
    (hXv : ∀ V, Xv = some V → ∀ r ∈ V, r.length = d) (same : Bool) (vw : Option (List ℚ)) :
    deterministicSamplesDim2 (S.map g) sel (Xv.map (List.map g)) same vw
      = (fun R => R.map g) <$> deterministicSamplesDim2 S sel Xv same vw := by
  have hV : ∀ r ∈ (if (Xv.isNone || same) = true then S else Xv.getD S), r.length = d := by
    split
    · exact hS
    · cases Xv with
      | none => exact hS
      | some V => exact hXv V rfl
  have e : (if (Xv.isNone || same) = true then S.map g else (Xv.map (List.map g)).getD (S.map g))
      = (if (Xv.isNone || same) = true then S else Xv.getD S).map g := by
    cases Xv <;> cases same <;> rfl
  unfold deterministicSamplesDim2
  simp only [Option.isNone_map, e, addSamples_affine hg _ _ hS hV, mapM_rename, bind_map_left, map_bind]
  refine bind_congr fun pairs => ?_
  refine bind_congr fun parts => ?_
  show Except.ok _ = Except.ok (List.map g _)
  rw [List.map_flatten]

theorem det_affine (hg : AffineOn d g) {S : List Row} (hS : ∀ r ∈ S, r.length = d) (sel : List (List Nat)) {Xv : Option (List Row)}
    (hXv : ∀ V, Xv = some V → ∀ r ∈ V, r.length = d) (same : Bool) (vw : Option (List ℚ)) (nDim : Nat) :
    deterministicSamples (S.map g) sel (Xv.map (List.map g)) same vw nDim
      = (fun R => R.map g) <$> deterministicSamples S sel Xv same vw nDim := by
  unfold deterministicSamples
  split
  · exact dim2_affine hg hS sel hXv same vw
  · split
    · rw [← mapM_rename]
      refine mapM_same fun s _ => ?_
      cases s with
      | nil => rfl
      | cons b s => exact getRow_rename g S b
    · rfl

/-- The arguments of `sample_simplex` after the change of coordinates. -/
def SSArgs.change (g : Row → Row) (a : SSArgs) : SSArgs := { a with Xv := a.Xv.map (List.map g) }

theorem sampleSimplex_affine (hg : AffineOn d g) {ss : SSParams} (hgauss : ss.gaussian = .none) {vol : List Row → ℚ} (hv : VolScaled d g vol)
    (dr : Draws) {S : List Row} (hS : ∀ r ∈ S, r.length = d) (ind : List (List Nat)) (k n : Nat) (a : SSArgs)
    (hXv : ∀ V, a.Xv = some V → ∀ r ∈ V, r.length = d) :
    sampleSimplex ss vol dr d (S.map g) ind k n (a.change g) = (fun R => R.map g) <$> sampleSimplex ss vol dr d S ind k n a := by
  unfold sampleSimplex
  simp only [SSArgs.change, hgauss, addGaussianNoise]
  split
  · rfl
  · rw [sel_affine hv _ hS _ _ _ _ hXv, map_bind]
    refine bind_congr fun sel => ?_
    cases ss.within with
    | random =>
      simp only
      rw [random_affine hg hS sel hXv, bind_map_left, map_bind]
      rfl
    | deterministic =>
      simp only
      rw [det_affine hg hS sel hXv, bind_map_left, map_bind]
      rfl
    | unknown => rfl

theorem selectLabel_change (g : Row → Row) (X : List Row) (y : List Int) (l : Int) :
    selectLabel (X.map g) y l = (selectLabel X y l).map g := by
  rw [selectLabel_eq_classRows, selectLabel_eq_classRows]
  unfold classRows
  rw [List.zip_map_left, List.filter_map, List.map_map, List.map_map]
  rfl

theorem addSamples_rowlen {pairs : List ((Nat × Nat) × Nat)} {count : Nat} {S V : List Row} {vw : Option (List ℚ)} {R : List Row}
    (hS : ∀ r ∈ S, r.length = d) (hV : ∀ r ∈ V, r.length = d) (h : addSamples pairs count S V vw = .ok R) : ∀ r ∈ R, r.length = d := by
  rw [addSamples_parts] at h
  rcases hm : ((pairs.filter (fun pc => pc.2 == count)).map Prod.fst).mapM (addParts S V vw) with e | rows
  · rw [hm] at h
    exact absurd h (by intro h; cases h)
  · rw [hm] at h
    injection h with h
    subst h
    intro r hr
    obtain ⟨j, -, hr⟩ := List.mem_flatMap.1 hr
    obtain ⟨t, ht, rfl⟩ := List.mem_map.1 hr
    obtain ⟨p, -, hp⟩ := forall2_mem_right (mapM_ok_iff.1 hm) ht
    unfold addParts at hp
    rw [bind_ok] at hp
    obtain ⟨base, hb, hp⟩ := hp
    rw [bind_ok] at hp
    obtain ⟨nb, hn, hp⟩ := hp
    rw [bind_ok] at hp
    obtain ⟨w, hw, hp⟩ := hp
    rw [pure_ok] at hp
    subst hp
    simp only [Row.add_length, Row.smul_length, Row.sub_length, hS _ (getRow_mem hb), hV _ (getRow_mem hn), min_self]

theorem sampleSimplex_rowlen {ss : SSParams} (hgauss : ss.gaussian = .none) {vol : List Row → ℚ} {dr : Draws} {S : List Row}
    (hS : ∀ r ∈ S, r.length = d) {ind : List (List Nat)} {k n : Nat} {a : SSArgs} (hXv : ∀ V, a.Xv = some V → ∀ r ∈ V, r.length = d)
    {R : List Row} (h : sampleSimplex ss vol dr d S ind k n a = .ok R) : ∀ r ∈ R, r.length = d := by
  unfold sampleSimplex at h
  simp only [hgauss, addGaussianNoise] at h
  split at h
  · injection h with h
    subst h
    simp
  · rw [bind_ok] at h
    obtain ⟨sel, -, h⟩ := h
    cases hw : ss.within with
    | random =>
      simp only [hw] at h
      rw [bind_ok] at h
      obtain ⟨R', h, h'⟩ := h
      rw [pure_ok] at h'
      subst h'
      intro r hr
      obtain ⟨p, -, hp⟩ := forall2_mem_right (mapM_ok_iff.1 h) hr
      rw [bind_ok] at hp
      obtain ⟨w, -, hp⟩ := hp
      rw [bind_ok] at hp
      obtain ⟨V, hV, hp⟩ := hp
      rw [pure_ok] at hp
      subst hp
      exact rowSum_length (zipWith_smul_length (vertices_spec hS hXv hV).2)
    | deterministic =>
      simp only [hw] at h
      rw [bind_ok] at h
      obtain ⟨R', h, h'⟩ := h
      rw [pure_ok] at h'
      subst h'
      simp only [deterministicSamples] at h
      split at h
      · unfold deterministicSamplesDim2 at h
        rw [bind_ok] at h
        obtain ⟨pairs, -, h⟩ := h
        simp only at h
        rw [bind_ok] at h
        obtain ⟨parts, hp, h⟩ := h
        rw [pure_ok] at h
        subst h
        intro r hr
        obtain ⟨part, hpart, hr⟩ := List.mem_flatten.1 hr
        obtain ⟨c, -, hc⟩ := forall2_mem_right (mapM_ok_iff.1 hp) hpart
        refine addSamples_rowlen hS ?_ hc r hr
        split
        · exact hS
        · cases hx : a.Xv with
          | none => exact hS
          | some V => exact hXv V hx
      · split at h
        · intro r hr
          obtain ⟨s, -, hs⟩ := forall2_mem_right (mapM_ok_iff.1 h) hr
          cases s with
          | nil => simp at hs
          | cons b s => exact hS _ (getRow_mem hs)
        · simp at h
    | unknown =>
      simp only [hw] at h
      exact absurd h (by intro h; cases h)

theorem change_bind {α : Type} (m : Res α) (k : α → Res (List Row × List Int)) : changeRows g (m >>= k) = m >>= fun a => changeRows g (k a) := by
  cases m <;> rfl

theorem change_pure (r : List Row × List Int) : changeRows g (pure r) = pure (r.1.map g, r.2) := rfl

theorem change_ite {p : Prop} [Decidable p] (a b : Res (List Row × List Int)) :
    changeRows g (if p then a else b) = if p then changeRows g a else changeRows g b := by
  split <;> rfl

theorem change_error (e : PyErr) : changeRows g (.error e) = .error e := rfl

theorem withSamples_change (X : List Row) (y : List Int) (l : Int) (S : List Row) :
    withSamples (X.map g) y l (S.map g) = ((withSamples X y l S).1.map g, (withSamples X y l S).2) := by
  simp [withSamples]

theorem selectLabel_len {X : List Row} (h : ∀ r ∈ X, r.length = d) (y : List Int) (l : Int) : ∀ r ∈ selectLabel X y l, r.length = d :=
  fun _ hr => h _ (selectLabel_mem hr)

theorem commutes_of_alg {checks : List Check} {d0 : Nat} {alg : Stats → List Row → List Int → Res (List Row × List Int)}
    (h : ∀ s X y, (∀ r ∈ X, r.length = d) → alg s (X.map g) y = changeRows g (alg s X y)) : CommutesWith d g (sample checks d0 alg) := by
  intro X y hX
  unfold sample
  simp only [change_bind, change_ite, change_pure, h _ X y hX]

theorem npDelete_change {α β : Type} (g : α → β) (X : List α) (rem : List Nat) : npDelete (X.map g) rem = (npDelete X rem).map g := by
  unfold npDelete
  rw [List.zipIdx_map, List.filter_map, List.map_map, List.map_map]
  rfl

end

end Verif

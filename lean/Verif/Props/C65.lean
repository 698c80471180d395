import Verif.Model.VisRst
import Verif.Props.C58
import Verif.Props.C60

/-!
# C65: VIS_RST changes labels of the training data, and what it generates is copies and interpolations kept by a filter
-/

namespace Verif

/-! ## Specification -/

/-- Contract of the nearest neighbour search: `k` positions of rows, if there are that many rows. -/
def NearOK (nb : Nat → List Row → Row → List Nat) : Prop :=
  ∀ k X q, k ≤ X.length → (nb k X q).length = k ∧ ∀ j ∈ nb k X q, j < X.length

/-- A majority row gets the label `a` of the minority if some row which is no majority row is among its neighbours. -/
def visRelabelled (near : Row → List Nat) (X : List Row) (y : List Int) (a b : Int) : List Int :=
  (X.zip y).map (fun (p : Row × Int) => if p.2 = b ∧ ∃ j ∈ near p.1, y[j]? ≠ some b then a else p.2)

/-- The number of majority rows among the neighbours behind the first one. -/
def majNear (near : Row → List Nat) (y : List Int) (b : Int) (x : Row) : Nat :=
  (((near x).drop 1).filter (fun j => decide (y[j]? = some b))).length

/-- Less than half of the neighbours are majority rows. -/
abbrev SafeRow (near : Row → List Nat) (y : List Int) (b : Int) (k : Nat) (x : Row) : Prop := 2 * majNear near y b x < k - 1

/-- All neighbours are majority rows. -/
abbrev NoiseRow (near : Row → List Nat) (y : List Int) (b : Int) (k : Nat) (x : Row) : Prop := majNear near y b x = k - 1

/-- At least half of the neighbours are majority rows, but not all. -/
abbrev DangerRow (near : Row → List Nat) (y : List Int) (b : Int) (k : Nat) (x : Row) : Prop :=
  ¬ SafeRow near y b k x ∧ ¬ NoiseRow near y b k x

/-- How a sample arises from the minority rows `M`, of which some are safe and some in danger. -/
def VisOrigin (d nDim k : Nat) (M : List Row) (nearM : Row → List Nat) (S D : Row → Prop) [DecidablePred S] [DecidablePred D] (x : Row) :
    Prop :=
  if ∀ r ∈ M, ¬ S r then SimplexOf d (min nDim k) M M (M.map nearM) (fun _ => True) x
  else if 3 * M.length < 10 * (M.filter (fun r => decide (D r))).length then
    (x ∈ M ∧ D x) ∨ SimplexOf d (min nDim (k - 1)) (M.filter (fun r => decide (S r))) M
      ((M.filter (fun r => decide (S r))).map (fun r => (nearM r).drop 1)) (fun _ => True) x
  else
    (x ∈ M ∧ S x) ∨ SimplexOf d (min nDim (k - 1)) (M.filter (fun r => decide (D r))) M
      ((M.filter (fun r => decide (D r))).map (fun r => (nearM r).drop 1)) (fun _ => True) x

/-! ## Proofs -/

theorem takeRows_count {y : List Int} {idx : List Nat} (b : Int) (h : ∀ j ∈ idx, j < y.length) :
    ∃ ls, takeRows y idx = .ok ls ∧ ls.length = idx.length ∧
      ls.count b = (idx.filter (fun j => decide (y[j]? = some b))).length := by
  refine ⟨_, takeRows_map_getD b h, by simp, ?_⟩
  induction idx with
  | nil => rfl
  | cons i idx ih =>
    have hi := h i (by simp)
    have := ih (fun j hj => h j (by simp [hj]))
    rw [List.map_cons, List.count_cons, this, List.filter_cons, List.getD_eq_getElem?_getD, List.getElem?_eq_getElem hi]
    by_cases hb : y[i] = b
    · rw [if_pos (by simp [hb]), if_pos (by simp [hb])]; rfl
    · rw [if_neg (by simpa using hb), if_neg (by simpa using hb)]; rfl

theorem visRelabel_eq {nb : Nat → List Row → Row → List Nat} {k : Nat} {X : List Row} {y : List Int} {a b : Int}
    (hxy : X.length = y.length) (hnb : NearOK nb) (hk : k ≤ X.length) :
    visRelabel nb k X y a b = .ok (visRelabelled (nb k X) X y a b) := by
  unfold visRelabel visRelabelled
  apply mapM_ok_of
  rintro ⟨x, l⟩ _
  obtain ⟨h1, h2⟩ := hnb k X x hk
  obtain ⟨ls, e1, e2, e3⟩ := takeRows_count (y := y) b (fun j hj => hxy ▸ h2 j hj)
  dsimp only
  by_cases hl : l = b
  case neg => rw [if_neg hl, if_neg (fun h => hl h.1)]; rfl
  rw [if_pos hl, e1, ok_bind]
  by_cases hex : ∃ j ∈ nb k X x, y[j]? ≠ some b
  · have hne : ls.count b ≠ k := by
      intro hc
      rw [hc] at e3
      obtain ⟨j, hj, hjb⟩ := hex
      have := List.length_filter_eq_length_iff.1 (e3.symm.trans h1.symm) j hj
      exact hjb (by simpa using this)
    rw [if_pos hne, if_pos ⟨hl, hex⟩]; rfl
  · have he : ¬ ls.count b ≠ k := by
      push Not at hex ⊢
      rw [e3, List.length_filter_eq_length_iff.2 (fun j hj => by simpa using hex j hj), h1]
    rw [if_neg he, if_neg (fun h => hex h.2)]; rfl

theorem visRelabelled_length {near : Row → List Nat} {X : List Row} {y : List Int} {a b : Int} (hxy : X.length = y.length) :
    (visRelabelled near X y a b).length = y.length := by simp [visRelabelled, hxy]

theorem visRelabelled_count {near : Row → List Nat} {X : List Row} {y : List Int} {a b : Int} (hxy : X.length = y.length) (hab : a ≠ b) :
    y.count a ≤ (visRelabelled near X y a b).count a := by
  unfold visRelabelled
  generalize hP : (fun p : Row × Int => if p.2 = b ∧ ∃ j ∈ near p.1, y[j]? ≠ some b then a else p.2) = f
  have hf : ∀ x, f (x, a) = a := by intro x; rw [← hP]; dsimp only; rw [if_neg (fun h => hab h.1)]
  clear hP
  induction X generalizing y with
  | nil => have : y = [] := List.length_eq_zero_iff.1 (by simpa using hxy.symm)
           subst this; simp
  | cons x X ih =>
    cases y with
    | nil => simp at hxy
    | cons l y =>
      have := ih (y := y) (by simpa using hxy)
      rw [List.zip_cons_cons, List.map_cons, List.count_cons, List.count_cons]
      by_cases hl : l = a
      · subst hl; rw [hf]; omega
      · rw [if_neg (fun hc => hl (beq_iff_eq.1 hc))]; omega

/-- The label the code gives to a minority row. -/
def visKind (near : Row → List Nat) (y : List Int) (b : Int) (k : Nat) (x : Row) : VisLab :=
  if SafeRow near y b k x then .saf else if NoiseRow near y b k x then .noi else .dan

theorem visLabels_eq {nb : Nat → List Row → Row → List Nat} {k : Nat} {X M : List Row} {y : List Int} {b : Int}
    (hxy : X.length = y.length) (hnb : NearOK nb) (hk : k ≤ X.length) :
    visLabels nb k X y b M = .ok (M.map (visKind (nb k X) y b k)) := by
  unfold visLabels
  apply mapM_ok_of
  intro x _
  obtain ⟨h1, h2⟩ := hnb k X x hk
  obtain ⟨ls, e1, _, e3⟩ := takeRows_count (y := y) (idx := (nb k X x).drop 1) b (fun j hj => hxy ▸ h2 j (List.mem_of_mem_drop hj))
  rw [e1, ok_bind]
  show Except.ok _ = _
  congr 1
  unfold visLab visKind
  rw [e3]
  dsimp only [SafeRow, NoiseRow]
  change (if ((majNear (nb k X) y b x : Nat) : ℚ) < _ then _ else if majNear (nb k X) y b x = k - 1 then _ else _) = _
  by_cases hs : 2 * majNear (nb k X) y b x < k - 1
  · rw [if_pos hs, if_pos]
    rw [lt_div_iff₀ (by norm_num)]
    exact_mod_cast (by omega : majNear (nb k X) y b x * 2 < k - 1)
  · rw [if_neg hs, if_neg]
    rw [lt_div_iff₀ (by norm_num)]
    intro hc
    exact hs (by have : majNear (nb k X) y b x * 2 < k - 1 := by exact_mod_cast hc
                 omega)

theorem visRemove_eq {nb : Nat → List Row → Row → List Nat} {k : Nat} {X samples : List Row} {y : List Int} {b : Int}
    (hxy : X.length = y.length) (hnb : NearOK nb) (hk : k ≤ X.length) :
    visRemove nb k X y b samples = .ok (samples.filter (fun x => decide (majNear (nb k X) y b x = 0))) := by
  unfold visRemove
  rw [mapM_ok_of (g := fun x => decide (majNear (nb k X) y b x = 0))]
  · rw [ok_bind, filter_zip_map]; rfl
  · intro x _
    obtain ⟨h1, h2⟩ := hnb k X x hk
    obtain ⟨ls, e1, _, e3⟩ := takeRows_count (y := y) (idx := (nb k X x).drop 1) b (fun j hj => hxy ▸ h2 j (List.mem_of_mem_drop hj))
    rw [e1, ok_bind, e3]
    rfl

theorem visLoop_one {gen : Nat → Nat → Res (List Row)} {n : Nat} {batch : List Row} (hn : 0 < n)
    (hg : gen 0 (max n 10) = .ok batch) (hl : batch.length = max n 10) :
    visLoop gen n (n + 1) 0 [] = .ok (batch.take n) := by
  obtain ⟨m, rfl⟩ : ∃ m, n = m + 1 := ⟨n - 1, by omega⟩
  rw [visLoop, if_pos (by simp)]
  simp only [List.length_nil, Nat.sub_zero]
  rw [hg, ok_bind, visLoop, if_neg (by rw [List.nil_append, hl]; omega), List.nil_append]

theorem zip_zip_map {α β γ : Type} (l : List α) (f : α → β) (g : α → γ) :
    l.zip ((l.map f).zip (l.map g)) = l.map (fun x => (x, f x, g x)) := by
  induction l with
  | nil => rfl
  | cons a l ih => simp [ih]

theorem count_map_kind {α β : Type} [BEq β] [LawfulBEq β] (l : List α) (f : α → β) (b : β) (p : α → Bool) (h : ∀ x ∈ l, (f x == b) = p x) :
    (l.map f).count b = (l.filter p).length := by
  rw [List.count_eq_countP, List.countP_map, List.countP_eq_length_filter]
  congr 1
  apply List.filter_congr
  intro x hx; exact h x hx

/-- One pass: as many rows as drawn positions, each a copied row or a convex combination. -/
theorem visBatch_spec {ss : SSParams} {vol : List Row → ℚ} {dr : Draws} {d : Nat} {M : List Row} {k : Nat} {cd : Bool}
    {kind : Row → VisLab} {nearM : Row → List Nat} {base : List Nat} (hM : ∀ r ∈ M, r.length = d)
    (hnear : ∀ r ∈ M, (nearM r).length = k ∧ ∀ j ∈ nearM r, j < M.length) (hk : 2 ≤ k)
    (hbase : ∀ i ∈ base, i < (M.filter (fun r => !decide (kind r = VisLab.noi))).length)
    (hdr : dr.OK) (hu : ∀ i j, 0 < dr.simplexU i j) (hg : ss.gaussian = .none) (hvol : ∀ vs, 0 ≤ vol vs) (hd : 1 ≤ ss.nDim)
    (hmode : ss.simplexSampling = .random ∨ ss.simplexSampling = .deterministic ∨ (ss.simplexSampling = .volume ∧ ∀ vs, 0 < vol vs))
    (hwi : ss.within = .random ∨ (ss.within = .deterministic ∧ ss.nDim ≤ 2)) :
    let src := M.filter (fun r => !decide (kind r = VisLab.noi) && !(decide (kind r = VisLab.dan) == cd))
    ∃ out, visBatch ss vol dr d M k cd ((M.filter (fun r => !decide (kind r = VisLab.noi))).map (fun r => (r, kind r, nearM r))) base =
        .ok out ∧ out.length = base.length ∧
      ∀ x ∈ out, (x ∈ M ∧ kind x ≠ .noi ∧ (decide (kind x = VisLab.dan) == cd) = true) ∨
        SimplexOf d (min ss.nDim (k - 1)) src M (src.map (fun r => (nearM r).drop 1)) (fun _ => True) x := by
  intro src
  set nnR := M.filter (fun r => !decide (kind r = VisLab.noi)) with hnn
  set T : Row → Row × VisLab × List Nat := fun r => (r, kind r, nearM r) with hT
  obtain ⟨picked, hp⟩ := takeRows_ok_of_lt (X := nnR.map T) (idx := base) (by simpa using hbase)
  have hpm : ∀ p ∈ picked, ∃ r ∈ nnR, T r = p := by
    intro p hpp
    have := takeRows_mem hp hpp
    simpa using this
  have hfrom : (nnR.map T).filter (fun p => !(decide (p.2.1 = VisLab.dan) == cd)) = src.map T := by
    rw [List.filter_map, hnn, List.filter_filter]
    congr 1
    apply List.filter_congr
    intro x _
    rw [Bool.and_comm]; rfl
  have h1 : (src.map T).map (fun p => p.1) = src := by rw [List.map_map]; exact List.map_id' _
  have h2 : (src.map T).map (fun p => p.2.2.drop 1) = src.map (fun r => (nearM r).drop 1) := by rw [List.map_map]; rfl
  have hsrc : ∀ r ∈ src, r ∈ M := fun r hr => (List.mem_filter.1 hr).1
  have key : ∃ tmp, sampleSimplex ss vol dr d src (src.map (fun r => (nearM r).drop 1)) (k - 1)
      (picked.filter (fun p => !(decide (p.2.1 = VisLab.dan) == cd))).length { Xv := some M } = .ok tmp := by
    by_cases hz : (picked.filter (fun p => !(decide (p.2.1 = VisLab.dan) == cd))).length = 0
    · rw [hz]
      exact ⟨[], by unfold sampleSimplex; simp⟩
    · have hne : src ≠ [] := by
        intro he
        obtain ⟨p, hpp⟩ := List.exists_mem_of_length_pos (Nat.pos_of_ne_zero hz)
        rw [List.mem_filter] at hpp
        obtain ⟨r, hr, rfl⟩ := hpm p hpp.1
        have : T r ∈ (nnR.map T).filter (fun p => !(decide (p.2.1 = VisLab.dan) == cd)) :=
          List.mem_filter.2 ⟨List.mem_map.2 ⟨r, hr, rfl⟩, hpp.2⟩
        rw [hfrom, he] at this
        simp at this
      refine sampleSimplex_ok ?_ (by simp) (by simpa using hne) (by omega) hd rfl (by intro ws h; cases h) (by intro h; cases h)
        hmode hdr.1 hu ?_
      · intro row hrow
        rw [List.mem_map] at hrow
        obtain ⟨r, hr, rfl⟩ := hrow
        obtain ⟨a1, a2⟩ := hnear r (hsrc r hr)
        exact ⟨by rw [List.length_drop, a1], fun j hj => a2 j (List.mem_of_mem_drop hj)⟩
      · rcases hwi with h | ⟨h, h'⟩
        · exact Or.inl h
        · exact Or.inr ⟨h, le_trans (Nat.min_le_left _ _) h'⟩
  obtain ⟨tmp, htmp⟩ := key
  obtain ⟨s1, s2⟩ := sampleSimplex_simplexOf (a := { Xv := some M }) (fun r hr => hM r (hsrc r hr))
    (by intro V hV r hr; cases hV; exact hM r hr) rfl (by intro h; cases h) hdr (by simp) hg (by intro w h; cases h) rfl hvol htmp
  refine ⟨(picked.filter (fun p => decide (p.2.1 = VisLab.dan) == cd)).map (fun p => p.1) ++ tmp, ?_, ?_, ?_⟩
  · unfold visBatch
    rw [hp, ok_bind]
    dsimp only
    rw [hfrom, h1, h2, htmp]
    rfl
  · rw [List.length_append, List.length_map, s1, ← takeRows_length hp]
    have := List.length_eq_length_filter_add (l := picked) (fun p => decide (p.2.1 = VisLab.dan) == cd)
    omega
  · intro x hx
    rcases List.mem_append.1 hx with hx | hx
    · rw [List.mem_map] at hx
      obtain ⟨p, hpp, rfl⟩ := hx
      rw [List.mem_filter] at hpp
      obtain ⟨r, hr, rfl⟩ := hpm p hpp.1
      rw [hnn, List.mem_filter] at hr
      exact Or.inl ⟨hr.1, by simpa using hr.2, hpp.2⟩
    · right
      obtain ⟨bb, base', row, nbIdx, nbrs, w, q1, _, q3⟩ := s2 x hx
      exact ⟨bb, base', row, nbIdx, nbrs, w, q1, trivial, q3⟩

theorem majNear_le {near : Row → List Nat} {y : List Int} {b : Int} {x : Row} {k : Nat} (h : (near x).length = k) :
    majNear near y b x ≤ k - 1 := by
  unfold majNear
  refine le_trans (List.length_filter_le _ _) ?_
  rw [List.length_drop, h]

theorem visGenerate_spec {par : NbParams} {nb : Nat → List Row → Row → List Nat} {vol : List Row → ℚ}
    {pick : Nat → Nat → Nat → List Nat} {drs : Nat → Draws} {d n : Nat} {M : List Row} {near : Row → List Nat} {y : List Int} {b : Int}
    {k : Nat} (hM : ∀ r ∈ M, r.length = d) (hnb : NearOK nb) (hp : ∀ t, PickOK (pick t)) (h3 : 2 ≤ M.length) (hN : 1 ≤ par.nNeighbors)
    (hn : 0 < n)
    (hdr : ∀ t, (drs t).OK) (hu : ∀ t i j, 0 < (drs t).simplexU i j) (hg : par.ss.gaussian = .none) (hvol : ∀ vs, 0 ≤ vol vs)
    (hd : 1 ≤ par.ss.nDim)
    (hmode : par.ss.simplexSampling = .random ∨ par.ss.simplexSampling = .deterministic ∨
      (par.ss.simplexSampling = .volume ∧ ∀ vs, 0 < vol vs))
    (hwi : par.ss.within = .random ∨ (par.ss.within = .deterministic ∧ par.ss.nDim ≤ 2)) :
    ∃ out, visGenerate par nb vol pick drs d n M (M.map (visKind near y b k)) = .ok out ∧ out.length = n ∧
      ∀ x ∈ out, VisOrigin d par.ss.nDim (min M.length (par.nNeighbors + 1)) M (nb (min M.length (par.nNeighbors + 1)) M)
        (SafeRow near y b k) (DangerRow near y b k) x := by
  set k' := min M.length (par.nNeighbors + 1) with hk'
  have hk'2 : 2 ≤ k' := by rw [hk']; exact le_min h3 (by omega)
  have hnear : ∀ r ∈ M, (nb k' M r).length = k' ∧ ∀ j ∈ nb k' M r, j < M.length := fun r _ => hnb k' M r (Nat.min_le_left _ _)
  have ksaf : ∀ x, visKind near y b k x = .saf ↔ SafeRow near y b k x := by
    intro x; unfold visKind; split
    · rename_i h; simp [h]
    · rename_i h; split <;> simp [h]
  have kdan : ∀ x, visKind near y b k x = .dan ↔ DangerRow near y b k x := by
    intro x; unfold visKind; split
    · rename_i h; simp [DangerRow, h]
    · rename_i h
      split
      · rename_i h'; simp [DangerRow, h']
      · rename_i h'; simp [DangerRow, h, h']
  have c1 : (M.map (visKind near y b k)).count .saf = (M.filter (fun r => decide (SafeRow near y b k r))).length := by
    apply count_map_kind
    intro x _
    rw [Bool.eq_iff_iff, beq_iff_eq, decide_eq_true_eq]; exact ksaf x
  have c2 : (M.map (visKind near y b k)).count .dan = (M.filter (fun r => decide (DangerRow near y b k r))).length := by
    apply count_map_kind
    intro x _
    rw [Bool.eq_iff_iff, beq_iff_eq, decide_eq_true_eq]; exact kdan x
  unfold visGenerate
  dsimp only
  rw [← hk', c1, c2, zip_zip_map, List.filter_map]
  by_cases hs : ∀ r ∈ M, ¬ SafeRow near y b k r
  · rw [if_pos (by rw [List.length_eq_zero_iff, List.filter_eq_nil_iff]; intro r hr; simpa using hs r hr)]
    obtain ⟨o, ho⟩ := sampleSimplex_ok (ss := par.ss) (vol := vol) (dr := drs 0) (d := d) (X := M) (indices := M.map (nb k' M)) (k := k')
      (n := n) (a := {}) (by
        intro row hrow
        rw [List.mem_map] at hrow
        obtain ⟨r, hr, rfl⟩ := hrow
        exact hnear r hr) (by simp) (by intro he; rw [List.map_eq_nil_iff] at he; subst he; simp at h3) (by omega) hd rfl
        (by intro ws h; cases h) (by intro h; cases h) hmode (hdr 0).1 (hu 0) (by
          rcases hwi with h | ⟨h, h'⟩
          · exact Or.inl h
          · exact Or.inr ⟨h, le_trans (Nat.min_le_left _ _) h'⟩)
    obtain ⟨s1, s2⟩ := sampleSimplex_simplexOf (a := {}) hM (by intro V hV; cases hV) rfl (by intro h; cases h) (hdr 0) (by simp) hg
      (by intro w h; cases h) rfl hvol ho
    refine ⟨o, ho, s1, fun x hx => ?_⟩
    unfold VisOrigin
    rw [if_pos hs]
    obtain ⟨bb, base', row, nbIdx, nbrs, w, q1, _, q3⟩ := s2 x hx
    exact ⟨bb, base', row, nbIdx, nbrs, w, q1, trivial, q3⟩
  · have hs' := hs
    push Not at hs'
    obtain ⟨r0, hr0, hsafe0⟩ := hs'
    have hnn : r0 ∈ M.filter (fun r => !decide (visKind near y b k r = VisLab.noi)) := by
      rw [List.mem_filter]; refine ⟨hr0, ?_⟩
      simp [(ksaf r0).2 hsafe0]
    rw [if_neg (by
      intro he
      rw [List.length_eq_zero_iff, List.filter_eq_nil_iff] at he
      exact he r0 hr0 (by simpa using hsafe0))]
    have hbk := (hp 0) (M.filter (fun r => !decide (visKind near y b k r = VisLab.noi))).length (max n 10) (List.length_pos_of_mem hnn)
    obtain ⟨o, o1, o2, o3⟩ := visBatch_spec (ss := par.ss) (vol := vol) (dr := drs 0) (k := k')
      (cd := decide ((3 / 10 : ℚ) * (M.length : ℚ) < ((M.filter (fun r => decide (DangerRow near y b k r))).length : ℚ)))
      (kind := visKind near y b k) (nearM := nb k' M) hM hnear hk'2 hbk.2 (hdr 0) (hu 0) hg hvol hd hmode hwi
    rw [hbk.1] at o2
    have hloop := visLoop_one (n := n) (batch := o) (gen := fun t q => visBatch par.ss vol (drs t) d M k'
      (decide ((3 / 10 : ℚ) * (M.length : ℚ) < ((M.filter (fun r => decide (DangerRow near y b k r))).length : ℚ)))
      ((M.filter ((fun p => !decide (p.2.1 = VisLab.noi)) ∘ fun x => (x, visKind near y b k x, nb k' M x))).map
        (fun x => (x, visKind near y b k x, nb k' M x)))
      (pick t ((M.filter ((fun p => !decide (p.2.1 = VisLab.noi)) ∘ fun x => (x, visKind near y b k x, nb k' M x))).map
        (fun x => (x, visKind near y b k x, nb k' M x))).length q)) hn
      (by rw [List.length_map]; exact o1) o2
    refine ⟨o.take n, hloop, by rw [List.length_take, o2]; omega, fun x hx => ?_⟩
    have hx := List.mem_of_mem_take hx
    unfold VisOrigin
    rw [if_neg hs]
    have hcd : ((3 / 10 : ℚ) * (M.length : ℚ) < ((M.filter (fun r => decide (DangerRow near y b k r))).length : ℚ)) ↔
        3 * M.length < 10 * (M.filter (fun r => decide (DangerRow near y b k r))).length := by
      generalize (M.filter (fun r => decide (DangerRow near y b k r))).length = q
      rw [div_mul_eq_mul_div, div_lt_iff₀ (by norm_num)]
      constructor
      · intro h
        have : 3 * M.length < q * 10 := by exact_mod_cast h
        omega
      · intro h
        exact_mod_cast (by omega : 3 * M.length < q * 10)
    by_cases hc : 3 * M.length < 10 * (M.filter (fun r => decide (DangerRow near y b k r))).length
    · rw [if_pos hc]
      rw [decide_eq_true (hcd.2 hc)] at o3
      have hsrc : M.filter (fun r => !decide (visKind near y b k r = VisLab.noi) && !(decide (visKind near y b k r = VisLab.dan) == true)) =
          M.filter (fun r => decide (SafeRow near y b k r)) := by
        apply List.filter_congr
        intro r _
        rw [Bool.eq_iff_iff, decide_eq_true_eq, ← ksaf r]
        cases visKind near y b k r <;> simp
      rw [hsrc] at o3
      rcases o3 x hx with ⟨q1, q2, q3⟩ | q
      · exact Or.inl ⟨q1, (kdan x).1 (by simpa using q3)⟩
      · exact Or.inr q
    · rw [if_neg hc]
      rw [decide_eq_false (fun h => hc (hcd.1 h))] at o3
      have hsrc : M.filter (fun r => !decide (visKind near y b k r = VisLab.noi) && !(decide (visKind near y b k r = VisLab.dan) == false)) =
          M.filter (fun r => decide (DangerRow near y b k r)) := by
        apply List.filter_congr
        intro r _
        rw [Bool.eq_iff_iff, decide_eq_true_eq, ← kdan r]
        cases visKind near y b k r <;> simp
      rw [hsrc] at o3
      rcases o3 x hx with ⟨q1, q2, q3⟩ | q
      · refine Or.inl ⟨q1, (ksaf x).1 ?_⟩
        revert q2 q3
        cases visKind near y b k x <;> simp
      · exact Or.inr q

theorem visRelabelled_map {near : Row → List Nat} {f : Row → Row} {X : List Row} {y : List Int} {a b : Int} :
    visRelabelled near (X.map f) y a b = visRelabelled (fun x => near (f x)) X y a b := by
  unfold visRelabelled
  rw [List.zip_map_left, List.map_map]
  rfl

/-- In scaled coordinates: what the steps answer. -/
theorem visSteps_spec {par : NbParams} {nb : Nat → List Row → Row → List Nat} {vol : List Row → ℚ}
    {pick : Nat → Nat → Nat → List Nat} {drs : Nat → Draws} {d n : Nat} {X : List Row} {y : List Int} {a b : Int}
    (hwf : WF d X y) (hab : a ≠ b) (h3 : 2 < y.count a) (hnb : NearOK nb) (hp : ∀ t, PickOK (pick t)) (hN : 1 ≤ par.nNeighbors)
    (hn : 0 < n)
    (hdr : ∀ t, (drs t).OK) (hu : ∀ t i j, 0 < (drs t).simplexU i j) (hg : par.ss.gaussian = .none) (hvol : ∀ vs, 0 ≤ vol vs)
    (hd : 1 ≤ par.ss.nDim)
    (hmode : par.ss.simplexSampling = .random ∨ par.ss.simplexSampling = .deterministic ∨
      (par.ss.simplexSampling = .volume ∧ ∀ vs, 0 < vol vs))
    (hwi : par.ss.within = .random ∨ (par.ss.within = .deterministic ∧ par.ss.nDim ≤ 2)) :
    let k := min X.length (par.nNeighbors + 1)
    let y1 := visRelabelled (nb k X) X y a b
    let M := classRows X y1 a
    let k' := min M.length (par.nNeighbors + 1)
    if y1.count b ≤ y1.count a ∨ ∀ r ∈ M, NoiseRow (nb k X) y1 b k r then
      visSteps par nb vol pick drs d n X y a b = .error .valueError
    else ∃ made : List Row, made.length = n ∧
      (∀ x ∈ made, VisOrigin d par.ss.nDim k' M (nb k' M) (SafeRow (nb k X) y1 b k) (DangerRow (nb k X) y1 b k) x) ∧
      visSteps par nb vol pick drs d n X y a b = .ok (made.filter (fun x => decide (majNear (nb k X) y1 b x = 0)), y1) := by
  intro k y1 M k'
  have hxy := hwf.1
  have hk : k ≤ X.length := Nat.min_le_left _ _
  have hy1 : y1.length = y.length := visRelabelled_length hxy
  have hxy1 : X.length = y1.length := by omega
  have hca : y.count a ≤ y1.count a := visRelabelled_count hxy hab
  have hML : M.length = y1.count a := classRows_length hxy1 a
  have hya : y.count a ≤ y.length := List.count_le_length
  have hk2 : 2 ≤ k := le_min (by omega) (by omega)
  have e0 : visSteps par nb vol pick drs d n X y a b = (do
      let y1 ← visRelabel nb k X y a b
      let Xmin := selectLabel X y1 a
      if y1.count b ≤ y1.count a then throw .valueError
      let labels ← visLabels nb k X y1 b Xmin
      if labels.length ≠ 0 ∧ labels.all (fun l => decide (l = VisLab.noi)) = true then throw .valueError
      let samples ← visGenerate par nb vol pick drs d n Xmin labels
      let kept ← visRemove nb k X y1 b samples
      if (npUnique y1).length = 1 then throw .valueError
      return (kept, y1)) := rfl
  rw [visRelabel_eq hxy hnb hk, ok_bind] at e0
  dsimp only at e0
  by_cases hc : y1.count b ≤ y1.count a
  · rw [if_pos (Or.inl hc), e0, if_pos hc]; rfl
  rw [if_neg hc, selectLabel_eq_classRows, visLabels_eq hxy1 hnb hk] at e0
  rw [ok_bind] at e0
  have hnoi : ((M.map (visKind (nb k X) y1 b k)).length ≠ 0 ∧
      (M.map (visKind (nb k X) y1 b k)).all (fun l => decide (l = VisLab.noi)) = true) ↔ ∀ r ∈ M, NoiseRow (nb k X) y1 b k r := by
    rw [List.length_map, List.all_eq_true]
    simp only [List.mem_map, forall_exists_index, and_imp, forall_apply_eq_imp_iff₂, decide_eq_true_eq]
    constructor
    · rintro ⟨_, h⟩ r hr
      have := h r hr
      unfold visKind at this
      split at this
      · cases this
      · split at this
        · rename_i h'; exact h'
        · cases this
    · intro h
      refine ⟨by omega, fun r hr => ?_⟩
      have h1 := h r hr
      unfold visKind
      rw [if_neg (by dsimp only [SafeRow, NoiseRow] at h1 ⊢; omega), if_pos h1]
  by_cases hall : ∀ r ∈ M, NoiseRow (nb k X) y1 b k r
  · rw [if_pos (Or.inr hall), e0, if_pos (hnoi.2 hall)]; rfl
  rw [if_neg (fun h => h.elim hc hall)]
  rw [if_neg (fun h => hall (hnoi.1 h))] at e0
  obtain ⟨o, o1, o2, o3⟩ := visGenerate_spec (par := par) (nb := nb) (vol := vol) (pick := pick) (drs := drs) (d := d) (n := n) (M := M)
    (near := nb k X) (y := y1) (b := b) (k := k) (fun r hr => hwf.2 r (mem_of_mem_classRows hr)) hnb hp (by omega) hN hn hdr hu hg
    hvol hd hmode hwi
  rw [o1, ok_bind, visRemove_eq hxy1 hnb hk, ok_bind, if_neg] at e0
  · exact ⟨o, o2, o3, e0⟩
  · intro h1
    have ha : a ∈ npUnique y1 := mem_npUnique.2 (List.count_pos_iff.1 (by omega))
    have hb : b ∈ npUnique y1 := mem_npUnique.2 (List.count_pos_iff.1 (by omega))
    obtain ⟨z, hz⟩ := List.length_eq_one_iff.1 h1
    rw [hz] at ha hb
    simp at ha hb
    exact hab (by rw [ha, hb])

theorem VisOrigin.unscale {d nDim k : Nat} {m s : Row} {M : List Row} {nearM : Row → List Nat} {S D : Row → Prop} [DecidablePred S]
    [DecidablePred D] {x : Row} (hm : m.length = d) (hs : s.length = d) (hpos : ∀ x ∈ s, 0 < x) (hM : ∀ r ∈ M, r.length = d)
    (h : VisOrigin d nDim k (M.map (scaleRow m s)) nearM S D x) :
    VisOrigin d nDim k M (fun r => nearM (scaleRow m s r)) (fun r => S (scaleRow m s r)) (fun r => D (scaleRow m s r))
      (unscaleRow m s x) := by
  unfold VisOrigin at h ⊢
  have hf : ∀ (P : Row → Prop) [DecidablePred P], (M.map (scaleRow m s)).filter (fun r => decide (P r)) =
      (M.filter (fun r => decide (P (scaleRow m s r)))).map (scaleRow m s) := by
    intro P _; rw [List.filter_map]; rfl
  have hcopy : ∀ P : Row → Prop, (x ∈ M.map (scaleRow m s) ∧ P x) → unscaleRow m s x ∈ M ∧ P (scaleRow m s (unscaleRow m s x)) := by
    rintro P ⟨h1, h2⟩
    rw [List.mem_map] at h1
    obtain ⟨r, hr, rfl⟩ := h1
    rw [unscale_scale hm hs hpos (hM r hr)]
    exact ⟨hr, h2⟩
  have hsub : ∀ P : Row → Bool, ∀ r ∈ M.filter P, r.length = d := fun P r hr => hM r (List.mem_filter.1 hr).1
  rw [hf, hf, List.length_map, List.length_map] at h
  simp only [List.map_map] at h
  by_cases hsafe : ∀ r ∈ M, ¬ S (scaleRow m s r)
  · rw [if_pos (by
      intro r hr; rw [List.mem_map] at hr; obtain ⟨q, hq, rfl⟩ := hr; exact hsafe q hq)] at h
    rw [if_pos hsafe]
    exact h.unscale hm hs hpos hM hM
  · rw [if_neg (fun hc => hsafe (fun r hr => hc _ (List.mem_map.2 ⟨r, hr, rfl⟩)))] at h
    rw [if_neg hsafe]
    split at h
    · rename_i hc
      rw [if_pos hc]
      exact h.imp (hcopy D) (fun q => SimplexOf.unscale hm hs hpos (hsub _) hM q)
    · rename_i hc
      rw [if_neg hc]
      exact h.imp (hcopy S) (fun q => SimplexOf.unscale hm hs hpos (hsub _) hM q)

/-! ## The property -/

/-- **VIS_RST**: distances are those of the standardised rows. A majority row with a minority row among its neighbours is turned into
a minority row, for the generation and in the output. If then there are no more majority than minority rows, or all neighbours of
every minority row are majority rows, the input comes back. Otherwise as many rows as the original labels request are made: copies
and convex combinations of (new and old) minority rows; those with a majority row among their neighbours behind the first one are
dropped, and the others are appended. -/
theorem C65_vis {par : NbParams} {fitScaler : List Row → Row × Row} {nb : Nat → List Row → Row → List Nat} {vol : List Row → ℚ}
    {pick : Nat → Nat → Nat → List Nat} {drs : Nat → Draws} {d : Nat} {X : List Row} {y : List Int} {a b : Int}
    (hwf : WF d X y) (hmin : IsMinority y a b) (h3 : 2 < y.count a)
    (hn : 0 < requested par.proportion (y.count b) (y.count a)) (hnb : NearOK nb) (hp : ∀ t, PickOK (pick t)) (hN : 1 ≤ par.nNeighbors)
    (hm : (fitScaler X).1.length = d) (hsc : (fitScaler X).2.length = d) (hpos : ∀ x ∈ (fitScaler X).2, 0 < x)
    (hdr : ∀ t, (drs t).OK) (hu : ∀ t i j, 0 < (drs t).simplexU i j) (hg : par.ss.gaussian = .none) (hvol : ∀ vs, 0 ≤ vol vs)
    (hd : 1 ≤ par.ss.nDim)
    (hmode : par.ss.simplexSampling = .random ∨ par.ss.simplexSampling = .deterministic ∨
      (par.ss.simplexSampling = .volume ∧ ∀ vs, 0 < vol vs))
    (hwi : par.ss.within = .random ∨ (par.ss.within = .deterministic ∧ par.ss.nDim ≤ 2)) :
    let scale := scaleRow (fitScaler X).1 (fitScaler X).2
    let k := min X.length (par.nNeighbors + 1)
    let near := fun x => nb k (X.map scale) (scale x)
    let y1 := visRelabelled near X y a b
    let M := classRows X y1 a
    let k' := min M.length (par.nNeighbors + 1)
    if y1.count b ≤ y1.count a ∨ ∀ r ∈ M, NoiseRow near y1 b k r then
      sample defaultChecks d (visAlg par fitScaler nb vol pick drs d) X y = .ok (X, y)
    else ∃ made new : List Row, made.length = requested par.proportion (y.count b) (y.count a) ∧
      (∀ x ∈ made, VisOrigin d par.ss.nDim k' M (fun x => nb k' (M.map scale) (scale x)) (SafeRow near y1 b k) (DangerRow near y1 b k) x) ∧
      new = made.filter (fun x => decide (majNear near y1 b x = 0)) ∧
      sample defaultChecks d (visAlg par fitScaler nb vol pick drs d) X y = .ok (X ++ new, y1 ++ List.replicate new.length a) := by
  intro scale k near y1 M k'
  obtain ⟨s, hs, rfl, rfl⟩ := stats_of_isMinority hmin
  obtain ⟨hm', hM', hab⟩ := stats_min_mem hs
  have e : sample defaultChecks d (visAlg par fitScaler nb vol pick drs d) X y =
      (match visSteps par nb vol pick drs d (requested par.proportion (y.count s.majLabel) (y.count s.minLabel)) (X.map scale) y
        s.minLabel s.majLabel with
      | .error .valueError => .ok (X, y)
      | .error e => .error e
      | .ok r => .ok ((X.map scale ++ r.1).map (unscaleRow (fitScaler X).1 (fitScaler X).2),
          r.2 ++ List.replicate r.1.length s.minLabel)) := by
    rw [sample_default hs, if_neg (by omega)]
    unfold visAlg
    rw [stats_count hs hm', stats_count hs hM', detN_eq_requested, ok_bind, if_neg (by omega)]
    rfl
  have hlen : ∀ r ∈ X, r.length = d := hwf.2
  have hwf' : WF d (X.map scale) y := by
    refine ⟨by rw [List.length_map]; exact hwf.1, ?_⟩
    intro r hr
    rw [List.mem_map] at hr
    obtain ⟨q, hq, rfl⟩ := hr
    exact scaleRow_length hm hsc (hlen q hq)
  have core := visSteps_spec (par := par) (nb := nb) (vol := vol) (pick := pick) (drs := drs) hwf' hab h3 hnb hp hN hn hdr hu hg hvol hd
    hmode hwi
  dsimp only at core
  rw [visRelabelled_map, List.length_map, ← selectLabel_eq_classRows, selectLabel_map, selectLabel_eq_classRows, List.length_map] at core
  change if y1.count s.majLabel ≤ y1.count s.minLabel ∨ ∀ r ∈ M.map scale, NoiseRow (nb k (X.map scale)) y1 s.majLabel k r then
      visSteps par nb vol pick drs d (requested par.proportion (y.count s.majLabel) (y.count s.minLabel)) (X.map scale) y
        s.minLabel s.majLabel = .error .valueError
    else ∃ made : List Row, made.length = requested par.proportion (y.count s.majLabel) (y.count s.minLabel) ∧
      (∀ x ∈ made, VisOrigin d par.ss.nDim k' (M.map scale) (nb k' (M.map scale))
        (SafeRow (nb k (X.map scale)) y1 s.majLabel k) (DangerRow (nb k (X.map scale)) y1 s.majLabel k) x) ∧
      visSteps par nb vol pick drs d (requested par.proportion (y.count s.majLabel) (y.count s.minLabel)) (X.map scale) y
        s.minLabel s.majLabel = .ok (made.filter (fun x => decide (majNear (nb k (X.map scale)) y1 s.majLabel x = 0)), y1) at core
  have hMd : ∀ r ∈ M, r.length = d := fun r hr => hlen r (mem_of_mem_classRows hr)
  have hnoise : (∀ r ∈ M.map scale, NoiseRow (nb k (X.map scale)) y1 s.majLabel k r) ↔ ∀ r ∈ M, NoiseRow near y1 s.majLabel k r := by
    constructor
    · intro h r hr; exact h _ (List.mem_map.2 ⟨r, hr, rfl⟩)
    · intro h r hr
      rw [List.mem_map] at hr
      obtain ⟨q, hq, rfl⟩ := hr
      exact h q hq
  split at core
  · rename_i hc
    rw [if_pos (hc.imp_right hnoise.1), e, core]
  · rename_i hc
    rw [if_neg (fun h => hc (h.imp_right hnoise.2))]
    obtain ⟨made, c1, c2, c3⟩ := core
    have hmd : ∀ x ∈ made, x.length = d := by
      intro x hx
      have hMs : ∀ r ∈ M.map scale, r.length = d := by
        intro r hr
        rw [List.mem_map] at hr
        obtain ⟨q, hq, rfl⟩ := hr
        exact scaleRow_length hm hsc (hMd q hq)
      have hsim : ∀ {nD A T}, SimplexOf d nD A (M.map scale) T (fun _ => True) x → x.length = d := by
        rintro nD A T ⟨_, _, _, _, _, w, _, _, _, _, _, _, _, _, _, hl, _⟩
        exact hl
      have := c2 x hx
      unfold VisOrigin at this
      split at this
      · exact hsim this
      · split at this
        · exact this.elim (fun q => hMs x q.1) hsim
        · exact this.elim (fun q => hMs x q.1) hsim
    refine ⟨made.map (unscaleRow (fitScaler X).1 (fitScaler X).2), _, by rw [List.length_map, c1], ?_, rfl, ?_⟩
    · intro x hx
      rw [List.mem_map] at hx
      obtain ⟨z, hz, rfl⟩ := hx
      exact (c2 z hz).unscale hm hsc hpos hMd
    · rw [e, c3]
      dsimp only
      have hf : (made.map (unscaleRow (fitScaler X).1 (fitScaler X).2)).filter (fun x => decide (majNear near y1 s.majLabel x = 0)) =
          (made.filter (fun x => decide (majNear (nb k (X.map scale)) y1 s.majLabel x = 0))).map
            (unscaleRow (fitScaler X).1 (fitScaler X).2) := by
        rw [List.filter_map]
        congr 1
        apply List.filter_congr
        intro x hx
        have h1 : scale (unscaleRow (fitScaler X).1 (fitScaler X).2 x) = x := scale_unscale hm hsc hpos (hmd x hx)
        have h2 : near (unscaleRow (fitScaler X).1 (fitScaler X).2 x) = nb k (X.map scale) x := by
          show nb k (X.map scale) (scale _) = _
          rw [h1]
        simp only [Function.comp_apply]
        unfold majNear
        rw [h2]
      rw [hf, List.map_append, List.map_map, List.length_map]
      congr 2
      congr 1
      conv_rhs => rw [← List.map_id X]
      apply List.map_congr_left
      intro r hr
      exact unscale_scale hm hsc hpos (hlen r hr)

/-- No label of the data changes exactly if no majority row has another row than majority rows among its neighbours. -/
theorem C65_unchanged {near : Row → List Nat} {X : List Row} {y : List Int} {a b : Int} (hxy : X.length = y.length) (hab : a ≠ b) :
    visRelabelled near X y a b = y ↔ ∀ r ∈ classRows X y b, ∀ j ∈ near r, y[j]? = some b := by
  have hz : y = (X.zip y).map Prod.snd := by rw [List.map_snd_zip (by omega)]
  have h0 : visRelabelled near X y a b = y ↔ (X.zip y).map (fun (p : Row × Int) =>
      if p.2 = b ∧ ∃ j ∈ near p.1, y[j]? ≠ some b then a else p.2) = (X.zip y).map Prod.snd := by
    conv_lhs => rhs; rw [hz]
    rfl
  rw [h0, List.map_inj_left]
  constructor
  · intro h r hr j hj
    by_contra hc
    have := h (r, b) (mem_classRows.1 hr)
    rw [if_pos ⟨rfl, j, hj, hc⟩] at this
    exact hab this
  · rintro h ⟨r, l⟩ hp
    dsimp only
    rw [if_neg]
    rintro ⟨rfl, j, hj, hc⟩
    exact hc (h r (mem_classRows.2 hp) j hj)

/-! ## A concrete data set -/

/-- Three minority rows, a majority row next to them and ten majority rows elsewhere. -/
def viX : List Row := [[0], [1], [2], [3], [10], [11], [12], [13], [14], [15], [16], [17], [18], [19]]
def viY : List Int := [1, 1, 1, 0, 0, 0, 0, 0, 0, 0, 0, 0, 0, 0]
def viNb (k : Nat) (X : List Row) (x : Row) : List Nat := nearestTo X k x
def viRun : Res (List Row × List Int) :=
  sample defaultChecks 1 (visAlg (clPar 2) (fun _ => ([0], [1])) viNb (fun _ => 1) (fun _ => clPick) (fun _ => exDraws) 1) viX viY

theorem viNb_ok : NearOK viNb := by
  intro k X q hk
  have := (bruteQuery_ok k X [q] hk).2
  exact this (nearestTo X k q) (by simp [bruteQuery])

/-- **VIS_RST does not keep the labels of the training data**: the row `[3]` was a majority row and is a minority row in the output,
and the minority, which was to be as large as the majority, is larger. -/
theorem C65_label_lost : ∃ X' y', viRun = .ok (X', y') ∧ X'.take viX.length = viX ∧
    y'.take viX.length = [1, 1, 1, 1, 0, 0, 0, 0, 0, 0, 0, 0, 0, 0] ∧ y'.take viX.length ≠ viY ∧
    y'.count 1 = 12 ∧ y'.count 0 = 10 ∧ viY.count 0 = 11 := by
  refine ⟨viX ++ [[1], [2], [3], [0], [1], [2], [3], [0]], [1, 1, 1, 1, 0, 0, 0, 0, 0, 0, 0, 0, 0, 0] ++ List.replicate 8 1,
    by decide +kernel, by decide +kernel, by decide, by decide, by decide, by decide, by decide⟩

example : WF 1 viX viY ∧ IsMinority viY 1 0 ∧ 2 < viY.count 1 ∧ 0 < requested (clPar 2).proportion (viY.count 0) (viY.count 1) ∧
    NearOK viNb ∧ (∀ _ : Nat, PickOK clPick) ∧ exDraws.OK ∧ (∀ i j, 0 < exDraws.simplexU i j) ∧ (clPar 2).ss.gaussian = .none ∧
    ¬ ((visRelabelled (fun x => viNb 3 viX x) viX viY 1 0).count 0 ≤ (visRelabelled (fun x => viNb 3 viX x) viX viY 1 0).count 1) :=
  ⟨⟨by decide, by decide +kernel⟩, ⟨by decide, by decide, by decide, Or.inl (by decide)⟩, by decide, by decide +kernel, viNb_ok,
    fun _ => clPick_ok, exDraws_ok, by intro i j; simp only [exDraws]; positivity, rfl, by decide +kernel⟩

end Verif

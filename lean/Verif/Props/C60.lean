import Verif.Model.Cure
import Verif.Props.C35
import Verif.Props.C54
import Verif.Props.C59

/-!
# C60: CURE_SMOTE clusters the minority by single linkage and samples around the means of the clusters
-/

namespace Verif

/-! ## Specification -/

/-- No two points of different clusters are closer than the closest points of the clusters `a` and `b`. -/
def ClosestPair (D : Nat → Nat → ℚ) (cl : List (List Nat)) (a b : Nat) : Prop :=
  ∃ p ∈ cl.getD a [], ∃ q ∈ cl.getD b [], ∀ i j, i < cl.length → j < cl.length → i ≠ j →
    ∀ p' ∈ cl.getD i [], ∀ q' ∈ cl.getD j [], D p q ≤ D p' q'

/-- A smallest cluster is dropped. -/
def DropSmallest (cl cl' : List (List Nat)) : Prop :=
  ∃ r, r < cl.length ∧ (∀ c ∈ cl, (cl.getD r []).length ≤ c.length) ∧ cl' = cl.eraseIdx r

/-- Two closest clusters are joined; the only cluster left is dropped. -/
def JoinClosest (D : Nat → Nat → ℚ) (cl cl' : List (List Nat)) : Prop :=
  (cl.length = 1 ∧ cl' = []) ∨
  ∃ a b, a < cl.length ∧ b < cl.length ∧ a ≠ b ∧ ClosestPair D cl a b ∧
    cl' = (cl.set a (cl.getD a [] ++ cl.getD b [])).eraseIdx b

/-- While there are more than `nC` clusters: in every `nC`-th round a smallest cluster is dropped, then two closest clusters are
joined. `it` rounds have been made. -/
inductive CureRun (D : Nat → Nat → ℚ) (nC : Nat) : Nat → List (List Nat) → List (List Nat) → Prop
  | stop {it : Nat} {cl : List (List Nat)} : cl.length ≤ nC → CureRun D nC it cl cl
  | round {it : Nat} {cl cl1 cl2 cl' : List (List Nat)} : nC < cl.length →
      (if (it + 1) % nC = 0 then DropSmallest cl cl1 else cl1 = cl) → JoinClosest D cl1 cl2 → CureRun D nC (it + 1) cl2 cl' →
      CureRun D nC it cl cl'

/-- `x` is a convex combination of the mean of the rows and of `nDim - 1` different ones of them (all of them, if there are
fewer). -/
def AroundMean (d nDim : Nat) (rows : List Row) (x : Row) : Prop :=
  ∃ (m : Row) (nbIdx : List Nat) (nbrs : List Row) (w : List ℚ), IsMean d rows m ∧ nbIdx.Nodup ∧
    nbIdx.length + 1 = min nDim (rows.length + 1) ∧ List.Forall₂ (fun i r => rows[i]? = some r) nbIdx nbrs ∧
    IsConvexComb d w (m :: nbrs) x

/-- The clusters are non-empty, disjoint sets of positions below `N`. -/
def DisjointClusters (N : Nat) (cl : List (List Nat)) : Prop :=
  cl.flatten.Nodup ∧ (∀ p ∈ cl.flatten, p < N) ∧ ∀ c ∈ cl, c ≠ []

/-- Contract of `choice(l)`: an entry of the list. -/
def SmallOK (small : Nat → List Nat → Nat) : Prop := ∀ i l, l ≠ [] → small i l ∈ l

/-! ## The loop -/

theorem eraseIdx_getD (cl : List (List Nat)) (r i : Nat) : (cl.eraseIdx r).getD i [] = cl.getD (skipIdx r i) [] := by
  rw [List.getD_eq_getElem?_getD, List.getElem?_eraseIdx, List.getD_eq_getElem?_getD]
  unfold skipIdx
  split <;> rfl

theorem mem_smallestClusters {cl : List (List Nat)} {i : Nat} :
    i ∈ smallestClusters cl ↔ i < cl.length ∧ ∀ c ∈ cl, (cl.getD i []).length ≤ c.length := by
  unfold smallestClusters
  rw [List.mem_filter, List.mem_range, List.all_eq_true]
  simp

theorem smallestClusters_ne_nil {cl : List (List Nat)} (hne : cl ≠ []) : smallestClusters cl ≠ [] := by
  have hex : ∃ i, i < cl.length ∧ ∀ c ∈ cl, (cl.getD i []).length ≤ c.length := by
    have key : ∀ cl : List (List Nat), cl ≠ [] → ∃ c ∈ cl, ∀ c' ∈ cl, c.length ≤ c'.length := by
      intro cl
      induction cl with
      | nil => intro h; exact absurd rfl h
      | cons c cl ih =>
        intro _
        by_cases h : cl = []
        · subst h; exact ⟨c, by simp, by simp⟩
        · obtain ⟨e, he, he'⟩ := ih h
          by_cases hc : c.length ≤ e.length
          · refine ⟨c, by simp, ?_⟩
            intro c' hc'
            rcases List.mem_cons.1 hc' with rfl | hc'
            · exact le_refl _
            · exact hc.trans (he' c' hc')
          · refine ⟨e, by simp [he], ?_⟩
            intro c' hc'
            rcases List.mem_cons.1 hc' with rfl | hc'
            · omega
            · exact he' c' hc'
    obtain ⟨c, hc, h⟩ := key cl hne
    obtain ⟨i, hi, rfl⟩ := getD_of_mem hc
    exact ⟨i, hi, h⟩
  obtain ⟨i, hi⟩ := hex
  exact List.ne_nil_of_mem (mem_smallestClusters.2 hi)

structure CInv (N : Nat) (D : Nat → Nat → ℚ) (cl : List (List Nat)) (m : DMat) : Prop where
  disjoint : DisjointClusters N cl
  size : cl.length = m.n
  diag : m.DiagInf
  real : Realised D cl m
  below : LinkBelow D cl m

theorem CInv.start (N : Nat) (D : Nat → Nat → ℚ) : CInv N D (singletons N) (DMat.start N D) where
  disjoint := by
    refine ⟨?_, ?_, (MInv.start N D).nonempty⟩
    · rw [singletons_flatten]; exact List.nodup_range
    · intro p hp; rw [singletons_flatten] at hp; exact List.mem_range.1 hp
  size := (MInv.start N D).size
  diag := (MInv.start N D).diag
  real := realised_start N D
  below := below_start N D

theorem DisjointClusters.erase {N : Nat} {cl : List (List Nat)} (h : DisjointClusters N cl) (r : Nat) :
    DisjointClusters N (cl.eraseIdx r) := by
  have hs : (cl.eraseIdx r).Sublist cl := List.eraseIdx_sublist _ _
  exact ⟨h.1.sublist hs.flatten, fun p hp => h.2.1 p (hs.flatten.subset hp), fun c hc => h.2.2 c (hs.subset hc)⟩

theorem DisjointClusters.merge {N : Nat} {cl : List (List Nat)} (h : DisjointClusters N cl) {a b : Nat} (ha : a < cl.length)
    (hb : b < cl.length) (hab : a ≠ b) : DisjointClusters N (mergeClusters cl a b) := by
  have hp := mergeClusters_perm ha hb hab
  refine ⟨hp.nodup_iff.2 h.1, fun p hq => h.2.1 p (hp.mem_iff.1 hq), ?_⟩
  intro c hc
  unfold mergeClusters at hc
  have hc := List.mem_of_mem_eraseIdx hc
  rcases List.mem_or_eq_of_mem_set hc with hc | rfl
  · exact h.2.2 c hc
  · have := h.2.2 cl[a] (List.getElem_mem ha)
    simp [List.getD_eq_getElem?_getD, ha, this]

theorem CInv.delete {N : Nat} {D : Nat → Nat → ℚ} {cl : List (List Nat)} {m : DMat} (h : CInv N D cl m) {r : Nat} (hr : r < m.n) :
    CInv N D (cl.eraseIdx r) (m.delete r) where
  disjoint := h.disjoint.erase r
  size := by
    rw [List.length_eraseIdx_of_lt (by rw [h.size]; exact hr), h.size]; rfl
  diag := fun i => h.diag _
  real := by
    intro i j hi hj hij x hx
    rw [eraseIdx_getD, eraseIdx_getD]
    exact h.real _ _ (skipIdx_lt hr hi) (skipIdx_lt hr hj) (fun e => hij (skipIdx_inj e)) x hx
  below := by
    intro i j hi hj hij
    rw [eraseIdx_getD, eraseIdx_getD]
    exact h.below _ _ (skipIdx_lt hr hi) (skipIdx_lt hr hj) (fun e => hij (skipIdx_inj e))

theorem CInv.merge {N : Nat} {D : Nat → Nat → ℚ} (hD : ∀ p q, D p q = D q p) {cl : List (List Nat)} {m : DMat}
    (h : CInv N D cl m) {a b : Nat} (ha : a < m.n) (hb : b < m.n) (hab : a ≠ b) :
    CInv N D (mergeClusters cl a b) (m.merge a b) where
  disjoint := h.disjoint.merge (by rw [h.size]; exact ha) (by rw [h.size]; exact hb) hab
  size := by rw [mergeClusters_length (by rw [h.size]; exact hb), h.size]; rfl
  diag := DMat.merge_diag m a b
  real := h.real.merge hD h.size ha hb
  below := h.below.merge hD h.size ha hb

theorem CInv.empty (N : Nat) (D : Nat → Nat → ℚ) (m : DMat) (hn : m.n = 0) (hd : m.DiagInf) : CInv N D [] m where
  disjoint := ⟨by simp, by simp, by simp⟩
  size := by rw [hn]; rfl
  diag := hd
  real := by intro i j hi; omega
  below := by intro i j hi; omega

/-- One joining. -/
theorem CInv.join {N : Nat} {D : Nat → Nat → ℚ} (hD : ∀ p q, D p q = D q p) {cl : List (List Nat)} {m : DMat}
    (h : CInv N D cl m) (hpos : 0 < m.n) :
    ∃ v p, m.min = .ok v ∧ m.firstAt v = .ok p ∧ JoinClosest D cl (mergeClusters cl p.1 p.2) ∧
      CInv N D (mergeClusters cl p.1 p.2) (m.merge p.1 p.2) ∧ (mergeClusters cl p.1 p.2).length + 1 = cl.length := by
  obtain ⟨v, hv⟩ := DMat.min_ok hpos
  by_cases h1 : m.n = 1
  · obtain ⟨p, hp⟩ := firstAt_min_ok hpos hv
    obtain ⟨p1, p2, _⟩ := DMat.firstAt_spec hp
    have hcl : cl.length = 1 := by rw [h.size]; exact h1
    obtain ⟨c, rfl⟩ : ∃ c, cl = [c] := List.length_eq_one_iff.1 hcl
    have e1 : p.1 = 0 := by omega
    have e2 : p.2 = 0 := by omega
    have he : mergeClusters [c] p.1 p.2 = [] := by rw [e1, e2]; simp [mergeClusters]
    refine ⟨v, p, hv, hp, Or.inl ⟨hcl, he⟩, ?_, by rw [he]; rfl⟩
    rw [he]
    exact CInv.empty N D _ (by show m.n - 1 = 0; omega) (DMat.merge_diag m _ _)
  · cases v with
    | none =>
      obtain ⟨x, hx, _⟩ := h.below 0 1 (by omega) (by omega) (by omega)
      rw [DMat.min_none hv 0 1 (by omega) (by omega)] at hx
      simp at hx
    | some x =>
      obtain ⟨p, hp, p1, p2, p3, p4⟩ := minPair hv h.diag
      refine ⟨some x, p, hv, hp, Or.inr ⟨p.1, p.2, by rw [h.size]; exact p1, by rw [h.size]; exact p2, p3, ?_, rfl⟩,
        h.merge hD p1 p2 p3, ?_⟩
      · obtain ⟨u, hu, w, hw, e⟩ := h.real _ _ p1 p2 p3 x p4
        refine ⟨u, hu, w, hw, ?_⟩
        intro i j hi hj hij p' hp' q' hq'
        rw [h.size] at hi hj
        obtain ⟨z, hz, hz'⟩ := h.below i j hi hj hij
        rw [e]
        exact ((DMat.min_some hv).2 i j hi hj z hz).trans (hz' p' hp' q' hq')
      · rw [mergeClusters_length (by rw [h.size]; exact p2), h.size]
        omega

theorem cureLoop_end {N nC : Nat} {D : Nat → Nat → ℚ} (hD : ∀ p q, D p q = D q p) {small : Nat → List Nat → Nat}
    (hs : SmallOK small) (hnC : 1 ≤ nC) :
    ∀ fuel it cl m, CInv N D cl m → cl.length < fuel →
      ∃ cl', cureLoop nC small fuel it cl m = .ok (some cl') ∧ CureRun D nC it cl cl' ∧ DisjointClusters N cl' := by
  intro fuel
  induction fuel with
  | zero => intro it cl m _ hf; omega
  | succ f ih =>
    intro it cl m hI hf
    rw [cureLoop]
    by_cases hstop : cl.length ≤ nC
    · rw [if_pos hstop]
      exact ⟨cl, rfl, .stop hstop, hI.disjoint⟩
    rw [if_neg hstop]
    dsimp only
    have hsz := hI.size
    by_cases hdrop : (it + 1) % nC = 0
    · rw [decide_eq_true hdrop, if_pos rfl, if_pos rfl]
      obtain ⟨r1, r2⟩ := mem_smallestClusters.1 (hs it _ (smallestClusters_ne_nil (cl := cl) (by
        intro h0; rw [h0] at hstop; simp at hstop)))
      set r := small it (smallestClusters cl) with hr
      have hI' := hI.delete (r := r) (by omega)
      obtain ⟨v, p, hv, hp, hj, hI2, hl⟩ := hI'.join hD (by show 0 < m.n - 1; omega)
      rw [hv, ok_bind, hp, ok_bind]
      rw [List.length_eraseIdx_of_lt r1] at hl
      obtain ⟨cl', h1, h2, h3⟩ := ih (it + 1) _ _ hI2 (by omega)
      exact ⟨cl', h1, .round (by omega) (by rw [if_pos hdrop]; exact ⟨r, r1, r2, rfl⟩) hj h2, h3⟩
    · rw [decide_eq_false hdrop, if_neg (by simp), if_neg (by simp)]
      obtain ⟨v, p, hv, hp, hj, hI2, hl⟩ := hI.join hD (by omega)
      rw [hv, ok_bind, hp, ok_bind]
      obtain ⟨cl', h1, h2, h3⟩ := ih (it + 1) _ _ hI2 (by omega)
      exact ⟨cl', h1, .round (by omega) (by rw [if_neg hdrop]) hj h2, h3⟩

/-- The loop of CURE_SMOTE ends, and is the agglomeration described by the specification. -/
theorem C60_clustering {nC noiseTh : Nat} {small : Nat → List Nat → Nat} {dist : Row → Row → ℚ} {A : List Row}
    (hsym : ∀ p q, dist p q = dist q p) (hs : SmallOK small) (hnC : 1 ≤ nC) :
    ∃ final, cureClusters nC noiseTh small dist A = .ok (final.filter (fun c => decide (noiseTh ≤ c.length))) ∧
      CureRun (fun i j => dist (A.getD i []) (A.getD j [])) nC 0 (singletons A.length) final ∧ DisjointClusters A.length final := by
  obtain ⟨final, h1, h2, h3⟩ := cureLoop_end (N := A.length) (D := fun i j => dist (A.getD i []) (A.getD j []))
    (fun p q => hsym _ _) hs hnC (A.length + 1) 0 _ _ (CInv.start _ _) (by simp [singletons])
  refine ⟨final, ?_, h2, h3⟩
  unfold cureClusters
  rw [h1, ok_bind]
  show Except.ok _ = _
  congr 1
  apply List.filter_congr
  intro c _
  by_cases h : c.length < noiseTh
  · simp [h]
  · simp [h, not_lt.1 h]

theorem DropSmallest.length {cl cl' : List (List Nat)} (h : DropSmallest cl cl') : cl'.length + 1 = cl.length := by
  obtain ⟨r, hr, _, rfl⟩ := h
  rw [List.length_eraseIdx_of_lt hr]; omega

theorem JoinClosest.length {D : Nat → Nat → ℚ} {cl cl' : List (List Nat)} (h : JoinClosest D cl cl') : cl'.length + 1 = cl.length := by
  rcases h with ⟨h, rfl⟩ | ⟨a, b, ha, hb, _, _, rfl⟩
  · rw [h]; rfl
  · rw [List.length_eraseIdx_of_lt (by simpa using hb), List.length_set]; omega

theorem CureRun.length_le {D : Nat → Nat → ℚ} {nC it : Nat} {cl cl' : List (List Nat)} (h : CureRun D nC it cl cl') :
    cl'.length ≤ nC := by
  induction h with
  | stop h => exact h
  | round _ _ _ _ ih => exact ih

/-- With at least two clusters asked for, at least one is left. -/
theorem CureRun.nonempty {D : Nat → Nat → ℚ} {nC it : Nat} {cl cl' : List (List Nat)} (hnC : 2 ≤ nC) (h : CureRun D nC it cl cl')
    (hne : cl ≠ []) : cl' ≠ [] := by
  induction h with
  | stop h => exact hne
  | @round it cl cl1 cl2 cl' h1 h2 h3 _ ih =>
    apply ih
    have := h3.length
    split at h2
    · have := h2.length
      intro h0
      have : cl2.length = 0 := by rw [h0]; rfl
      omega
    · subst h2
      intro h0
      have : cl2.length = 0 := by rw [h0]; rfl
      omega

/-- With one cluster asked for, one is left if the number of points is odd, none if it is even. -/
theorem CureRun.one {D : Nat → Nat → ℚ} {it : Nat} {cl cl' : List (List Nat)} (h : CureRun D 1 it cl cl') :
    cl'.length = cl.length % 2 := by
  generalize hn : (1 : Nat) = nC at h
  induction h with
  | stop h => omega
  | @round it cl cl1 cl2 cl' h1 h2 h3 _ ih =>
    have e := h3.length
    subst hn
    rw [if_pos (Nat.mod_one _)] at h2
    have := h2.length
    omega

/-! ## Sampling -/

theorem scale_unscale {d : Nat} {m s r : Row} (hm : m.length = d) (hs : s.length = d) (hpos : ∀ x ∈ s, 0 < x) (hr : r.length = d) :
    scaleRow m s (unscaleRow m s r) = r := by
  have hu := unscaleRow_length hm hs hr
  refine row_ext (scaleRow_length hm hs hu) hr (fun k hk => ?_)
  rw [scaleRow_getD hm hs hu hk, unscaleRow_getD hm hs hr hk]
  have : 0 < s.getD k 0 := by
    rw [List.getD_eq_getElem?_getD, List.getElem?_eq_getElem (by omega)]
    exact hpos _ (List.getElem_mem _)
  field_simp
  ring

theorem IsMean.unscale {d : Nat} {m s x : Row} {rows : List Row} (hm : m.length = d) (hs : s.length = d) (hpos : ∀ x ∈ s, 0 < x)
    (hr : ∀ r ∈ rows, r.length = d) (h : IsMean d (rows.map (scaleRow m s)) x) : IsMean d rows (unscaleRow m s x) := by
  refine ⟨unscaleRow_length hm hs h.1, fun k hk => ?_⟩
  have h2 := h.2 k hk
  rw [List.length_map, List.map_map] at h2
  rw [unscaleRow_getD hm hs h.1 hk]
  have hs0 : 0 < s.getD k 0 := by
    rw [List.getD_eq_getElem?_getD, List.getElem?_eq_getElem (by omega)]
    exact hpos _ (List.getElem_mem _)
  have key : ∀ L : List Row, (∀ r ∈ L, r.length = d) → (L.map (fun r => r.getD k 0)).sum =
      (L.map ((fun r : Row => r.getD k 0) ∘ scaleRow m s)).sum * s.getD k 0 + (L.length : ℚ) * m.getD k 0 := by
    intro L
    induction L with
    | nil => intro _; simp
    | cons r L ih =>
      intro hL
      rw [List.map_cons, List.map_cons, List.sum_cons, List.sum_cons, ih (fun r hr => hL r (by simp [hr]))]
      simp only [Function.comp_apply, List.length_cons]
      rw [scaleRow_getD hm hs (hL r (by simp)) hk]
      push_cast
      field_simp
      ring
  rw [key rows hr, ← h2]
  ring

theorem AroundMean.unscale {d nDim : Nat} {m s x : Row} {rows : List Row} (hm : m.length = d) (hs : s.length = d)
    (hpos : ∀ x ∈ s, 0 < x) (hr : ∀ r ∈ rows, r.length = d) (h : AroundMean d nDim (rows.map (scaleRow m s)) x) :
    AroundMean d nDim rows (unscaleRow m s x) := by
  obtain ⟨c, nbIdx, nbrs, w, h1, h2, h3, h4, h5⟩ := h
  have hsim : SimplexOf d (nbIdx.length + 1) ([unscaleRow m s c].map (scaleRow m s)) (rows.map (scaleRow m s)) [0 :: nbIdx]
      (fun _ => True) x :=
    ⟨0, c, 0 :: nbIdx, nbIdx, nbrs, w, by simp [scale_unscale hm hs hpos h1.1], trivial, rfl, by simp, rfl, h4, h5⟩
  obtain ⟨b, base, row, nb, nbrs', w', q1, _, q3, q4, q5, q6, q7⟩ := hsim.unscale hm hs hpos (by
    intro r hr; rw [List.mem_singleton] at hr; rw [hr]; exact unscaleRow_length hm hs h1.1) hr
  have hb : b = 0 := by
    have := (List.getElem?_eq_some_iff.1 q3).1
    simp at this; exact this
  subst hb
  simp only [List.getElem?_cons_zero, Option.some.injEq] at q1 q3
  subst q1
  subst q3
  rw [List.drop_succ_cons, List.drop_zero] at q4
  have : nb = nbIdx := q4.eq_of_length (by omega)
  subst this
  exact ⟨_, nb, nbrs', w', h1.unscale hm hs hpos hr, h2, by simpa using h3, q6, q7⟩

theorem AroundMean.inHull {d nDim : Nat} {rows : List Row} {x : Row} (hne : rows ≠ []) (h : AroundMean d nDim rows x)
    (hr : ∀ r ∈ rows, r.length = d) : InHull d rows x := by
  obtain ⟨m, nbIdx, nbrs, w, h1, _, _, h4, h5⟩ := h
  refine InHull.trans ⟨m :: nbrs, w, fun v hv => hv, h5⟩ ?_
  intro v hv
  rcases List.mem_cons.1 hv with rfl | hv
  · exact isMean_inHull hne h1
  · obtain ⟨i, _, hi⟩ := forall₂_mem_right h4 hv
    have := List.mem_of_getElem? hi
    exact inHull_self this (hr v this)

theorem ByCluster.map {m : Nat} {selected : List Nat} {P Q : Nat → Row → Prop} {new : List Row} (f : Row → Row)
    (h : ByCluster m selected P new) (hf : ∀ j x, j < m → j ∈ selected → P j x → Q j (f x)) : ByCluster m selected Q (new.map f) := by
  obtain ⟨parts, rfl, hp⟩ := h
  refine ⟨fun j => (parts j).map f, List.map_flatMap, ?_⟩
  intro j hj
  obtain ⟨h1, h2⟩ := hp j hj
  refine ⟨by rw [List.length_map]; exact h1, ?_⟩
  intro x hx
  have : 0 < selected.count j := by
    rw [← h1]
    have := List.length_pos_of_mem hx
    rwa [List.length_map] at this
  obtain ⟨z, hz, rfl⟩ := List.mem_map.1 hx
  exact hf j z hj (List.count_pos_iff.1 this) (h2 z hz)

/-- One call of the simplex sampler for a cluster. -/
theorem cureTask_sound {ss : SSParams} {vol : List Row → ℚ} {dr : Draws} {d n : Nat} {rows out : List Row} (hne : rows ≠ [])
    (hr : ∀ r ∈ rows, r.length = d) (hdr : dr.OK) (hg : ss.gaussian = .none) (hvol : ∀ vs, 0 ≤ vol vs)
    (h : sampleSimplex ss vol dr d [meanRow d rows] [0 :: List.range rows.length] (rows.length + 1) n { Xv := some rows } = .ok out) :
    out.length = n ∧ ∀ x ∈ out, AroundMean d ss.nDim rows x := by
  have hm := meanRow_isMean hne hr
  obtain ⟨g1, g2⟩ := sampleSimplex_simplexOf (by intro r hr; rw [List.mem_singleton] at hr; rw [hr]; exact hm.1)
    (by intro V hV; injection hV with hV; rw [← hV]; exact hr) rfl (by intro h; cases h) hdr (by simp) hg
    (by intro w hw; cases hw) rfl hvol h
  refine ⟨g1, fun x hx => ?_⟩
  obtain ⟨b, base, row, nb, nbrs, w, q1, _, q3, q4, q5, q6, q7⟩ := g2 x hx
  have hb : b = 0 := by
    have := (List.getElem?_eq_some_iff.1 q3).1
    simp at this; exact this
  subst hb
  simp only [List.getElem?_cons_zero, Option.some.injEq] at q1 q3
  subst q1
  subst q3
  rw [List.drop_succ_cons, List.drop_zero] at q4
  exact ⟨_, nb, nbrs, w, hm, List.nodup_range.sublist q4, q5, q6, q7⟩

theorem cureTask_ok {ss : SSParams} {vol : List Row → ℚ} {dr : Draws} {d n : Nat} {rows : List Row}
    (hdr : dr.OK) (hu : ∀ i j, 0 < dr.simplexU i j) (hd : 1 ≤ ss.nDim) (hne : rows ≠ [])
    (hmode : ss.simplexSampling = .random ∨ ss.simplexSampling = .deterministic ∨
      (ss.simplexSampling = .volume ∧ ∀ vs, 0 < vol vs))
    (hwi : ss.within = .random ∨ (ss.within = .deterministic ∧ ss.nDim ≤ 2)) :
    ∃ out, sampleSimplex ss vol dr d [meanRow d rows] [0 :: List.range rows.length] (rows.length + 1) n { Xv := some rows } =
      .ok out := by
  have hpos := List.length_pos_iff.2 hne
  exact sampleSimplex_ok (by
      intro row hrow
      rw [List.mem_singleton] at hrow
      subst hrow
      refine ⟨by simp, ?_⟩
      intro i hi
      rcases List.mem_cons.1 hi with rfl | hi
      · exact hpos
      · exact List.mem_range.1 hi) (by simp) (by simp) (by omega) hd rfl
    (by intro ws hws; cases hws) (by intro hV; cases hV) hmode hdr.choice hu (by
      rcases hwi with h | ⟨h, h'⟩
      · exact .inl h
      · exact .inr ⟨h, by omega⟩)

/-- The part of CURE_SMOTE behind the clustering. -/
def cureTail (par : CureParams) (sc : Row × Row) (vol : List Row → ℚ) (pick : Nat → Nat → List Nat) (drs : Nat → Draws) (d n : Nat)
    (X : List Row) (y : List Int) (a : Int) (As : List Row) (clusters : List (List Nat)) : Res (List Row × List Int) :=
  if clusters.length = 0 then .ok (X, y)
  else do
    let samples ← sampleInClusters par.ss vol drs d (fun c => do
      let cluster ← getRow clusters c
      let rows ← takeRows As cluster
      return { rows := [meanRow d rows], indices := [0 :: List.range rows.length], k := rows.length + 1,
               args := { Xv := some rows } }) (pick clusters.length n)
    return withSamples X y a (samples.map (unscaleRow sc.1 sc.2))

theorem cure_eq {par : CureParams} {fitScaler : List Row → Row × Row} {small : Nat → List Nat → Nat} {dist : Row → Row → ℚ}
    {vol : List Row → ℚ} {pick : Nat → Nat → List Nat} {drs : Nat → Draws} {d : Nat} {X : List Row} {y : List Int} {a b : Int}
    (hmin : IsMinority y a b) (h3 : 2 < y.count a) (hn : 0 < requested par.proportion (y.count b) (y.count a)) :
    sample defaultChecks d (cureSmoteAlg par fitScaler small dist vol pick drs d) X y =
      (do let clusters ← cureClusters par.nClusters par.noiseTh small dist
            ((classRows X y a).map (scaleRow (fitScaler X).1 (fitScaler X).2))
          cureTail par (fitScaler X) vol pick drs d (requested par.proportion (y.count b) (y.count a)) X y a
            ((classRows X y a).map (scaleRow (fitScaler X).1 (fitScaler X).2)) clusters) := by
  obtain ⟨s, hs, rfl, rfl⟩ := stats_of_isMinority hmin
  obtain ⟨hm, hM, _⟩ := stats_min_mem hs
  rw [sample_default hs, if_neg (by omega)]
  unfold cureSmoteAlg
  rw [stats_count hs hm, stats_count hs hM, detN_eq_requested, ok_bind, if_neg (by omega)]
  dsimp only
  rw [selectLabel_map, selectLabel_eq_classRows]
  rfl

/-- **CURE_SMOTE.** The minority rows (scaled) are clustered by the agglomeration of the specification and the clusters with fewer
than `noise_th` rows are dropped. Without clusters the input comes back. Otherwise the requested number of rows is appended, a
cluster drawn uniformly for each, every one of them a convex combination of the mean of the cluster and of different rows of it. -/
theorem C60_cure {par : CureParams} {fitScaler : List Row → Row × Row} {small : Nat → List Nat → Nat} {dist : Row → Row → ℚ}
    {vol : List Row → ℚ} {pick : Nat → Nat → List Nat} {drs : Nat → Draws} {d : Nat} {X X' : List Row} {y y' : List Int} {a b : Int}
    (hwf : WF d X y) (hsym : ∀ p q, dist p q = dist q p) (hs : SmallOK small) (hp : PickOK pick) (hdr : ∀ i, (drs i).OK)
    (hmin : IsMinority y a b) (hnC : 1 ≤ par.nClusters)
    (hm : (fitScaler X).1.length = d) (hsc : (fitScaler X).2.length = d) (hpos : ∀ x ∈ (fitScaler X).2, 0 < x)
    (hg : par.ss.gaussian = .none) (hvol : ∀ vs, 0 ≤ vol vs) (h3 : 2 < y.count a)
    (hn : 0 < requested par.proportion (y.count b) (y.count a))
    (h : sample defaultChecks d (cureSmoteAlg par fitScaler small dist vol pick drs d) X y = .ok (X', y')) :
    let A := classRows X y a
    let As := A.map (scaleRow (fitScaler X).1 (fitScaler X).2)
    let n := requested par.proportion (y.count b) (y.count a)
    ∃ final, CureRun (fun i j => dist (As.getD i []) (As.getD j [])) par.nClusters 0 (singletons A.length) final ∧
      DisjointClusters A.length final ∧
      let clusters := final.filter (fun c => decide (par.noiseTh ≤ c.length))
      if clusters = [] then X' = X ∧ y' = y
      else ∃ new : List Row, X' = X ++ new ∧ y' = y ++ List.replicate n a ∧ new.length = n ∧
        ByCluster clusters.length (pick clusters.length n)
          (fun c => AroundMean d par.ss.nDim ((clusters.getD c []).map (fun i => A.getD i []))) new := by
  intro A As n
  rw [cure_eq hmin h3 hn] at h
  obtain ⟨final, h1, h2, h4⟩ := C60_clustering (nC := par.nClusters) (noiseTh := par.noiseTh) (A := As) hsym hs hnC
  have hAsl : As.length = A.length := List.length_map _
  rw [hAsl] at h2 h4
  refine ⟨final, h2, h4, ?_⟩
  intro clusters
  have h1' : cureClusters par.nClusters par.noiseTh small dist ((classRows X y a).map (scaleRow (fitScaler X).1 (fitScaler X).2)) =
      .ok clusters := h1
  rw [h1', ok_bind] at h
  unfold cureTail at h
  by_cases hcl : clusters = []
  · rw [if_pos hcl]
    rw [if_pos (by rw [hcl]; rfl)] at h
    injection h with h
    obtain ⟨rfl, rfl⟩ := Prod.mk.inj h
    exact ⟨rfl, rfl⟩
  rw [if_neg hcl]
  rw [if_neg (by rw [List.length_eq_zero_iff]; exact hcl)] at h
  obtain ⟨out, hout, h⟩ := bind_ok.1 h
  have h := pure_ok.1 h
  have hAd : ∀ r ∈ A, r.length = d := fun r hr => hwf.2 r (mem_of_mem_classRows hr)
  have hgetd : ∀ i, i < A.length → A.getD i [] ∈ A := by
    intro i hi
    rw [List.getD_eq_getElem?_getD, List.getElem?_eq_getElem hi]
    exact List.getElem_mem hi
  obtain ⟨pk1, pk2⟩ := hp clusters.length n (List.length_pos_iff.2 hcl)
  have hclt : ∀ c, c < clusters.length → clusters.getD c [] ≠ [] ∧ ∀ i ∈ clusters.getD c [], i < A.length := by
    intro c hc
    have e : clusters.getD c [] = clusters[c] := by simp [List.getD_eq_getElem?_getD, hc]
    have hmem := (List.mem_filter.1 (List.getElem_mem hc)).1
    rw [e]
    exact ⟨h4.2.2 _ hmem, fun i hi => h4.2.1 i (List.mem_flatten.2 ⟨_, hmem, hi⟩)⟩
  have hby : ByCluster clusters.length (pick clusters.length n)
      (fun c => AroundMean d par.ss.nDim (((clusters.getD c []).map (fun i => A.getD i [])).map
        (scaleRow (fitScaler X).1 (fitScaler X).2))) out := by
    refine sampleInClusters_sound pk2 ?_ hout
    intro c t i o hc ht ho
    have hcm := pk2 c hc
    obtain ⟨hne, hlt⟩ := hclt c hcm
    rw [getRow_lt hcm, ok_bind] at ht
    have e : clusters.getD c [] = clusters[c] := by simp [List.getD_eq_getElem?_getD, hcm]
    rw [← e, takeRows_map_getD [] (by rw [List.length_map]; exact hlt), ok_bind] at ht
    have ht := pure_ok.1 ht
    subst ht
    dsimp only at ho
    have erows : (clusters.getD c []).map (fun i => ((classRows X y a).map (scaleRow (fitScaler X).1 (fitScaler X).2)).getD i []) =
        ((clusters.getD c []).map (fun i => A.getD i [])).map (scaleRow (fitScaler X).1 (fitScaler X).2) := by
      rw [List.map_map]
      apply List.map_congr_left
      intro i hi
      have := hlt i hi
      change (A.map _).getD i [] = _
      simp [List.getD_eq_getElem?_getD, this]
    rw [erows] at ho
    refine cureTask_sound (by simpa using hne) ?_ (hdr i) hg hvol ho
    intro r hr
    obtain ⟨q, hq, rfl⟩ := List.mem_map.1 hr
    obtain ⟨i, hi, rfl⟩ := List.mem_map.1 hq
    exact scaleRow_length hm hsc (hAd _ (hgetd i (hlt i hi)))
  have hlen := hby.length pk2
  refine ⟨out.map (unscaleRow (fitScaler X).1 (fitScaler X).2), ?_⟩
  unfold withSamples at h
  obtain ⟨rfl, rfl⟩ := Prod.mk.inj h
  refine ⟨rfl, ?_, ?_, ?_⟩
  · rw [List.length_map, hlen, pk1]
  · rw [List.length_map, hlen, pk1]
  · refine hby.map _ ?_
    intro c x hc _ hx
    refine hx.unscale hm hsc hpos ?_
    intro r hr
    obtain ⟨i, hi, rfl⟩ := List.mem_map.1 hr
    exact hAd _ (hgetd i ((hclt c hc).2 i hi))

/-- With one cluster asked for and an even number of minority rows, the loop removes all clusters and CURE_SMOTE gives the
input back. -/
theorem C60_even {par : CureParams} {fitScaler : List Row → Row × Row} {small : Nat → List Nat → Nat} {dist : Row → Row → ℚ}
    {vol : List Row → ℚ} {pick : Nat → Nat → List Nat} {drs : Nat → Draws} {d : Nat} {X : List Row} {y : List Int} {a b : Int}
    (hxy : X.length = y.length) (hsym : ∀ p q, dist p q = dist q p) (hs : SmallOK small) (hmin : IsMinority y a b)
    (hnC : par.nClusters = 1) (heven : y.count a % 2 = 0) :
    sample defaultChecks d (cureSmoteAlg par fitScaler small dist vol pick drs d) X y = .ok (X, y) := by
  by_cases h3 : 2 < y.count a
  case neg =>
    obtain ⟨s, hs, rfl, rfl⟩ := stats_of_isMinority hmin
    rw [sample_default hs, if_pos (by omega)]
  by_cases hn : 0 < requested par.proportion (y.count b) (y.count a)
  case neg =>
    obtain ⟨s, hs, rfl, rfl⟩ := stats_of_isMinority hmin
    obtain ⟨hm, hM, _⟩ := stats_min_mem hs
    rw [sample_default hs, if_neg (by omega)]
    unfold cureSmoteAlg
    rw [stats_count hs hm, stats_count hs hM, detN_eq_requested, ok_bind, if_pos (by omega)]
    rfl
  rw [cure_eq hmin h3 hn]
  obtain ⟨final, h1, h2, _⟩ := C60_clustering (nC := par.nClusters) (noiseTh := par.noiseTh)
    (A := (classRows X y a).map (scaleRow (fitScaler X).1 (fitScaler X).2)) hsym hs (by omega)
  rw [hnC] at h2
  have hl := h2.one
  rw [show (singletons ((classRows X y a).map (scaleRow (fitScaler X).1 (fitScaler X).2)).length).length = y.count a by
    rw [← classRows_length hxy]; simp [singletons], heven, List.length_eq_zero_iff] at hl
  rw [h1, ok_bind, hl]
  rfl

/-- CURE_SMOTE never raises and always ends. -/
theorem C60_total {par : CureParams} {fitScaler : List Row → Row × Row} {small : Nat → List Nat → Nat} {dist : Row → Row → ℚ}
    {vol : List Row → ℚ} {pick : Nat → Nat → List Nat} {drs : Nat → Draws} {d : Nat} {X : List Row} {y : List Int} {a b : Int}
    (hsym : ∀ p q, dist p q = dist q p) (hs : SmallOK small) (hp : PickOK pick)
    (hdr : ∀ i, (drs i).OK) (hu : ∀ t i j, 0 < (drs t).simplexU i j) (hmin : IsMinority y a b) (hnC : 1 ≤ par.nClusters)
    (hd : 1 ≤ par.ss.nDim)
    (hmode : par.ss.simplexSampling = .random ∨ par.ss.simplexSampling = .deterministic ∨
      (par.ss.simplexSampling = .volume ∧ ∀ vs, 0 < vol vs))
    (hwi : par.ss.within = .random ∨ (par.ss.within = .deterministic ∧ par.ss.nDim ≤ 2)) :
    ∃ r, sample defaultChecks d (cureSmoteAlg par fitScaler small dist vol pick drs d) X y = .ok r := by
  by_cases h3 : 2 < y.count a
  case neg =>
    obtain ⟨s, hs, rfl, rfl⟩ := stats_of_isMinority hmin
    rw [sample_default hs, if_pos (by omega)]
    exact ⟨_, rfl⟩
  by_cases hn : 0 < requested par.proportion (y.count b) (y.count a)
  case neg =>
    obtain ⟨s, hs, rfl, rfl⟩ := stats_of_isMinority hmin
    obtain ⟨hm, hM, _⟩ := stats_min_mem hs
    rw [sample_default hs, if_neg (by omega)]
    unfold cureSmoteAlg
    rw [stats_count hs hm, stats_count hs hM, detN_eq_requested, ok_bind, if_pos (by omega)]
    exact ⟨_, rfl⟩
  rw [cure_eq hmin h3 hn]
  set As := (classRows X y a).map (scaleRow (fitScaler X).1 (fitScaler X).2) with hAs
  obtain ⟨final, h1, h2, h4⟩ := C60_clustering (nC := par.nClusters) (noiseTh := par.noiseTh) (A := As) hsym hs hnC
  rw [h1, ok_bind]
  set clusters := final.filter (fun c => decide (par.noiseTh ≤ c.length)) with hclu
  unfold cureTail
  split
  · exact ⟨_, rfl⟩
  rename_i hcl
  obtain ⟨pk1, pk2⟩ := hp clusters.length (requested par.proportion (y.count b) (y.count a)) (by omega)
  obtain ⟨out, hout⟩ := sampleInClusters_ok (ss := par.ss) (vol := vol) (drs := drs) (d := d)
    (sel := pick clusters.length (requested par.proportion (y.count b) (y.count a)))
    (task := fun c => do
      let cluster ← getRow clusters c
      let rows ← takeRows As cluster
      return { rows := [meanRow d rows], indices := [0 :: List.range rows.length], k := rows.length + 1,
               args := { Xv := some rows } })
    (by intro h0; rw [h0] at pk1; simp at pk1; omega) (by
      intro c i hc
      have hc' := pk2 c hc
      have hmem := (List.mem_filter.1 (List.getElem_mem hc')).1
      refine ⟨_, by rw [getRow_lt hc', ok_bind, takeRows_map_getD [] (fun i hi =>
        h4.2.1 i (List.mem_flatten.2 ⟨_, hmem, hi⟩)), ok_bind]; rfl, ?_⟩
      exact cureTask_ok (hdr i) (hu i) hd (by simpa using h4.2.2 _ hmem) hmode hwi)
  rw [hout]
  exact ⟨_, rfl⟩

/-- How many clusters the agglomeration leaves: never more than asked for, at least one if two or more are asked for; with one
asked for, one or none, as the number of points is odd or even. -/
theorem C60_count {D : Nat → Nat → ℚ} {nC N : Nat} {final : List (List Nat)} (h : CureRun D nC 0 (singletons N) final) (hN : 0 < N) :
    final.length ≤ nC ∧ (2 ≤ nC → final ≠ []) ∧ (nC = 1 → final.length = N % 2) := by
  have hl : (singletons N).length = N := by simp [singletons]
  refine ⟨h.length_le, fun h2 => h.nonempty h2 ?_, ?_⟩
  · intro h0; rw [h0] at hl; simp at hl; omega
  · rintro rfl
    rw [h.one, hl]

/-! ## A concrete data set -/

def cuPar (nC th : Nat) : CureParams :=
  { proportion := 1, nClusters := nC, noiseTh := th,
    ss := { nDim := 2, simplexSampling := .random, within := .random, gaussian := .none } }
def cuRun (nC th : Nat) : Res (List Row × List Int) :=
  sample defaultChecks 1 (cureSmoteAlg (cuPar nC th) (fun _ => ([0], [24])) (fun _ l => l.headD 0) clDist (fun _ => 1) clPick
    (fun _ => exDraws) 1) clX clY

example : WF 1 clX clY ∧ IsMinority clY 1 0 ∧ (∀ p q, clDist p q = clDist q p) ∧ SmallOK (fun _ l => l.headD 0) ∧ PickOK clPick ∧
    cureClusters 3 2 (fun _ l => l.headD 0) clDist [[0], [1], [10], [12]] = .ok [[0, 1]] ∧
    cureClusters 2 2 (fun _ l => l.headD 0) clDist [[0], [1], [10], [12]] = .ok [[0, 1, 3]] ∧
    cuRun 1 2 = .ok (clX, clY) ∧
    (match cuRun 3 2 with
     | .ok r => decide (r.1.length = 10 ∧ ∀ x ∈ r.1.drop 9, 0 < x.getD 0 0 ∧ x.getD 0 0 < 1)
     | .error _ => false) = true := by
  refine ⟨⟨by decide, by decide +kernel⟩, ⟨by decide, by decide, by decide, Or.inl (by decide)⟩, fun p q => abs_sub_comm _ _, ?_,
    clPick_ok, by decide +kernel, by decide +kernel, by decide +kernel, by decide +kernel⟩
  intro i l hl
  cases l with
  | nil => exact absurd rfl hl
  | cons c l => simp

end Verif

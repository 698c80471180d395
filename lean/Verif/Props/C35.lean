import Verif.Lemmas.Merge
import Mathlib.Logic.Relation

/-!
# C35: the agglomerative loops terminate and partition the points

`D` is any matrix of pairwise distances (symmetry is asked for only where it is used), `N` the number of points, the fuel an
explicit bound on the number of rounds.
-/

namespace Verif

/-! ## Specification -/

/-- `clusters` is a partition of the points `0, …, N-1` into non-empty parts. -/
def IsPartition (N : Nat) (clusters : List (List Nat)) : Prop :=
  clusters.flatten.Perm (List.range N) ∧ ∀ c ∈ clusters, c ≠ []

/-- Two points are linked when a path of steps not longer than `T` joins them. -/
def Linked (N : Nat) (D : Nat → Nat → ℚ) (T : ℚ) : Nat → Nat → Prop :=
  Relation.ReflTransGen (fun p q => p < N ∧ q < N ∧ D p q ≤ T)

/-! ## One round -/

theorem MInv.partition {N : Nat} {clusters : List (List Nat)} {m : DMat} (h : MInv N clusters m) : IsPartition N clusters :=
  ⟨h.perm, h.nonempty⟩

theorem minPair {m : DMat} {x : ℚ} (h : m.min = .ok (some x)) (hd : m.DiagInf) :
    ∃ p, m.firstAt (some x) = .ok p ∧ p.1 < m.n ∧ p.2 < m.n ∧ p.1 ≠ p.2 ∧ m.d p.1 p.2 = some x := by
  obtain ⟨p, hp⟩ := DMat.firstAt_ok (DMat.min_some h).1
  obtain ⟨h1, h2, h3⟩ := DMat.firstAt_spec hp
  refine ⟨p, hp, h1, h2, ?_, h3⟩
  intro he
  rw [he, hd] at h3
  simp at h3

theorem firstAt_min_ok {m : DMat} (hpos : 0 < m.n) {v : Option ℚ} (h : m.min = .ok v) : ∃ p, m.firstAt v = .ok p := by
  apply DMat.firstAt_ok
  cases v with
  | some x => exact (DMat.min_some h).1
  | none => exact ⟨0, 0, hpos, hpos, DMat.min_none h 0 0 hpos hpos⟩

/-- Entries off the diagonal after a merge. -/
theorem DMat.merge_d (m : DMat) (a b i j : Nat) (hij : i ≠ j) :
    (m.merge a b).d i j =
      if skipIdx b j = a then minD (m.d a (skipIdx b i)) (m.d b (skipIdx b i))
      else if skipIdx b i = a then minD (m.d a (skipIdx b j)) (m.d b (skipIdx b j))
      else m.d (skipIdx b i) (skipIdx b j) := by
  have h : skipIdx b i ≠ skipIdx b j := fun h => hij (skipIdx_inj h)
  simp [DMat.merge, infDiag, copyRowToCol, minRow, hij]

/-- Any invariant kept by the two kinds of step holds at the end of the CBSO loop, which ends in time. -/
theorem cbsoLoop_end {N : Nat} {T : ℚ} (P : List (List Nat) → DMat → Prop)
    (hmerge : ∀ cl m a b x, MInv N cl m → P cl m → m.min = .ok (some x) → a < m.n → b < m.n → a ≠ b → m.d a b = some x →
      x ≤ T → P (mergeClusters cl a b) (m.merge a b)) :
    ∀ fuel cl m, MInv N cl m → 0 < m.n → P cl m → m.n ≤ fuel →
      ∃ cl' m', cbsoLoop T fuel cl m = .ok (some cl') ∧ MInv N cl' m' ∧ P cl' m' ∧
        ((∃ v, m'.min = .ok v ∧ gtD v (some T) = true) ∨ m'.n = 1) := by
  intro fuel
  induction fuel with
  | zero => intro cl m _ hpos _ hf; omega
  | succ f ih =>
    intro cl m hI hpos hP hf
    obtain ⟨v, hv⟩ := DMat.min_ok hpos
    obtain ⟨p, hp⟩ := firstAt_min_ok hpos hv
    rw [cbsoLoop, hv, ok_bind, hp, ok_bind]
    by_cases hstop : (gtD v (some T) || m.n == 1) = true
    · rw [if_pos hstop]
      refine ⟨cl, m, rfl, hI, hP, ?_⟩
      rw [Bool.or_eq_true, beq_iff_eq] at hstop
      exact hstop.imp (fun h => ⟨v, hv, h⟩) id
    · rw [if_neg hstop]
      rw [Bool.or_eq_true, beq_iff_eq, not_or] at hstop
      cases v with
      | none => exact absurd (gtD_none T) hstop.1
      | some x =>
        obtain ⟨q, hq, h1, h2, h3, h4⟩ := minPair hv hI.diag
        rw [hp] at hq
        injection hq with hq
        subst hq
        have hx : x ≤ T := by have := hstop.1; rw [gtD_some] at this; simpa using this
        obtain ⟨h5⟩ : Nonempty (m.n ≠ 1) := ⟨hstop.2⟩
        refine ih _ _ (hI.merge h1 h2 h3) ?_ (hmerge cl m _ _ x hI hP hv h1 h2 h3 h4 hx) ?_
        · show 0 < m.n - 1; omega
        · show m.n - 1 ≤ f; omega

theorem asuwoLoop_end {N : Nat} {T : ℚ} (P : List (List Nat) → List Row → DMat → Prop)
    (hmerge : ∀ cl dmMaj m a b x, MInv N cl m → P cl dmMaj m → a < m.n → b < m.n → a ≠ b → m.d a b = some x → x ≤ T →
      majorityBetween dmMaj a b (some x) = false → P (mergeClusters cl a b) (mergeRows dmMaj a b) (m.merge a b))
    (hforbid : ∀ cl dmMaj m a b x, MInv N cl m → P cl dmMaj m → a < m.n → b < m.n → a ≠ b → m.d a b = some x →
      m.min = .ok (some x) → majorityBetween dmMaj a b (some x) = true → P cl dmMaj (m.forbid a b)) :
    ∀ fuel cl dmMaj m, MInv N cl m → 0 < m.n → P cl dmMaj m → m.measure N < fuel →
      ∃ cl' dmMaj' m', asuwoLoop T fuel cl dmMaj m = .ok (some cl') ∧ MInv N cl' m' ∧ P cl' dmMaj' m' ∧
        ∃ v, m'.min = .ok v ∧ gtD v (some T) = true := by
  intro fuel
  induction fuel with
  | zero => intro cl dmMaj m _ _ _ hf; omega
  | succ f ih =>
    intro cl dmMaj m hI hpos hP hf
    obtain ⟨v, hv⟩ := DMat.min_ok hpos
    rw [asuwoLoop, hv, ok_bind]
    by_cases hstop : gtD v (some T) = true
    · rw [if_pos hstop]
      exact ⟨cl, dmMaj, m, rfl, hI, hP, v, hv, hstop⟩
    · rw [if_neg hstop]
      cases v with
      | none => exact absurd (gtD_none T) hstop
      | some x =>
        obtain ⟨p, hp, h1, h2, h3, h4⟩ := minPair hv hI.diag
        have hx : x ≤ T := by rw [gtD_some] at hstop; simpa using hstop
        rw [hp, ok_bind]
        by_cases hb : majorityBetween dmMaj p.1 p.2 (some x) = true
        · rw [if_pos hb]
          have := DMat.forbid_measure (N := N) h1 h2 h4
          exact ih _ _ _ (hI.forbid _ _) hpos (hforbid _ _ _ _ _ x hI hP h1 h2 h3 h4 hv hb) (by omega)
        · rw [if_neg hb]
          have := DMat.merge_measure (N := N) hI.size_le hpos p.1 p.2
          refine ih _ _ _ (hI.merge h1 h2 h3) ?_ (hmerge cl dmMaj m _ _ x hI hP h1 h2 h3 h4 hx (by simpa using hb)) (by omega)
          show 0 < m.n - 1; omega

theorem assembledLoop_end {N : Nat} {pop : Nat} {aligned : List Nat → List Nat → Bool} (P : List (List Nat) → DMat → Prop)
    (hmerge : ∀ cl m a b, MInv N cl m → P cl m → a < m.n → b < m.n → a ≠ b →
      ((cl.getD a []).length < pop ∨ (cl.getD b []).length < pop ∨ aligned (cl.getD a []) (cl.getD b []) = true) →
      P (mergeClusters cl a b) (m.merge a b))
    (hforbid : ∀ cl m a b, MInv N cl m → P cl m → ¬(cl.getD a []).length < pop → ¬(cl.getD b []).length < pop →
      P cl (m.forbid a b)) :
    ∀ fuel cl m, MInv N cl m → P cl m → m.measure N < fuel →
      ∃ cl' m', assembledLoop pop aligned fuel cl m = .ok (some cl') ∧ MInv N cl' m' ∧ P cl' m' ∧
        (m'.n ≤ 1 ∨ m'.min = .ok none) := by
  intro fuel
  induction fuel with
  | zero => intro cl m _ _ hf; omega
  | succ f ih =>
    intro cl m hI hP hf
    rw [assembledLoop]
    by_cases hn : m.n ≤ 1
    · rw [if_pos hn]; exact ⟨cl, m, rfl, hI, hP, Or.inl hn⟩
    · rw [if_neg hn]
      have hpos : 0 < m.n := by omega
      obtain ⟨v, hv⟩ := DMat.min_ok hpos
      rw [hv, ok_bind]
      cases v with
      | none => exact ⟨cl, m, rfl, hI, hP, Or.inr hv⟩
      | some x =>
        obtain ⟨p, hp, h1, h2, h3, h4⟩ := minPair hv hI.diag
        rw [if_neg (by simp), hp, ok_bind]
        dsimp only
        split
        · rename_i hb
          have := DMat.merge_measure (N := N) hI.size_le hpos p.1 p.2
          exact ih _ _ (hI.merge h1 h2 h3) (hmerge cl m _ _ hI hP h1 h2 h3 hb) (by omega)
        · rename_i hb
          push Not at hb
          have := DMat.forbid_measure (N := N) h1 h2 h4
          exact ih _ _ (hI.forbid _ _) (hforbid _ _ _ _ hI hP (by omega) (by omega)) (by omega)

theorem start_measure (N : Nat) (D : Nat → Nat → ℚ) : (DMat.start N D).measure N < N * (N * N + 1) + N * N + 1 := by
  unfold DMat.measure
  have h1 := (DMat.start N D).finite_le
  have h2 : (DMat.start N D).n = N := rfl
  rw [h2] at h1 ⊢
  generalize N * (N * N + 1) = c
  omega

/-! ## Linkage -/

/-- Every finite entry is a distance between two points of the clusters. -/
def Realised (D : Nat → Nat → ℚ) (cl : List (List Nat)) (m : DMat) : Prop :=
  ∀ i j, i < m.n → j < m.n → i ≠ j → ∀ x, m.d i j = some x → ∃ p ∈ cl.getD i [], ∃ q ∈ cl.getD j [], D p q = x

/-- Every entry is finite and below all distances between the two clusters. -/
def LinkBelow (D : Nat → Nat → ℚ) (cl : List (List Nat)) (m : DMat) : Prop :=
  ∀ i j, i < m.n → j < m.n → i ≠ j → ∃ x, m.d i j = some x ∧ ∀ p ∈ cl.getD i [], ∀ q ∈ cl.getD j [], x ≤ D p q

/-- Points of one cluster are linked. -/
def Connected (N : Nat) (D : Nat → Nat → ℚ) (T : ℚ) (cl : List (List Nat)) : Prop :=
  ∀ i, ∀ p ∈ cl.getD i [], ∀ q ∈ cl.getD i [], Linked N D T p q

theorem Linked.symm {N : Nat} {D : Nat → Nat → ℚ} (hD : ∀ p q, D p q = D q p) {T : ℚ} {p q : Nat} (h : Linked N D T p q) :
    Linked N D T q p := by
  unfold Linked at *
  induction h with
  | refl => exact .refl
  | tail _ hbc ih => exact .head ⟨hbc.2.1, hbc.1, by rw [hD]; exact hbc.2.2⟩ ih

theorem MInv.mem_lt {N : Nat} {cl : List (List Nat)} {m : DMat} (h : MInv N cl m) {i p : Nat} (hp : p ∈ cl.getD i []) : p < N := by
  have : p ∈ cl.flatten := by
    rw [List.getD_eq_getElem?_getD] at hp
    cases hi : cl[i]? with
    | none => rw [hi] at hp; simp at hp
    | some c => rw [hi] at hp; exact List.mem_flatten.2 ⟨c, List.mem_of_getElem? hi, hp⟩
  exact List.mem_range.1 ((h.perm.mem_iff).1 this)

theorem Realised.merge {D : Nat → Nat → ℚ} (hD : ∀ p q, D p q = D q p) {cl : List (List Nat)} {m : DMat}
    (hI : cl.length = m.n) (h : Realised D cl m) {a b : Nat} (ha : a < m.n) (hb : b < m.n) :
    Realised D (mergeClusters cl a b) (m.merge a b) := by
  intro i j hi hj hij x hx
  have hi' := skipIdx_lt hb hi
  have hj' := skipIdx_lt hb hj
  have hne : skipIdx b i ≠ skipIdx b j := fun h => hij (skipIdx_inj h)
  have hib := skipIdx_ne b i
  have hjb := skipIdx_ne b j
  have hal : a < cl.length := by rw [hI]; exact ha
  rw [DMat.merge_d _ _ _ _ _ hij] at hx
  rw [mergeClusters_getD hal, mergeClusters_getD hal]
  split at hx
  · rename_i hja
    rw [if_neg (by rw [← hja]; exact hne), if_pos hja]
    rcases (minD_some hx).1 with h1 | h1
    · obtain ⟨p, hp, q, hq, e⟩ := h a _ ha hi' (by rw [← hja]; exact hne.symm) x h1
      exact ⟨q, hq, p, List.mem_append_left _ hp, by rw [hD]; exact e⟩
    · obtain ⟨p, hp, q, hq, e⟩ := h b _ hb hi' hib.symm x h1
      exact ⟨q, hq, p, List.mem_append_right _ hp, by rw [hD]; exact e⟩
  · rename_i hja
    rw [if_neg hja]
    split at hx
    · rename_i hia
      rw [if_pos hia]
      rcases (minD_some hx).1 with h1 | h1
      · obtain ⟨p, hp, q, hq, e⟩ := h a _ ha hj' (by rw [← hia]; exact hne) x h1
        exact ⟨p, List.mem_append_left _ hp, q, hq, e⟩
      · obtain ⟨p, hp, q, hq, e⟩ := h b _ hb hj' hjb.symm x h1
        exact ⟨p, List.mem_append_right _ hp, q, hq, e⟩
    · rename_i hia
      rw [if_neg hia]
      exact h _ _ hi' hj' hne x hx

theorem LinkBelow.merge {D : Nat → Nat → ℚ} (hD : ∀ p q, D p q = D q p) {cl : List (List Nat)} {m : DMat}
    (hI : cl.length = m.n) (h : LinkBelow D cl m) {a b : Nat} (ha : a < m.n) (hb : b < m.n) :
    LinkBelow D (mergeClusters cl a b) (m.merge a b) := by
  intro i j hi hj hij
  have hi' := skipIdx_lt hb hi
  have hj' := skipIdx_lt hb hj
  have hne : skipIdx b i ≠ skipIdx b j := fun h => hij (skipIdx_inj h)
  have hib := skipIdx_ne b i
  have hjb := skipIdx_ne b j
  have hal : a < cl.length := by rw [hI]; exact ha
  rw [DMat.merge_d _ _ _ _ _ hij]
  rw [mergeClusters_getD hal, mergeClusters_getD hal]
  by_cases hja : skipIdx b j = a
  · rw [if_pos hja, if_neg (by rw [← hja]; exact hne), if_pos hja]
    obtain ⟨x, hx, hx'⟩ := h a _ ha hi' (by rw [← hja]; exact hne.symm)
    obtain ⟨y, hy, hy'⟩ := h b _ hb hi' hib.symm
    refine ⟨min x y, by rw [hx, hy]; rfl, ?_⟩
    intro p hp q hq
    rcases List.mem_append.1 hq with hq | hq
    · rw [hD]; exact (min_le_left _ _).trans (hx' q hq p hp)
    · rw [hD]; exact (min_le_right _ _).trans (hy' q hq p hp)
  · rw [if_neg hja, if_neg hja]
    by_cases hia : skipIdx b i = a
    · rw [if_pos hia, if_pos hia]
      obtain ⟨x, hx, hx'⟩ := h a _ ha hj' (by rw [← hia]; exact hne)
      obtain ⟨y, hy, hy'⟩ := h b _ hb hj' hjb.symm
      refine ⟨min x y, by rw [hx, hy]; rfl, ?_⟩
      intro p hp q hq
      rcases List.mem_append.1 hp with hp | hp
      · exact (min_le_left _ _).trans (hx' p hp q hq)
      · exact (min_le_right _ _).trans (hy' p hp q hq)
    · rw [if_neg hia, if_neg hia]
      exact h _ _ hi' hj' hne

theorem Connected.merge {N : Nat} {D : Nat → Nat → ℚ} (hD : ∀ p q, D p q = D q p) {T : ℚ} {cl : List (List Nat)} {m : DMat}
    (hI : MInv N cl m) (hR : Realised D cl m) (h : Connected N D T cl) {a b : Nat} (ha : a < m.n) (hb : b < m.n) (hab : a ≠ b)
    {x : ℚ} (hx : m.d a b = some x) (hxT : x ≤ T) : Connected N D T (mergeClusters cl a b) := by
  intro i
  have hal : a < cl.length := by rw [hI.size]; exact ha
  rw [mergeClusters_getD hal]
  split
  · obtain ⟨u, hu, w, hw, e⟩ := hR a b ha hb hab x hx
    have hstep : Linked N D T u w := .single ⟨hI.mem_lt hu, hI.mem_lt hw, by rw [e]; exact hxT⟩
    have hcross : ∀ p ∈ cl.getD a [], ∀ q ∈ cl.getD b [], Linked N D T p q := fun p hp q hq =>
      ((h a p hp u hu).trans hstep).trans (h b w hw q hq)
    intro p hp q hq
    rcases List.mem_append.1 hp with hp | hp <;> rcases List.mem_append.1 hq with hq | hq
    · exact h a p hp q hq
    · exact hcross p hp q hq
    · exact (hcross q hq p hp).symm hD
    · exact h b p hp q hq
  · exact h _

theorem singletons_getD (N i : Nat) : (singletons N).getD i [] = if i < N then [i] else [] := by
  unfold singletons
  rw [List.getD_eq_getElem?_getD, List.getElem?_map]
  split <;> rename_i h
  · simp [h]
  · simp [List.getElem?_eq_none (l := List.range N) (i := i) (by simp; omega)]

theorem realised_start (N : Nat) (D : Nat → Nat → ℚ) : Realised D (singletons N) (DMat.start N D) := by
  intro i j hi hj hij x hx
  change i < N at hi
  change j < N at hj
  simp only [DMat.start, infDiag, if_neg hij, Option.some.injEq] at hx
  exact ⟨i, by rw [singletons_getD, if_pos hi]; simp, j, by rw [singletons_getD, if_pos hj]; simp, hx⟩

theorem below_start (N : Nat) (D : Nat → Nat → ℚ) : LinkBelow D (singletons N) (DMat.start N D) := by
  intro i j hi hj hij
  change i < N at hi
  change j < N at hj
  refine ⟨D i j, by simp [DMat.start, infDiag, hij], ?_⟩
  intro p hp q hq
  rw [singletons_getD, if_pos hi] at hp
  rw [singletons_getD, if_pos hj] at hq
  simp only [List.mem_singleton] at hp hq
  rw [hp, hq]

theorem connected_start (N : Nat) (D : Nat → Nat → ℚ) (T : ℚ) : Connected N D T (singletons N) := by
  intro i p hp q hq
  rw [singletons_getD] at hp hq
  split at hp
  · simp only [List.mem_singleton] at hp hq
    rename_i h
    rw [if_pos h, List.mem_singleton] at hq
    rw [hp, hq]
    exact .refl
  · simp at hp

theorem getD_of_mem {cl : List (List Nat)} {c : List Nat} (hc : c ∈ cl) : ∃ i, i < cl.length ∧ cl.getD i [] = c := by
  obtain ⟨i, hi, e⟩ := List.getElem_of_mem hc
  exact ⟨i, hi, by simp [List.getD_eq_getElem?_getD, hi, e]⟩

theorem setAll_spec (v : Nat) : ∀ (c : List Nat) (l : List Nat), (∀ p ∈ c, p < l.length) →
    (c.foldl (fun l j => l.set j v) l).length = l.length ∧
    (∀ p ∈ c, (c.foldl (fun l j => l.set j v) l)[p]? = some v) ∧
    (∀ p, p ∉ c → (c.foldl (fun l j => l.set j v) l)[p]? = l[p]?) := by
  intro c
  induction c with
  | nil => intro l _; exact ⟨rfl, by simp, by simp⟩
  | cons a c ih =>
    intro l hl
    rw [List.foldl_cons]
    obtain ⟨h1, h2, h3⟩ := ih (l.set a v) (by intro p hp; rw [List.length_set]; exact hl p (by simp [hp]))
    refine ⟨by rw [h1, List.length_set], ?_, ?_⟩
    · intro p hp
      by_cases hpc : p ∈ c
      · exact h2 p hpc
      · have hpa : p = a := by simpa [hpc] using hp
        rw [h3 p hpc, hpa, List.getElem?_set_self (hl a (by simp))]
    · intro p hp
      simp only [List.mem_cons, not_or] at hp
      rw [h3 p hp.2, List.getElem?_set_ne (Ne.symm hp.1)]

theorem labelAll_spec : ∀ (cl : List (List Nat)) (k : Nat) (l : List Nat), cl.flatten.Nodup → (∀ p ∈ cl.flatten, p < l.length) →
    ((cl.zipIdx k).foldl (fun labels ci => ci.1.foldl (fun l j => l.set j ci.2) labels) l).length = l.length ∧
    (∀ (i : Nat) (c : List Nat), cl[i]? = some c → ∀ p ∈ c,
      ((cl.zipIdx k).foldl (fun labels ci => ci.1.foldl (fun l j => l.set j ci.2) labels) l)[p]? = some (k + i)) ∧
    (∀ p, p ∉ cl.flatten →
      ((cl.zipIdx k).foldl (fun labels ci => ci.1.foldl (fun l j => l.set j ci.2) labels) l)[p]? = l[p]?) := by
  intro cl
  induction cl with
  | nil => intro k l _ _; exact ⟨rfl, by simp, by simp⟩
  | cons c cl ih =>
    intro k l hnd hlt
    rw [List.zipIdx_cons, List.foldl_cons]
    rw [List.flatten_cons] at hnd hlt
    obtain ⟨a1, a2, a3⟩ := setAll_spec k c l (fun p hp => hlt p (List.mem_append_left _ hp))
    obtain ⟨h1, h2, h3⟩ := ih (k + 1) (c.foldl (fun l j => l.set j k) l) (List.nodup_append.1 hnd).2.1
      (fun p hp => by rw [a1]; exact hlt p (List.mem_append_right _ hp))
    refine ⟨by rw [h1, a1], ?_, ?_⟩
    · intro i c' hi p hp
      cases i with
      | zero =>
        simp only [List.getElem?_cons_zero, Option.some.injEq] at hi
        subst hi
        have : p ∉ cl.flatten := fun h => (List.nodup_append.1 hnd).2.2 p hp p h rfl
        rw [h3 p this, a2 p hp]; rfl
      | succ i =>
        rw [List.getElem?_cons_succ] at hi
        rw [h2 i c' hi p hp]
        congr 1; omega
    · intro p hp
      rw [List.flatten_cons, List.mem_append, not_or] at hp
      rw [h3 p hp.2, a3 p hp.1]

/-! ## Theorems -/

/-- CBSO: the merging loop ends after at most as many rounds as there are points; it raises nothing; the clusters are a
partition; and two points share a cluster exactly when they are linked by steps not longer than the threshold. -/
theorem C35_cbso (N : Nat) (hN : 0 < N) (D : Nat → Nat → ℚ) (hD : ∀ p q, D p q = D q p) (T : ℚ) :
    ∃ clusters, cbsoLoop T N (singletons N) (DMat.start N D) = .ok (some clusters) ∧ IsPartition N clusters ∧
      ∀ c ∈ clusters, ∀ p ∈ c, ∀ q, q < N → (q ∈ c ↔ Linked N D T p q) := by
  obtain ⟨cl, m, he, hI, ⟨hR, hB, hC⟩, hend⟩ := cbsoLoop_end (N := N) (T := T)
    (fun cl m => Realised D cl m ∧ LinkBelow D cl m ∧ Connected N D T cl)
    (fun cl m a b x hI h _ ha hb hab hx hxT =>
      ⟨h.1.merge hD hI.size ha hb, h.2.1.merge hD hI.size ha hb, h.2.2.merge hD hI h.1 ha hb hab hx hxT⟩)
    N (singletons N) (DMat.start N D) (MInv.start N D) hN
    ⟨realised_start N D, below_start N D, connected_start N D T⟩ (le_refl _)
  refine ⟨cl, he, hI.partition, ?_⟩
  -- different clusters are further apart than the threshold
  have hsep : ∀ i j, i < m.n → j < m.n → i ≠ j → ∀ p ∈ cl.getD i [], ∀ q ∈ cl.getD j [], T < D p q := by
    intro i j hi hj hij p hp q hq
    rcases hend with ⟨v, hv, hgt⟩ | h1
    · obtain ⟨x, hx, hx'⟩ := hB i j hi hj hij
      cases v with
      | none => rw [DMat.min_none hv i j hi hj] at hx; simp at hx
      | some y =>
        rw [gtD_some] at hgt
        have := (DMat.min_some hv).2 i j hi hj x hx
        exact (of_decide_eq_true hgt).trans_le (this.trans (hx' p hp q hq))
    · omega
  intro c hc p hp q hq
  obtain ⟨i, hi, rfl⟩ := getD_of_mem hc
  rw [hI.size] at hi
  constructor
  · exact fun h => hC i p hp q h
  · intro h
    clear hq
    induction h with
    | refl => exact hp
    | @tail r s _ hrs ih =>
      obtain ⟨j, hj, hs⟩ : ∃ j, j < cl.length ∧ s ∈ cl.getD j [] := by
        have : s ∈ cl.flatten := hI.perm.mem_iff.2 (List.mem_range.2 hrs.2.1)
        obtain ⟨c', hc', hs⟩ := List.mem_flatten.1 this
        obtain ⟨j, hj, rfl⟩ := getD_of_mem hc'
        exact ⟨j, hj, hs⟩
      rw [hI.size] at hj
      by_cases hij : i = j
      · rw [hij]; exact hs
      · have := hsep i j hi hj hij r ih s hs
        have := hrs.2.2
        linarith

/-- The labels CBSO returns tell the cluster of every point. -/
theorem C35_cbso_labels (N : Nat) (clusters : List (List Nat)) (h : IsPartition N clusters) :
    (clusterLabels N clusters).length = N ∧
      ∀ (i : Nat) (c : List Nat), clusters[i]? = some c → ∀ p ∈ c, (clusterLabels N clusters)[p]? = some i := by
  obtain ⟨h1, h2, _⟩ := labelAll_spec clusters 0 (List.replicate N 0) (h.1.nodup_iff.2 List.nodup_range)
    (fun p hp => by rw [List.length_replicate]; exact List.mem_range.1 (h.1.mem_iff.1 hp))
  refine ⟨by unfold clusterLabels; rw [h1, List.length_replicate], ?_⟩
  intro i c hi p hp
  have := h2 i c hi p hp
  rwa [Nat.zero_add] at this

/-- Five points on a line, distances their differences. -/
def lineD (i j : Nat) : ℚ := |([0, 1, 2, 10, 11] : List ℚ).getD i 0 - ([0, 1, 2, 10, 11] : List ℚ).getD j 0|

example : cbsoLoop 2 5 (singletons 5) (DMat.start 5 lineD) = .ok (some [[0, 1, 2], [3, 4]]) := by decide +kernel
example : ∀ p q, lineD p q = lineD q p := fun _ _ => abs_sub_comm _ _
example : clusterLabels 5 [[0, 1, 2], [3, 4]] = [0, 0, 0, 1, 1] := by decide +kernel

/-- What the loop of Assembled_SMOTE is allowed to build: a point is a cluster, and two clusters are joined only if one of them
has fewer than `pop` points or their directions are aligned. -/
inductive JoinedCluster (pop : Nat) (aligned : List Nat → List Nat → Bool) : List Nat → Prop
  | point (i : Nat) : JoinedCluster pop aligned [i]
  | join {c c' : List Nat} (h : JoinedCluster pop aligned c) (h' : JoinedCluster pop aligned c')
      (hc : c.length < pop ∨ c'.length < pop ∨ aligned c c' = true) : JoinedCluster pop aligned (c ++ c')

theorem joined_merge {pop : Nat} {aligned : List Nat → List Nat → Bool} {cl : List (List Nat)} {a b : Nat}
    (h : ∀ c ∈ cl, JoinedCluster pop aligned c) (ha : a < cl.length) (hb : b < cl.length)
    (hc : (cl.getD a []).length < pop ∨ (cl.getD b []).length < pop ∨ aligned (cl.getD a []) (cl.getD b []) = true) :
    ∀ c ∈ mergeClusters cl a b, JoinedCluster pop aligned c := by
  intro c hm
  have hget : ∀ i, i < cl.length → cl.getD i [] ∈ cl := by
    intro i hi
    rw [List.getD_eq_getElem?_getD, List.getElem?_eq_getElem hi]
    exact List.getElem_mem _
  rcases List.mem_or_eq_of_mem_set (List.mem_of_mem_eraseIdx hm) with hm | rfl
  · exact h c hm
  · exact .join (h _ (hget a ha)) (h _ (hget b hb)) hc

/-- Assembled_SMOTE: the loop ends, raises nothing, and its clusters are a partition of the border points, whatever the
answers of the angle test. If there are several, each has at least `pop` points; two clusters were joined only if one was
smaller than `pop` or they were aligned. -/
theorem C35_assembled (N : Nat) (D : Nat → Nat → ℚ) (pop : Nat) (aligned : List Nat → List Nat → Bool) :
    ∃ clusters, assembledLoop pop aligned (N * (N * N + 1) + N * N + 1) (singletons N) (DMat.start N D) = .ok (some clusters) ∧
      IsPartition N clusters ∧ (2 ≤ clusters.length → ∀ c ∈ clusters, pop ≤ c.length) ∧
      ∀ c ∈ clusters, JoinedCluster pop aligned c := by
  obtain ⟨cl, m, he, hI, ⟨hP, hJ⟩, hend⟩ := assembledLoop_end (N := N) (pop := pop) (aligned := aligned)
    (fun cl m => (∀ i j, i < m.n → j < m.n → i ≠ j → m.d i j = none →
      pop ≤ (cl.getD i []).length ∧ pop ≤ (cl.getD j []).length) ∧ ∀ c ∈ cl, JoinedCluster pop aligned c)
    (by
      intro cl m a b hI ⟨h, hJ⟩ ha hb hab hcond
      refine ⟨?_, joined_merge hJ (by rw [hI.size]; exact ha) (by rw [hI.size]; exact hb) hcond⟩
      intro i j hi hj hij hx
      have hi' := skipIdx_lt hb hi
      have hj' := skipIdx_lt hb hj
      have hne : skipIdx b i ≠ skipIdx b j := fun h => hij (skipIdx_inj h)
      have hal : a < cl.length := by rw [hI.size]; exact ha
      rw [DMat.merge_d _ _ _ _ _ hij] at hx
      rw [mergeClusters_getD hal, mergeClusters_getD hal]
      split at hx
      · rename_i hja
        rw [if_neg (by rw [← hja]; exact hne), if_pos hja, List.length_append]
        have := h a _ ha hi' (by rw [← hja]; exact hne.symm) (minD_none hx).1
        exact ⟨this.2, by omega⟩
      · rename_i hja
        rw [if_neg hja]
        split at hx
        · rename_i hia
          rw [if_pos hia, List.length_append]
          have := h a _ ha hj' (by rw [← hia]; exact hne) (minD_none hx).1
          exact ⟨by omega, this.2⟩
        · rename_i hia
          rw [if_neg hia]
          exact h _ _ hi' hj' hne hx)
    (by
      intro cl m a b hI ⟨h, hJ⟩ h1 h2
      refine ⟨?_, hJ⟩
      intro i j hi hj hij hx
      simp only [DMat.forbid] at hx
      split at hx
      · rename_i hc
        rcases hc with ⟨rfl, rfl⟩ | ⟨rfl, rfl⟩ <;> exact ⟨by omega, by omega⟩
      · exact h i j hi hj hij hx)
    _ (singletons N) (DMat.start N D) (MInv.start N D)
    ⟨by intro i j hi hj hij hx; simp [DMat.start, infDiag, hij] at hx, by
      intro c hc
      unfold singletons at hc
      obtain ⟨i, -, rfl⟩ := List.mem_map.1 hc
      exact .point i⟩
    (start_measure N D)
  refine ⟨cl, he, hI.partition, ?_, hJ⟩
  intro h2 c hc
  obtain ⟨i, hi, rfl⟩ := getD_of_mem hc
  rw [hI.size] at hi h2
  rcases hend with h1 | h1
  · omega
  · obtain ⟨j, hj, hij⟩ : ∃ j, j < m.n ∧ i ≠ j := by
      by_cases h0 : i = 0
      · exact ⟨1, by omega, by omega⟩
      · exact ⟨0, by omega, h0⟩
    exact (hP i j hi hj hij (DMat.min_none h1 i j hi hj)).1

example : assembledLoop 2 (fun _ _ => false) 200 (singletons 5) (DMat.start 5 lineD) = .ok (some [[0, 1, 2], [3, 4]]) := by
  decide +kernel

/-- A_SUWO: the loop ends, raises nothing, its clusters are a partition of the minority points, and the points of a cluster are
linked by steps not longer than the threshold. -/
theorem C35_asuwo (N : Nat) (hN : 0 < N) (D : Nat → Nat → ℚ) (hD : ∀ p q, D p q = D q p) (T : ℚ) (dmMaj : List Row) :
    ∃ clusters, asuwoLoop T (N * (N * N + 1) + N * N + 1) (singletons N) dmMaj (DMat.start N D) = .ok (some clusters) ∧
      IsPartition N clusters ∧ ∀ c ∈ clusters, ∀ p ∈ c, ∀ q ∈ c, Linked N D T p q := by
  obtain ⟨cl, _, m, he, hI, ⟨_, hC⟩, _⟩ := asuwoLoop_end (N := N) (T := T)
    (fun cl _ m => Realised D cl m ∧ Connected N D T cl)
    (fun cl _ m a b x hI h ha hb hab hx hxT _ =>
      ⟨h.1.merge hD hI.size ha hb, h.2.merge hD hI h.1 ha hb hab hx hxT⟩)
    (by
      intro cl _ m a b _ _ h _ _ _ _ _ _
      refine ⟨?_, h.2⟩
      intro i j hi hj hij x hx
      simp only [DMat.forbid] at hx
      split at hx
      · simp at hx
      · exact h.1 i j hi hj hij x hx)
    _ (singletons N) dmMaj (DMat.start N D) (MInv.start N D) hN
    ⟨realised_start N D, connected_start N D T⟩
    (start_measure N D)
  refine ⟨cl, he, hI.partition, ?_⟩
  intro c hc p hp q hq
  obtain ⟨i, _, rfl⟩ := getD_of_mem hc
  exact hC i p hp q hq

/-! ### The majority clusters in A_SUWO -/

/-- Distance of a cluster to the majority cluster `k`: below `x`. -/
def MajNear (M : Nat → Nat → ℚ) (c : List Nat) (k : Nat) (x : ℚ) : Prop := ∃ r ∈ c, M r k < x

/-- Some of the `L` majority clusters is closer than `x` to both clusters. -/
def MajBetween (L : Nat) (M : Nat → Nat → ℚ) (c c' : List Nat) (x : ℚ) : Prop :=
  ∃ k < L, MajNear M c k x ∧ MajNear M c' k x

/-- What the loop of A_SUWO is allowed to build: a point is a cluster; two clusters are joined only over a pair of points at
most `T` apart and only if no majority cluster is closer than these two points to both of them. -/
inductive JoinedSuwo (D : Nat → Nat → ℚ) (L : Nat) (M : Nat → Nat → ℚ) (T : ℚ) : List Nat → Prop
  | point (i : Nat) : JoinedSuwo D L M T [i]
  | join {c c' : List Nat} (h : JoinedSuwo D L M T c) (h' : JoinedSuwo D L M T c') {p q : Nat} (hp : p ∈ c) (hq : q ∈ c')
      (hT : D p q ≤ T) (hm : ¬ MajBetween L M c c' (D p q)) : JoinedSuwo D L M T (c ++ c')

/-- The distances of the points to the majority clusters, as a matrix. -/
def majRows (N L : Nat) (M : Nat → Nat → ℚ) : List Row := (List.range N).map (fun i => (List.range L).map (M i))

theorem MajNear.mono {M : Nat → Nat → ℚ} {c c' : List Nat} {k : Nat} {x y : ℚ} (h : MajNear M c k x) (hc : ∀ r ∈ c, r ∈ c')
    (hxy : x ≤ y) : MajNear M c' k y := by
  obtain ⟨r, hr, e⟩ := h
  exact ⟨r, hc r hr, e.trans_le hxy⟩

theorem MajBetween.mono {L : Nat} {M : Nat → Nat → ℚ} {c c' d d' : List Nat} {x y : ℚ} (h : MajBetween L M c c' x)
    (hc : ∀ r ∈ c, r ∈ d) (hc' : ∀ r ∈ c', r ∈ d') (hxy : x ≤ y) : MajBetween L M d d' y := by
  obtain ⟨k, hk, h1, h2⟩ := h
  exact ⟨k, hk, h1.mono hc hxy, h2.mono hc' hxy⟩

theorem MajBetween.comm {L : Nat} {M : Nat → Nat → ℚ} {c c' : List Nat} {x : ℚ} (h : MajBetween L M c c' x) :
    MajBetween L M c' c x := by
  obtain ⟨k, hk, h1, h2⟩ := h
  exact ⟨k, hk, h2, h1⟩

/-- Row `i` of the matrix holds the smallest distances of the points of cluster `i`. -/
def MajOK (L : Nat) (M : Nat → Nat → ℚ) (cl : List (List Nat)) (dmMaj : List Row) : Prop :=
  dmMaj.length = cl.length ∧ ∀ i, i < cl.length → (dmMaj.getD i []).length = L ∧
    ∀ (k : Nat) (v : ℚ), (dmMaj.getD i [])[k]? = some v → ∀ x, v < x ↔ MajNear M (cl.getD i []) k x

theorem mergeRows_getD {dmMaj : List Row} {a b i : Nat} (ha : a < dmMaj.length) :
    (mergeRows dmMaj a b).getD i [] =
      if skipIdx b i = a then List.zipWith min (dmMaj.getD a []) (dmMaj.getD b []) else dmMaj.getD (skipIdx b i) [] := by
  unfold mergeRows
  rw [List.getD_eq_getElem?_getD, List.getElem?_eraseIdx]
  unfold skipIdx
  by_cases h : i < b
  · simp only [h, if_true]
    rw [List.getElem?_set]
    by_cases h2 : a = i
    · subst h2; simp [ha]
    · simp [h2, Ne.symm h2, List.getD_eq_getElem?_getD]
  · simp only [h, if_false]
    rw [List.getElem?_set]
    by_cases h2 : a = i + 1
    · subst h2; simp [ha]
    · simp [h2, Ne.symm h2, List.getD_eq_getElem?_getD]

theorem majNear_append {M : Nat → Nat → ℚ} {c c' : List Nat} {k : Nat} {x : ℚ} :
    MajNear M (c ++ c') k x ↔ MajNear M c k x ∨ MajNear M c' k x := by
  constructor
  · rintro ⟨r, hr, e⟩
    rcases List.mem_append.1 hr with h | h
    · exact .inl ⟨r, h, e⟩
    · exact .inr ⟨r, h, e⟩
  · rintro (⟨r, hr, e⟩ | ⟨r, hr, e⟩)
    · exact ⟨r, List.mem_append_left _ hr, e⟩
    · exact ⟨r, List.mem_append_right _ hr, e⟩

theorem MajOK.merge {L : Nat} {M : Nat → Nat → ℚ} {cl : List (List Nat)} {dmMaj : List Row} (h : MajOK L M cl dmMaj)
    {a b : Nat} (ha : a < cl.length) (hb : b < cl.length) : MajOK L M (mergeClusters cl a b) (mergeRows dmMaj a b) := by
  obtain ⟨hl, h⟩ := h
  refine ⟨?_, ?_⟩
  · rw [mergeClusters_length hb]
    unfold mergeRows
    rw [List.length_eraseIdx_of_lt (by rw [List.length_set]; omega), List.length_set, hl]
  · intro i hi
    rw [mergeClusters_length hb] at hi
    rw [mergeRows_getD (by omega), mergeClusters_getD ha]
    obtain ⟨a1, a2⟩ := h a ha
    obtain ⟨b1, b2⟩ := h b hb
    split
    · refine ⟨by rw [List.length_zipWith, a1, b1, Nat.min_self], ?_⟩
      intro k v hv x
      rw [List.getElem?_zipWith] at hv
      cases ea : (dmMaj.getD a [])[k]? with
      | none => simp only [ea] at hv; simp at hv
      | some u =>
        cases eb : (dmMaj.getD b [])[k]? with
        | none => simp only [ea, eb] at hv; simp at hv
        | some w =>
          simp only [ea, eb, Option.some.injEq] at hv
          rw [← hv, majNear_append, min_lt_iff, a2 k u ea x, b2 k w eb x]
    · exact h _ (skipIdx_lt hb hi)

theorem majOK_start (N L : Nat) (M : Nat → Nat → ℚ) : MajOK L M (singletons N) (majRows N L M) := by
  have hl : (singletons N).length = N := by simp [singletons]
  refine ⟨by simp [singletons, majRows], ?_⟩
  intro i hi
  rw [hl] at hi
  have e : (majRows N L M).getD i [] = (List.range L).map (M i) := by
    unfold majRows
    rw [List.getD_eq_getElem?_getD, List.getElem?_map, List.getElem?_range hi]
    rfl
  rw [e, singletons_getD, if_pos hi]
  refine ⟨by simp, ?_⟩
  intro k v hv x
  rw [List.getElem?_map] at hv
  by_cases hk : k < L
  · rw [List.getElem?_range hk] at hv
    simp only [Option.map_some, Option.some.injEq] at hv
    subst hv
    constructor
    · exact fun h => ⟨i, by simp, h⟩
    · rintro ⟨r, hr, h⟩
      simp only [List.mem_singleton] at hr
      rwa [hr] at h
  · rw [List.getElem?_eq_none (by simpa using hk)] at hv
    simp at hv

theorem majorityBetween_iff {L : Nat} {M : Nat → Nat → ℚ} {cl : List (List Nat)} {dmMaj : List Row} (h : MajOK L M cl dmMaj)
    {a b : Nat} (ha : a < cl.length) (hb : b < cl.length) (x : ℚ) :
    majorityBetween dmMaj a b (some x) = true ↔ MajBetween L M (cl.getD a []) (cl.getD b []) x := by
  obtain ⟨a1, a2⟩ := h.2 a ha
  obtain ⟨b1, b2⟩ := h.2 b hb
  unfold majorityBetween
  rw [List.any_eq_true]
  constructor
  · rintro ⟨q, hq, e⟩
    rw [Bool.and_eq_true, gtD_some, gtD_some, decide_eq_true_eq, decide_eq_true_eq] at e
    obtain ⟨k, hk⟩ := List.getElem?_of_mem hq
    rw [List.getElem?_zip_eq_some] at hk
    have hkL : k < L := by rw [← a1]; exact (List.getElem?_eq_some_iff.1 hk.1).1
    exact ⟨k, hkL, (a2 k _ hk.1 x).1 e.1, (b2 k _ hk.2 x).1 e.2⟩
  · rintro ⟨k, hk, h1, h2⟩
    have ea := List.getElem?_eq_getElem (l := dmMaj.getD a []) (i := k) (by omega)
    have eb := List.getElem?_eq_getElem (l := dmMaj.getD b []) (i := k) (by omega)
    refine ⟨((dmMaj.getD a [])[k]'(by omega), (dmMaj.getD b [])[k]'(by omega)), ?_, ?_⟩
    · exact List.mem_of_getElem? (i := k) (List.getElem?_zip_eq_some.2 ⟨ea, eb⟩)
    · rw [Bool.and_eq_true, gtD_some, gtD_some, decide_eq_true_eq, decide_eq_true_eq]
      exact ⟨(a2 k _ ea x).2 h1, (b2 k _ eb x).2 h2⟩

/-- Two points of different clusters are kept apart by the entry of the matrix or by a majority cluster. -/
def SuwoApart (D : Nat → Nat → ℚ) (L : Nat) (M : Nat → Nat → ℚ) (cl : List (List Nat)) (m : DMat) : Prop :=
  ∀ i j, i < m.n → j < m.n → i ≠ j → ∀ p ∈ cl.getD i [], ∀ q ∈ cl.getD j [],
    (∃ x, m.d i j = some x ∧ x ≤ D p q) ∨ MajBetween L M (cl.getD i []) (cl.getD j []) (D p q)

theorem minD_le {u w : Option ℚ} {x y : ℚ} (h : u = some x ∨ w = some x) (hxy : x ≤ y) : ∃ z, minD u w = some z ∧ z ≤ y := by
  rcases h with h | h <;> subst h
  · cases w with
    | none => exact ⟨x, rfl, hxy⟩
    | some w => exact ⟨min x w, rfl, (min_le_left _ _).trans hxy⟩
  · cases u with
    | none => exact ⟨x, rfl, hxy⟩
    | some u => exact ⟨min u x, rfl, (min_le_right _ _).trans hxy⟩

theorem SuwoApart.merge {N : Nat} {D : Nat → Nat → ℚ} (hD : ∀ p q, D p q = D q p) {L : Nat} {M : Nat → Nat → ℚ}
    {cl : List (List Nat)} {m : DMat} (hI : MInv N cl m) (h : SuwoApart D L M cl m) {a b : Nat} (ha : a < m.n) (hb : b < m.n) :
    SuwoApart D L M (mergeClusters cl a b) (m.merge a b) := by
  intro i j hi hj hij
  have hi' := skipIdx_lt hb hi
  have hj' := skipIdx_lt hb hj
  have hne : skipIdx b i ≠ skipIdx b j := fun h => hij (skipIdx_inj h)
  have hib := skipIdx_ne b i
  have hjb := skipIdx_ne b j
  have hal : a < cl.length := by rw [hI.size]; exact ha
  rw [DMat.merge_d _ _ _ _ _ hij, mergeClusters_getD hal, mergeClusters_getD hal]
  by_cases hja : skipIdx b j = a
  · rw [if_pos hja, if_neg (by rw [← hja]; exact hne), if_pos hja]
    intro p hp q hq
    rcases List.mem_append.1 hq with hq | hq
    · rcases h a _ ha hi' (by rw [← hja]; exact hne.symm) q hq p hp with ⟨x, hx, hle⟩ | hb
      · exact .inl (minD_le (.inl hx) (by rw [hD]; exact hle))
      · exact .inr (hb.comm.mono (fun _ h => h) (fun _ h => List.mem_append_left _ h) (by rw [hD]))
    · rcases h b _ hb hi' hib.symm q hq p hp with ⟨x, hx, hle⟩ | hb
      · exact .inl (minD_le (.inr hx) (by rw [hD]; exact hle))
      · exact .inr (hb.comm.mono (fun _ h => h) (fun _ h => List.mem_append_right _ h) (by rw [hD]))
  · rw [if_neg hja, if_neg hja]
    by_cases hia : skipIdx b i = a
    · rw [if_pos hia, if_pos hia]
      intro p hp q hq
      rcases List.mem_append.1 hp with hp | hp
      · rcases h a _ ha hj' (by rw [← hia]; exact hne) p hp q hq with ⟨x, hx, hle⟩ | hb
        · exact .inl (minD_le (.inl hx) hle)
        · exact .inr (hb.mono (fun _ h => List.mem_append_left _ h) (fun _ h => h) le_rfl)
      · rcases h b _ hb hj' hjb.symm p hp q hq with ⟨x, hx, hle⟩ | hb
        · exact .inl (minD_le (.inr hx) hle)
        · exact .inr (hb.mono (fun _ h => List.mem_append_right _ h) (fun _ h => h) le_rfl)
    · rw [if_neg hia, if_neg hia]
      exact h _ _ hi' hj' hne

theorem suwoApart_forbid {N : Nat} {D : Nat → Nat → ℚ} (hD : ∀ p q, D p q = D q p) {L : Nat} {M : Nat → Nat → ℚ}
    {cl : List (List Nat)} {dmMaj : List Row} {m : DMat} (hI : MInv N cl m) (hM : MajOK L M cl dmMaj)
    (h : SuwoApart D L M cl m) {a b : Nat} (ha : a < m.n) (hb : b < m.n) (hab : a ≠ b) {x : ℚ} (hx : m.d a b = some x)
    (hbt : majorityBetween dmMaj a b (some x) = true) : SuwoApart D L M cl (m.forbid a b) := by
  have hB := (majorityBetween_iff hM (by rw [hI.size]; exact ha) (by rw [hI.size]; exact hb) x).1 hbt
  have key : ∀ p ∈ cl.getD a [], ∀ q ∈ cl.getD b [], MajBetween L M (cl.getD a []) (cl.getD b []) (D p q) := by
    intro p hp q hq
    rcases h a b ha hb hab p hp q hq with ⟨y, hy, hle⟩ | h'
    · rw [hx] at hy
      injection hy with hy
      subst hy
      exact hB.mono (fun _ h => h) (fun _ h => h) hle
    · exact h'
  intro i j hi hj hij p hp q hq
  by_cases hc : (i = a ∧ j = b) ∨ (i = b ∧ j = a)
  · rcases hc with ⟨rfl, rfl⟩ | ⟨rfl, rfl⟩
    · exact .inr (key p hp q hq)
    · exact .inr ((key q hq p hp).comm.mono (fun _ h => h) (fun _ h => h) (by rw [hD]))
  · have e : (m.forbid a b).d i j = m.d i j := by simp only [DMat.forbid]; rw [if_neg hc]
    rw [e]
    exact h i j hi hj hij p hp q hq

/-- A_SUWO, the role of the majority clusters: two clusters are joined only over a pair of points within the threshold with
no majority cluster closer than that pair to both clusters; and two points that end up in different clusters are further apart
than the threshold or have such a majority cluster between their clusters. -/
theorem C35_asuwo_majority (N : Nat) (hN : 0 < N) (D : Nat → Nat → ℚ) (hD : ∀ p q, D p q = D q p) (T : ℚ) (L : Nat)
    (M : Nat → Nat → ℚ) :
    ∃ clusters, asuwoLoop T (N * (N * N + 1) + N * N + 1) (singletons N) (majRows N L M) (DMat.start N D) =
        .ok (some clusters) ∧ IsPartition N clusters ∧ (∀ c ∈ clusters, JoinedSuwo D L M T c) ∧
      ∀ (i j : Nat) (c c' : List Nat), i ≠ j → clusters[i]? = some c → clusters[j]? = some c' →
        ∀ p ∈ c, ∀ q ∈ c', T < D p q ∨ MajBetween L M c c' (D p q) := by
  obtain ⟨cl, dmMaj, m, he, hI, ⟨hM, hR, hA, hJ⟩, v, hv, hgt⟩ := asuwoLoop_end (N := N) (T := T)
    (fun cl dmMaj m => MajOK L M cl dmMaj ∧ Realised D cl m ∧ SuwoApart D L M cl m ∧ ∀ c ∈ cl, JoinedSuwo D L M T c)
    (by
      rintro cl dmMaj m a b x hI ⟨hM, hR, hA, hJ⟩ ha hb hab hx hxT hno
      have hal : a < cl.length := by rw [hI.size]; exact ha
      have hbl : b < cl.length := by rw [hI.size]; exact hb
      refine ⟨hM.merge hal hbl, hR.merge hD hI.size ha hb, hA.merge hD hI ha hb, ?_⟩
      intro c hm
      have hget : ∀ i, i < cl.length → cl.getD i [] ∈ cl := by
        intro i hi
        rw [List.getD_eq_getElem?_getD, List.getElem?_eq_getElem hi]
        exact List.getElem_mem _
      rcases List.mem_or_eq_of_mem_set (List.mem_of_mem_eraseIdx hm) with hm | rfl
      · exact hJ c hm
      · obtain ⟨p, hp, q, hq, e⟩ := hR a b ha hb hab x hx
        refine .join (hJ _ (hget a hal)) (hJ _ (hget b hbl)) hp hq (by rw [e]; exact hxT) ?_
        rw [e, ← majorityBetween_iff hM hal hbl, hno]
        simp)
    (by
      rintro cl dmMaj m a b x hI ⟨hM, hR, hA, hJ⟩ ha hb hab hx hmin hyes
      refine ⟨hM, ?_, suwoApart_forbid hD hI hM hA ha hb hab hx hyes, hJ⟩
      intro i j hi hj hij y hy
      simp only [DMat.forbid] at hy
      split at hy
      · simp at hy
      · exact hR i j hi hj hij y hy)
    _ (singletons N) (majRows N L M) (DMat.start N D) (MInv.start N D) hN
    ⟨majOK_start N L M, realised_start N D, by
      intro i j hi hj hij p hp q hq
      obtain ⟨x, hx, hle⟩ := below_start N D i j hi hj hij
      exact .inl ⟨x, hx, hle p hp q hq⟩, by
      intro c hc
      unfold singletons at hc
      obtain ⟨i, -, rfl⟩ := List.mem_map.1 hc
      exact .point i⟩
    (start_measure N D)
  refine ⟨cl, he, hI.partition, hJ, ?_⟩
  intro i j c c' hij hi hj p hp q hq
  have ei : cl.getD i [] = c := by rw [List.getD_eq_getElem?_getD, hi]; rfl
  have ej : cl.getD j [] = c' := by rw [List.getD_eq_getElem?_getD, hj]; rfl
  have hi' : i < m.n := by rw [← hI.size]; exact (List.getElem?_eq_some_iff.1 hi).1
  have hj' : j < m.n := by rw [← hI.size]; exact (List.getElem?_eq_some_iff.1 hj).1
  rw [← ei] at hp ⊢
  rw [← ej] at hq ⊢
  rcases hA i j hi' hj' hij p hp q hq with ⟨x, hx, hle⟩ | h
  · left
    cases v with
    | none => rw [DMat.min_none hv i j hi' hj'] at hx; simp at hx
    | some y =>
      rw [gtD_some, decide_eq_true_eq] at hgt
      exact hgt.trans_le (((DMat.min_some hv).2 i j hi' hj' x hx).trans hle)
  · exact .inr h

/-- A majority cluster between the points `1` and `2` keeps them apart although they are within the threshold. -/
example : asuwoLoop 2 200 (singletons 5) [[1], [1/2], [1/2], [9], [9]] (DMat.start 5 lineD) =
    .ok (some [[0, 1], [2], [3, 4]]) := by decide +kernel

end Verif

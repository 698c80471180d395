import Verif.Lemmas.SamplerTotal

/-!
# C07 Simplex enumeration is complete, duplicate free and in bounds
-/

namespace Verif

theorem mem_position {nBase k nDim : Nat} (hd : 1 ≤ nDim) : ∀ s, s ∈ posSimplices nBase k nDim ↔ ∃ b c, s = b :: c ∧ b < nBase ∧
    c.Pairwise (· < ·) ∧ (∀ i ∈ c, 1 ≤ i ∧ i < k) ∧ c.length + 1 = nDim := by
  intro s
  rw [mem_posSimplices]
  constructor
  · rintro ⟨b, c, rfl, hb, hc, hl⟩
    refine ⟨b, c, rfl, hb, List.Pairwise.sublist hc (List.pairwise_lt_range' (step := 1)), ?_, by omega⟩
    intro i hi
    have := hc.subset hi
    rw [List.mem_range'_1] at this
    omega
  · rintro ⟨b, c, rfl, hb, hp, hr, hl⟩
    refine ⟨b, c, rfl, hb, ?_, by omega⟩
    have key : ∀ (m s : Nat) (c : List Nat), c.Pairwise (· < ·) → (∀ i ∈ c, s ≤ i ∧ i < s + m) →
        c.Sublist (List.range' s m) := by
      intro m
      induction m with
      | zero =>
        intro s c _ hc
        cases c with
        | nil => exact List.nil_sublist _
        | cons a c => have := hc a (by simp); omega
      | succ m ih =>
        intro s c hp hc
        rw [List.range'_succ]
        cases c with
        | nil => exact List.nil_sublist _
        | cons a c =>
          rw [List.pairwise_cons] at hp
          have ha := hc a (by simp)
          by_cases hs : a = s
          · subst hs
            refine List.Sublist.cons_cons _ (ih (a + 1) c hp.2 ?_)
            intro i hi
            have := hp.1 i hi; have := hc i (by simp [hi]); omega
          · refine List.Sublist.cons _ (ih (s + 1) (a :: c) (List.pairwise_cons.2 hp) ?_)
            intro i hi
            rcases List.mem_cons.1 hi with rfl | hi
            · omega
            · have := hp.1 i hi; have := hc i (by simp [hi]); omega
    refine key (k - 1) 1 c hp ?_
    intro i hi
    have := hr i hi; omega

/-- The enumerated position simplices are exactly: a base position below `n_base` followed by an
increasing choice of `n_dim - 1` of the neighbour positions `1 … k-1` (position 0 is the point itself);
each occurs once; there are `n_base * C(k-1, n_dim-1)` of them. -/
theorem C07_positions {nBase k nDim : Nat} (hd : 1 ≤ nDim) (hk : nDim ≤ k) :
    ∃ all, baseIdxNeighborIdxSimplices nBase k nDim = .ok all ∧
      (∀ s, s ∈ all ↔ ∃ b c, s = b :: c ∧ b < nBase ∧ c.Pairwise (· < ·) ∧
        (∀ i ∈ c, 1 ≤ i ∧ i < k) ∧ c.length + 1 = nDim) ∧
      all.Nodup ∧ all.length = nBase * Nat.choose (k - 1) (nDim - 1) := by
  exact ⟨_, baseIdx_eq hd (by omega), mem_position hd, nodup_posSimplices _ _ _, length_posSimplices _ _ _⟩

/-- With a rectangular neighbour table all simplices exist, each is a base row number followed by
`n_dim - 1` entries of its own neighbour list, and their number is `n_base * C(k-1, n_dim-1)`. -/
theorem C07_real_indices {indices : List (List Nat)} {k m nDim : Nat} (ht : TableOK indices k m)
    (hd : 1 ≤ nDim) (hk : nDim ≤ k) :
    ∃ all, allNeighborSimplicesRealIdx nDim indices k = .ok all ∧
      all.length = indices.length * Nat.choose (k - 1) (nDim - 1) ∧
      ∀ s ∈ all, ∃ b vs row, s = b :: vs ∧ indices[b]? = some row ∧ (∀ v ∈ vs, v ∈ row ∧ v < m) ∧
        vs.length + 1 = nDim := by
  obtain ⟨all, h1, h2, h3⟩ := allNeighbor_ok ht hd (by omega)
  refine ⟨all, h1, h2, fun s hs => ?_⟩
  obtain ⟨b, vs, row, rfl, hrow, hin, hl⟩ := h3 s hs
  exact ⟨b, vs, row, rfl, hrow,
    fun v hv => ⟨hin v hv, (ht row (List.mem_of_getElem? hrow)).2 v (hin v hv)⟩, by omega⟩

/-- Completeness for the real indices: for a base `b` and any increasing choice of positions, the
simplex made of `b` and the neighbours at these positions is enumerated. -/
theorem C07_real_complete {indices : List (List Nat)} {k nDim : Nat} 
    (hd : 1 ≤ nDim) {all : List (List Nat)} (h : allNeighborSimplicesRealIdx nDim indices k = .ok all)
    {b : Nat} {row c vs : List Nat} (hb : indices[b]? = some row) (hp : c.Pairwise (· < ·))
    (hr : ∀ i ∈ c, 1 ≤ i ∧ i < k) (hl : c.length + 1 = nDim)
    (hv : List.Forall₂ (fun i v => row[i]? = some v) c vs) : b :: vs ∈ all := by
  have hkd : nDim - 1 ≤ k - 1 := by
    have := (allNeighbor_unfold h).2.1
    have := (List.getElem?_eq_some_iff.1 hb).1
    omega
  have hbl := (List.getElem?_eq_some_iff.1 hb).1
  have hmem : (b :: c) ∈ posSimplices indices.length k nDim :=
    (mem_position hd _).2 ⟨b, c, rfl, hbl, hp, hr, hl⟩
  obtain ⟨-, -, h⟩ := allNeighbor_unfold h
  obtain ⟨i, hi⟩ := List.mem_iff_getElem?.1 hmem
  obtain ⟨t, ht', hf⟩ := mapM_ok_get h hi
  have : realIdxRow indices (b :: c) = .ok (b :: vs) := by
    unfold realIdxRow
    simp only
    rw [getRow_ok.2 hb, ok_bind]
    have : takeRows row c = .ok vs := mapM_ok_iff.2 (hv.imp (fun i v h => getRow_ok.2 h))
    rw [this]; rfl
  rw [hf] at this
  injection this with this
  rw [← this]
  exact List.mem_of_getElem? ht'

/-- After the clamping `n_dim = min(n_dim, k)` every base row has at least one simplex. -/
theorem C07_clamped_nonempty {nBase k nDim b : Nat} (hd : 1 ≤ nDim) (hk : 1 ≤ k) (hb : b < nBase) :
    ∃ all, baseIdxNeighborIdxSimplices nBase k (min nDim k) = .ok all ∧ ∃ c, b :: c ∈ all := by
  obtain ⟨all, h1, h2, _, _⟩ := C07_positions (nBase := nBase) (k := k) (nDim := min nDim k) (by omega) (by omega)
  refine ⟨all, h1, List.range' 1 (min nDim k - 1), (h2 _).2 ⟨b, _, rfl, hb, ?_, ?_, ?_⟩⟩
  · exact List.pairwise_lt_range' (step := 1)
  · intro i hi; rw [List.mem_range'_1] at hi; omega
  · simp; omega

/-- More vertices than columns of the neighbour table: there is no simplex to list, and stacking the empty arrays raises. -/
theorem C07_too_many_vertices_raises {nBase k nDim : Nat} (hb : nBase ≠ 0) (h : k < nDim) (h1 : 2 ≤ nDim) :
    baseIdxNeighborIdxSimplices nBase k nDim = .error .valueError := by
  unfold baseIdxNeighborIdxSimplices
  rw [if_neg (by omega)]
  dsimp only
  rw [if_pos ⟨combinations_eq_nil.2 (by omega), hb⟩]

example : baseIdxNeighborIdxSimplices 3 2 3 = .error .valueError := C07_too_many_vertices_raises (by decide) (by decide) (by decide)

/-- `n_dim = 0` is an error. -/
theorem C07_dim_zero_raises (nBase k : Nat) :
    baseIdxNeighborIdxSimplices nBase k 0 = .error .valueError := rfl

/-- Non-vacuity. -/
example : TableOK [[0, 1, 2], [1, 0, 2], [2, 1, 0]] 3 3 ∧
    allNeighborSimplicesRealIdx 3 [[0, 1, 2], [1, 0, 2], [2, 1, 0]] 3
      = .ok [[0, 1, 2], [1, 0, 2], [2, 1, 0]] ∧
    allNeighborSimplicesRealIdx 2 [[0, 1, 2], [1, 0, 2], [2, 1, 0]] 3
      = .ok [[0, 1], [0, 2], [1, 0], [1, 2], [2, 1], [2, 0]] := by decide +kernel

end Verif

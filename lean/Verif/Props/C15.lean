import Verif.Lemmas.Noise

/-!
# C15 Tomek-link removal returns a sub-dataset and removes only link members
-/

namespace Verif

/-- The neighbour listed second for item `i` (the first one is normally the item itself). -/
def secondOf (indices : List (List Nat)) (i : Nat) : Option Nat := (indices[i]?).bind (·[1]?)

/-- `i` and `j` are listed as each other's nearest neighbour and have different labels. -/
def IsTomekLink (indices : List (List Nat)) (y : List Int) (i j : Nat) : Prop :=
  secondOf indices i = some j ∧ secondOf indices j = some i ∧ y[i]? ≠ y[j]?

theorem IsTomekLink.symm {indices : List (List Nat)} {y : List Int} {i j : Nat}
    (h : IsTomekLink indices y i j) : IsTomekLink indices y j i := ⟨h.2.1, h.1, Ne.symm h.2.2⟩

theorem tomekLinks_ok {indices : List (List Nat)} {y : List Int} {k : Nat} (hk : 2 ≤ k)
    (hl : indices.length = y.length) (ht : TableOK indices k y.length) :
    ∃ links, tomekLinks indices y = .ok links ∧ ∀ i j, (i, j) ∈ links ↔ IsTomekLink indices y i j := by
  -- what one step of the loop returns
  have hstep : ∀ rowi ∈ indices.zipIdx, ∃ out,
      (do
        let j ← getRow rowi.1 1
        let rowj ← getRow indices j
        let back ← getRow rowj 1
        if back = rowi.2 then
          let yj ← getRow y j
          let yi ← getRow y back
          pure (if ¬ yj = yi then [(rowi.2, j)] else [])
        else pure [] : Res (List (Nat × Nat))) = .ok out ∧
      ∀ p, p ∈ out ↔ p.1 = rowi.2 ∧ IsTomekLink indices y rowi.2 p.2 := by
    rintro ⟨row, i⟩ hmem
    have hrow : indices[i]? = some row := List.mem_zipIdx_iff_getElem?.1 hmem
    have hrowm := List.mem_of_getElem? hrow
    obtain ⟨hlen, hbd⟩ := ht row hrowm
    have h1 : 1 < row.length := by omega
    have hj : row[1] < indices.length := by rw [hl]; exact hbd _ (List.getElem_mem h1)
    have hi : i < indices.length := by
      rcases Nat.lt_or_ge i indices.length with h | h
      · exact h
      · rw [List.getElem?_eq_none h] at hrow; simp at hrow
    obtain ⟨hlen2, hbd2⟩ := ht (indices[row[1]]) (List.getElem_mem hj)
    have h2 : 1 < (indices[row[1]]).length := by omega
    have hsi : secondOf indices i = some row[1] := by
      unfold secondOf; rw [hrow]; simp [h1]
    have hsj : secondOf indices row[1] = some (indices[row[1]])[1] := by
      unfold secondOf; rw [List.getElem?_eq_getElem hj]; simp [h2]
    dsimp only
    rw [getRow_lt h1, ok_bind, getRow_lt hj, ok_bind, getRow_lt h2, ok_bind]
    by_cases hb : (indices[row[1]])[1] = i
    · rw [if_pos hb, getRow_lt (by rw [← hl]; exact hj), ok_bind, hb,
        getRow_lt (by rw [← hl]; exact hi), ok_bind]
      refine ⟨_, rfl, ?_⟩
      have hyi : y[i]? = some (y[i]'(by rw [← hl]; exact hi)) := List.getElem?_eq_getElem _
      have hyj : y[row[1]]? = some (y[row[1]]'(by rw [← hl]; exact hj)) := List.getElem?_eq_getElem _
      rintro ⟨a, b⟩
      by_cases hy : y[row[1]]'(by rw [← hl]; exact hj) = y[i]'(by rw [← hl]; exact hi)
      · simp only [hy, not_true_eq_false, if_false, List.not_mem_nil, false_iff, not_and]
        rintro _ ⟨e1, e2, e3⟩
        rw [hsi] at e1
        injection e1 with e1
        subst e1
        rw [hyi, hyj, hy] at e3
        exact e3 rfl
      · simp only [hy, not_false_eq_true, if_true, List.mem_singleton, Prod.mk.injEq]
        constructor
        · rintro ⟨rfl, rfl⟩
          refine ⟨rfl, hsi, by rw [hsj, hb], ?_⟩
          rw [hyi, hyj]
          intro h
          injection h with h
          exact hy h.symm
        · rintro ⟨rfl, e1, _, _⟩
          rw [hsi] at e1
          injection e1 with e1
          exact ⟨rfl, e1.symm⟩
    · rw [if_neg hb]
      refine ⟨_, rfl, ?_⟩
      rintro ⟨a, b⟩
      simp only [List.not_mem_nil, false_iff, not_and]
      rintro _ ⟨e1, e2, _⟩
      rw [hsi] at e1
      injection e1 with e1
      subst e1
      rw [hsj] at e2
      injection e2 with e2
      exact hb e2
  obtain ⟨found, hfound⟩ := mapM_exists_ok (fun a ha => (hstep a ha).imp (fun _ h => h.1))
  refine ⟨found.flatten, ?_, ?_⟩
  · unfold tomekLinks
    rw [hfound]; rfl
  · intro i j
    rw [List.mem_flatten]
    constructor
    · rintro ⟨out, hout, hmem⟩
      obtain ⟨a, ha, hfa⟩ := mapM_ok_mem hfound hout
      obtain ⟨out', ho, hio⟩ := hstep a ha
      rw [hfa] at ho
      injection ho with ho
      subst ho
      obtain ⟨h1, h2⟩ := (hio (i, j)).1 hmem
      simp only at h1
      rw [h1]; exact h2
    · intro hlink
      have hi : i < indices.length := by
        rcases Nat.lt_or_ge i indices.length with h | h
        · exact h
        · have := hlink.1
          unfold secondOf at this
          rw [List.getElem?_eq_none h] at this
          simp at this
      have hz : indices.zipIdx[i]? = some (indices[i], i) := by
        rw [List.getElem?_zipIdx, List.getElem?_eq_getElem hi]; simp
      obtain ⟨out, hout, hfa⟩ := mapM_ok_get hfound hz
      obtain ⟨out', ho, hio⟩ := hstep _ (List.mem_of_getElem? hz)
      rw [hfa] at ho
      injection ho with ho
      subst ho
      exact ⟨out, List.mem_of_getElem? hout, (hio (i, j)).2 ⟨rfl, hlink⟩⟩

theorem link_lt {indices : List (List Nat)} {y : List Int} (hl : indices.length = y.length) {i j : Nat}
    (h : IsTomekLink indices y i j) : i < y.length := by
  rw [← hl]
  rcases Nat.lt_or_ge i indices.length with h' | h'
  · exact h'
  · have := h.1
    unfold secondOf at this
    rw [List.getElem?_eq_none h'] at this
    simp at this

/-- Common part: the call returns, and deletes exactly the positions computed from the links. -/
theorem tomekRemove_run {strategy : TomekStrategy} {knn : Nat → List Row → List (List Nat)}
    (hknn : KnnOK knn) {X : List Row} {y : List Int} (hxy : X.length = y.length) (h2 : 2 ≤ X.length)
    {s : Stats} (hs : classLabelStatistics y = .ok s) :
    ∃ links rem, (∀ i j, (i, j) ∈ links ↔ IsTomekLink (knn 2 X) y i j) ∧
      tomekToRemove strategy s.minLabel y links = .ok rem ∧
      tomekRemove strategy knn X y = .ok (npDelete X rem, npDelete y rem) := by
  obtain ⟨hlen, htab⟩ := hknn 2 X h2
  rw [hxy] at htab hlen
  obtain ⟨links, hlinks, hmem⟩ := tomekLinks_ok (le_refl 2) hlen htab
  have hrem : ∃ rem, tomekToRemove strategy s.minLabel y links = .ok rem := by
    unfold tomekToRemove
    obtain ⟨r, hr⟩ := mapM_exists_ok (l := links) (f := tomekStep strategy s.minLabel y) (by
      rintro ⟨i, j⟩ hij
      cases strategy with
      | removeMajority =>
        have := link_lt hlen ((hmem i j).1 hij)
        unfold tomekStep
        dsimp only
        rw [getRow_lt this]
        exact ⟨_, rfl⟩
      | removeBoth => exact ⟨_, rfl⟩)
    exact ⟨r.flatten, by rw [hr]; rfl⟩
  obtain ⟨rem, hrem⟩ := hrem
  refine ⟨links, rem, hmem, hrem, ?_⟩
  unfold tomekRemove kneighbors
  rw [hs, ok_bind, if_pos h2, ok_bind, hlinks, ok_bind, hrem]
  rfl

/-- With `remove_both` exactly the members of links are removed; the rest stays in order with its
labels. -/
theorem C15_remove_both {knn : Nat → List Row → List (List Nat)} (hknn : KnnOK knn) {X : List Row}
    {y : List Int} (hxy : X.length = y.length) (h2 : 2 ≤ X.length) {s : Stats}
    (hs : classLabelStatistics y = .ok s) :
    ∃ X' y' K, tomekRemove .removeBoth knn X y = .ok (X', y') ∧ SubData X y X' y' K ∧
      ∀ i, Removed X K i ↔ ∃ j, IsTomekLink (knn 2 X) y i j := by
  obtain ⟨links, rem, hmem, hrem, hrun⟩ := tomekRemove_run (strategy := .removeBoth) hknn hxy h2 hs
  refine ⟨_, _, _, hrun, npDelete_subData hxy rem, fun i => ?_⟩
  rw [removed_kept]
  have hr : ∀ i, i ∈ rem ↔ ∃ l ∈ links, i = l.1 ∨ i = l.2 := by
    intro i
    unfold tomekToRemove at hrem
    rw [mapM_ok_of (g := fun l : Nat × Nat => [l.1, l.2]) (by intro a _; rfl)] at hrem
    simp only [ok_bind, pure_ok] at hrem
    subst hrem
    simp [List.mem_flatten]
  have hl := (hknn 2 X h2).1
  constructor
  · rintro ⟨_, hi⟩
    obtain ⟨⟨a, b⟩, hab, h⟩ := (hr i).1 hi
    have hL := (hmem a b).1 hab
    rcases h with rfl | rfl
    · exact ⟨b, hL⟩
    · exact ⟨a, hL.symm⟩
  · rintro ⟨j, hj⟩
    refine ⟨?_, (hr i).2 ⟨(i, j), (hmem i j).2 hj, Or.inl rfl⟩⟩
    rw [hxy]; exact link_lt (by rw [hl, hxy]) hj

/-- With `remove_majority` exactly the link members that are not of the minority class are removed. -/
theorem C15_remove_majority {knn : Nat → List Row → List (List Nat)} (hknn : KnnOK knn) {X : List Row}
    {y : List Int} (hxy : X.length = y.length) (h2 : 2 ≤ X.length) {s : Stats}
    (hs : classLabelStatistics y = .ok s) :
    ∃ X' y' K, tomekRemove .removeMajority knn X y = .ok (X', y') ∧ SubData X y X' y' K ∧
      ∀ i, Removed X K i ↔ y[i]? ≠ some s.minLabel ∧ ∃ j, IsTomekLink (knn 2 X) y i j := by
  obtain ⟨links, rem, hmem, hrem, hrun⟩ := tomekRemove_run (strategy := .removeMajority) hknn hxy h2 hs
  refine ⟨_, _, _, hrun, npDelete_subData hxy rem, fun i => ?_⟩
  rw [removed_kept]
  have hl := (hknn 2 X h2).1
  have hr : ∀ i, i ∈ rem ↔ ∃ l ∈ links,
      (y[l.1]? = some s.minLabel ∧ i = l.2) ∨ (y[l.1]? ≠ some s.minLabel ∧ i = l.1) := by
    intro i
    unfold tomekToRemove at hrem
    rw [mapM_ok_of (g := fun l : Nat × Nat => if y[l.1]? = some s.minLabel then [l.2] else [l.1]) (by
      rintro ⟨a, b⟩ hab
      have hlt := link_lt (by rw [hl, hxy]) ((hmem a b).1 hab)
      unfold tomekStep
      dsimp only
      rw [getRow_lt hlt, ok_bind, List.getElem?_eq_getElem hlt]
      simp [pure, Except.pure])] at hrem
    simp only [ok_bind, pure_ok] at hrem
    subst hrem
    simp only [List.mem_flatten, List.mem_map, exists_exists_and_eq_and]
    apply exists_congr
    intro l
    apply and_congr_right
    intro _
    by_cases h : y[l.1]? = some s.minLabel <;> simp [h]
  constructor
  · rintro ⟨_, hi⟩
    obtain ⟨⟨a, b⟩, hab, h⟩ := (hr i).1 hi
    have hL := (hmem a b).1 hab
    rcases h with ⟨h, rfl⟩ | ⟨h, rfl⟩
    · refine ⟨?_, a, hL.symm⟩
      simp only at h
      rw [← h]; exact Ne.symm hL.2.2
    · exact ⟨h, b, hL⟩
  · rintro ⟨hne, j, hj⟩
    refine ⟨?_, (hr i).2 ⟨(i, j), (hmem i j).2 hj, Or.inr ⟨hne, rfl⟩⟩⟩
    rw [hxy]; exact link_lt (by rw [hl, hxy]) hj

/-- In particular no minority item is removed with `remove_majority`. -/
theorem C15_keeps_minority {knn : Nat → List Row → List (List Nat)} (hknn : KnnOK knn) {X : List Row}
    {y : List Int} (hxy : X.length = y.length) (h2 : 2 ≤ X.length) {a b : Int} (hab : IsMinority y a b) :
    ∃ X' y' K, tomekRemove .removeMajority knn X y = .ok (X', y') ∧ SubData X y X' y' K ∧
      ∀ i, y[i]? = some a → i ∈ K := by
  obtain ⟨s, hs, hmin, _⟩ := stats_of_isMinority hab
  obtain ⟨X', y', K, h1, h3, h4⟩ := C15_remove_majority hknn hxy h2 hs
  refine ⟨X', y', K, h1, h3, fun i hi => ?_⟩
  by_contra hK
  have hlt : i < X.length := by
    rw [hxy]
    rcases Nat.lt_or_ge i y.length with h | h
    · exact h
    · rw [List.getElem?_eq_none h] at hi; simp at hi
  have := (h4 i).1 ⟨hlt, hK⟩
  rw [hmin] at this
  exact this.1 hi

/-- `i` and `j` are mutually nearest points of the data set `X`. -/
def MutualNearest (X : List Row) (i j : Nat) : Prop :=
  i ≠ j ∧ (∀ k < X.length, k ≠ i → rowDist X i j ≤ rowDist X i k) ∧
    (∀ k < X.length, k ≠ j → rowDist X j i ≤ rowDist X j k)

/-- If the neighbour search lists for every item another item at minimal distance second, then a removed
item has a mutually nearest partner of a different class. (With duplicated rows the search may list
another copy first and the item itself second; then no link is found for it.) -/
theorem C15_links_are_mutual_nearest {knn : Nat → List Row → List (List Nat)} {X : List Row} {y : List Int}
    (hnn : ∀ i j, secondOf (knn 2 X) i = some j →
      j ≠ i ∧ ∀ k < X.length, k ≠ i → rowDist X i j ≤ rowDist X i k) {i j : Nat}
    (h : IsTomekLink (knn 2 X) y i j) : MutualNearest X i j ∧ y[i]? ≠ y[j]? :=
  ⟨⟨Ne.symm (hnn i j h.1).1, (hnn i j h.1).2, (hnn j i h.2.1).2⟩, h.2.2⟩

/-- One item alone: asking for two neighbours raises `ValueError`, if the labels do not fail before. -/
theorem C15_single (strategy : TomekStrategy) (knn : Nat → List Row → List (List Nat)) (x : Row) (l : Int) :
    tomekRemove strategy knn [x] [l] = .error .indexError := rfl

example : tomekRemove .removeMajority bruteKnn [[0], [1], [3], [10], [11]] [0, 1, 0, 0, 1]
    = .ok ([[1], [3], [11]], [1, 0, 1]) := by decide +kernel
example : tomekRemove .removeBoth bruteKnn [[0], [1], [3], [10], [11]] [0, 1, 0, 0, 1]
    = .ok ([[3]], [0]) := by decide +kernel
example : IsMinority [0, 1, 0, 0, 1] 1 0 := by
  refine ⟨by decide, by decide, by decide, ?_⟩
  left; decide
example : IsTomekLink (bruteKnn 2 [[0], [1], [3], [10], [11]]) [0, 1, 0, 0, 1] 3 4 := by
  unfold IsTomekLink; decide +kernel

end Verif

import Verif.Lemmas.Reorder
import Verif.Props.C15
import Verif.Props.C16
import Verif.Props.C17
import Verif.Props.C14
import Verif.Lemmas.ReorderSimplex
import Verif.Lemmas.Majority
import Verif.Lemmas.SmoteExample
import Verif.Model.Cleaning

/-!
# C121: the order of the rows

Which procedures give the same labelled rows when the rows of the data are put in another order. The hypothesis is that the neighbour search
finds the same neighbours; `C121_search` shows it for the exact search on data without ties.
-/

namespace Verif

/-- An exact neighbour search finds the same neighbours in any order of the rows, if no two distances from a row are equal. -/
theorem C121_search {σ : List Nat} {X X' : List Row} (hX : Reordered σ X X') (hx : ∀ x ∈ X, NoTies X x) (k : Nat) :
    SameNeighbors σ (bruteKnn k X) (bruteKnn k X') := bruteKnn_same hX hx k

/-- With ties it may not. -/
theorem C121_search_ties : ∃ σ X X', Reordered σ X X' ∧ ¬ SameNeighbors σ (bruteKnn 2 X) (bruteKnn 2 X') := by
  refine ⟨[2, 1, 0], [[0], [1], [2]], [[2], [1], [0]], ⟨by decide, ?_⟩, ?_⟩
  · exact .cons rfl (.cons rfl (.cons rfl .nil))
  · intro h
    obtain ⟨r, r', h1, h2, h3⟩ := h 1 1 rfl
    have e1 : (bruteKnn 2 [[0], [1], [2]])[1]? = some [1, 0] := by decide +kernel
    have e2 : (bruteKnn 2 [[2], [1], [0]])[1]? = some [1, 0] := by decide +kernel
    rw [e1] at h1
    rw [e2] at h2
    obtain rfl := Option.some.inj h1
    obtain rfl := Option.some.inj h2
    cases h3 with
    | cons _ h3 => cases h3 with
      | cons h4 _ => simp at h4

section
variable {σ : List Nat} {T T' : List (List Nat)} {y y' : List Int}

theorem samePositions_get? {r r' : List Nat} (h : SamePositions σ r r') (k : Nat) :
    (r'[k]? = none ∧ r[k]? = none) ∨ ∃ q j, r'[k]? = some q ∧ r[k]? = some j ∧ σ[q]? = some j := by
  cases hk : r'[k]? with
  | none =>
    left
    refine ⟨rfl, ?_⟩
    rw [List.getElem?_eq_none_iff] at hk ⊢
    rw [← List.Forall₂.length_eq h]; exact hk
  | some q =>
    right
    obtain ⟨j, h1, h2⟩ := forall₂_get? h hk
    exact ⟨q, j, rfl, h1, h2⟩

theorem secondOf_same (hn : σ.Nodup) (hT : SameNeighbors σ T T') {p i q j : Nat} (hp : σ[p]? = some i) (hq : σ[q]? = some j) :
    secondOf T' p = some q ↔ secondOf T i = some j := by
  obtain ⟨r, r', h1, h2, h3⟩ := hT p i hp
  unfold secondOf
  rw [h1, h2, Option.bind_some, Option.bind_some]
  rcases samePositions_get? h3 1 with ⟨e1, e2⟩ | ⟨q', j', e1, e2, e3⟩
  · rw [e1, e2]; simp
  · rw [e1, e2]
    constructor
    · intro h
      obtain rfl := Option.some.inj h
      rw [← e3, hq]
    · intro h
      obtain rfl := Option.some.inj h
      rw [nodup_get?_inj hn e3 hq]

theorem secondOf_exists (hT : SameNeighbors σ T T') {p i : Nat} (hp : σ[p]? = some i) {q : Nat} (h : secondOf T' p = some q) :
    ∃ j, σ[q]? = some j := by
  obtain ⟨r, r', h1, h2, h3⟩ := hT p i hp
  unfold secondOf at h
  rw [h2, Option.bind_some] at h
  rcases samePositions_get? h3 1 with ⟨e1, e2⟩ | ⟨q', j', e1, e2, e3⟩
  · rw [e1] at h; simp at h
  · rw [e1] at h
    obtain rfl := Option.some.inj h
    exact ⟨j', e3⟩

theorem secondOf_exists' (hT : SameNeighbors σ T T') {p i : Nat} (hp : σ[p]? = some i) {j : Nat} (h : secondOf T i = some j) :
    ∃ q : Nat, σ[q]? = some j := by
  obtain ⟨r, r', h1, h2, h3⟩ := hT p i hp
  unfold secondOf at h
  rw [h1, Option.bind_some] at h
  rcases samePositions_get? h3 1 with ⟨e1, e2⟩ | ⟨q', j', e1, e2, e3⟩
  · rw [e2] at h; simp at h
  · rw [e2] at h
    obtain rfl := Option.some.inj h
    exact ⟨q', e3⟩

theorem tomekLink_same (hn : σ.Nodup) (hT : SameNeighbors σ T T') (hy : Reordered σ y y') {p i : Nat} (hp : σ[p]? = some i) :
    (∃ q, IsTomekLink T' y' p q) ↔ ∃ j, IsTomekLink T y i j := by
  constructor
  · rintro ⟨q, h1, h2, h3⟩
    obtain ⟨j, hq⟩ := secondOf_exists hT hp h1
    refine ⟨j, (secondOf_same hn hT hp hq).1 h1, (secondOf_same hn hT hq hp).1 h2, ?_⟩
    rwa [hy.get? hp, hy.get? hq] at h3
  · rintro ⟨j, h1, h2, h3⟩
    obtain ⟨q, hq⟩ := secondOf_exists' hT hp h1
    refine ⟨q, (secondOf_same hn hT hp hq).2 h1, (secondOf_same hn hT hq hp).2 h2, ?_⟩
    rwa [hy.get? hp, hy.get? hq]

theorem labels_same (hy : Reordered σ y y') : ∀ {r r' : List Nat} {ls : List Int}, SamePositions σ r r' →
    (List.Forall₂ (fun (j : Nat) l => y'[j]? = some l) r' ls ↔ List.Forall₂ (fun (j : Nat) l => y[j]? = some l) r ls) := by
  intro r r' ls h
  unfold SamePositions at h
  induction h generalizing ls with
  | nil => constructor <;> (intro h; cases h; exact .nil)
  | cons h1 _ ih =>
    constructor
    · intro h
      cases h with
      | cons h2 h3 => exact .cons (by rwa [← hy.get? h1]) (ih.1 h3)
    · intro h
      cases h with
      | cons h2 h3 => exact .cons (by rwa [hy.get? h1]) (ih.2 h3)

theorem samePositions_drop {r r' : List Nat} (h : SamePositions σ r r') (n : Nat) : SamePositions σ (r.drop n) (r'.drop n) :=
  List.forall₂_drop n h

theorem neighborMode_same (hT : SameNeighbors σ T T') (hy : Reordered σ y y') {p i : Nat} (hp : σ[p]? = some i) (m : Int) :
    NeighborMode T' y' p m ↔ NeighborMode T y i m := by
  obtain ⟨r, r', h1, h2, h3⟩ := hT p i hp
  have hd := samePositions_drop h3 1
  constructor
  · rintro ⟨ls, ⟨row, e, hf⟩, hm⟩
    rw [h2] at e
    obtain rfl := Option.some.inj e
    exact ⟨ls, ⟨r, h1, (labels_same hy hd).1 hf⟩, hm⟩
  · rintro ⟨ls, ⟨row, e, hf⟩, hm⟩
    rw [h1] at e
    obtain rfl := Option.some.inj e
    exact ⟨ls, ⟨r', h2, (labels_same hy hd).2 hf⟩, hm⟩

end

/-- Two-class data have at least two rows. -/
theorem two_le_of_isMinority {X : List Row} {y : List Int} {a b : Int} (hl : X.length = y.length) (hm : IsMinority y a b) :
    2 ≤ X.length := by
  obtain ⟨h1, h2, _, h4⟩ := hm
  have ha := List.count_pos_iff.2 h1
  have hb := List.count_pos_iff.2 h2
  have hne : a ≠ b := by rintro rfl; omega
  rw [hl]
  have : (List.replicate 1 a ++ List.replicate 1 b).length ≤ y.length := by
    refine List.Subperm.length_le (List.subperm_ext_iff.2 fun x hx => ?_)
    simp only [List.replicate_one, List.singleton_append, List.mem_cons, List.not_mem_nil, or_false] at hx
    rcases hx with rfl | rfl
    · simpa [List.count_cons, Ne.symm hne] using ha
    · simpa [List.count_cons, hne] using hb
  simpa using this

/-- Both strategies of the Tomek link removal. -/
theorem C121_tomek (t : TomekStrategy) : IgnoresOrder [2] (tomekRemove t) := by
  intro knn σ X y X' y' a b hk hl hm hX hy hT
  have h2 := two_le_of_isMinority hl hm
  have hl' : X'.length = y'.length := by rw [hX.length_eq, hy.length_eq, hl]
  have h2' : 2 ≤ X'.length := by rw [hX.length_eq]; exact h2
  have hT2 := hT 2 (by simp) h2
  obtain ⟨s, hs, e1, e2⟩ := stats_of_isMinority hm
  obtain ⟨s', hs', e1', e2'⟩ := stats_of_isMinority (hy.isMinority hm)
  right
  cases t with
  | removeMajority =>
    obtain ⟨X1, y1, K, h3, h4, h5⟩ := C15_remove_majority hk hl h2 hs
    obtain ⟨X1', y1', K', h3', h4', h5'⟩ := C15_remove_majority hk hl' h2' hs'
    refine ⟨X1, y1, X1', y1', h3, h3', subData_perm hX hy hl h4 h4' fun p i hp => ?_⟩
    rw [h5, h5', e1, e1', hy.get? hp, tomekLink_same hX.nodup hT2 hy hp]
  | removeBoth =>
    obtain ⟨X1, y1, K, h3, h4, h5⟩ := C15_remove_both hk hl h2 hs
    obtain ⟨X1', y1', K', h3', h4', h5'⟩ := C15_remove_both hk hl' h2' hs'
    refine ⟨X1, y1, X1', y1', h3, h3', subData_perm hX hy hl h4 h4' fun p i hp => ?_⟩
    rw [h5, h5', tomekLink_same hX.nodup hT2 hy hp]

/-- The edited nearest neighbour rule. -/
theorem C121_enn (r : EnnRemove) : IgnoresOrder [4] (ennRemove r) := by
  intro knn σ X y X' y' a b hk hl hm hX hy hT
  have hl' : X'.length = y'.length := by rw [hX.length_eq, hy.length_eq, hl]
  obtain ⟨s, hs, e1, e2⟩ := stats_of_isMinority hm
  obtain ⟨s', hs', e1', e2'⟩ := stats_of_isMinority (hy.isMinority hm)
  right
  rcases Nat.lt_or_ge X.length 4 with h4 | h4
  · exact ⟨X, y, X', y', C16_enn_small r knn h4 hs, C16_enn_small r knn (by rwa [hX.length_eq]) hs', (hX.zip hy hl).perm_items⟩
  · have h4' : 4 ≤ X'.length := by rw [hX.length_eq]; exact h4
    obtain ⟨X1, y1, K, h3, h5, h6⟩ := C16_enn (r := r) hk hl h4 hs
    obtain ⟨X1', y1', K', h3', h5', h6'⟩ := C16_enn (r := r) hk hl' h4' hs'
    refine ⟨X1, y1, X1', y1', h3, h3', subData_perm hX hy hl h5 h5' fun p i hp => ?_⟩
    simp only [h6, h6', e1, e1', e2, e2', hy.get? hp, neighborMode_same (hT 4 (by simp) h4) hy hp]

/-- The neighbourhood cleaning rule. -/
theorem C121_ncr : IgnoresOrder [4] ncrRemove := by
  intro knn σ X y X' y' a b hk hl hm hX hy hT
  have hl' : X'.length = y'.length := by rw [hX.length_eq, hy.length_eq, hl]
  obtain ⟨s, hs, e1, e2⟩ := stats_of_isMinority hm
  obtain ⟨s', hs', e1', e2'⟩ := stats_of_isMinority (hy.isMinority hm)
  rcases Nat.lt_or_ge X.length 4 with h4 | h4
  · exact Or.inl ⟨_, C16_ncr_small knn h4 hs, C16_ncr_small knn (by rwa [hX.length_eq]) hs'⟩
  · right
    have h4' : 4 ≤ X'.length := by rw [hX.length_eq]; exact h4
    have hT4 := hT 4 (by simp) h4
    obtain ⟨X1, y1, K, h3, h5, h6⟩ := C16_ncr hk hl h4 hs
    obtain ⟨X1', y1', K', h3', h5', h6'⟩ := C16_ncr hk hl' h4' hs'
    refine ⟨X1, y1, X1', y1', h3, h3', subData_perm hX hy hl h5 h5' fun p i hp => ?_⟩
    rw [h6, h6', e1, e1', e2, e2', hy.get? hp, neighborMode_same hT4 hy hp]
    refine and_congr_right fun _ => or_congr_right ?_
    constructor
    · rintro ⟨q, row', g1, g2, g3, g4⟩
      have hq : q < σ.length := by
        have := (List.getElem?_eq_some_iff.1 g1).1
        rwa [hy.length_eq, ← hy.length_pos] at this
      have hq' := List.getElem?_eq_getElem hq
      obtain ⟨r, r', k1, k2, k3⟩ := hT4 q _ hq'
      rw [g3] at k2
      obtain rfl := Option.some.inj k2
      refine ⟨σ[q], r, by rwa [← hy.get? hq'], (neighborMode_same hT4 hy hq' _).1 g2, k1, ?_⟩
      obtain ⟨n, hn⟩ := List.mem_iff_getElem?.1 g4
      obtain ⟨j, hj, hj'⟩ := forall₂_get? (samePositions_drop k3 1) hn
      rw [hp] at hj'
      obtain rfl := Option.some.inj hj'
      exact List.mem_of_getElem? hj
    · rintro ⟨j, row, g1, g2, g3, g4⟩
      have hj : j < y.length := (List.getElem?_eq_some_iff.1 g1).1
      obtain ⟨q, hq⟩ := hy.onto hj
      obtain ⟨r, r', k1, k2, k3⟩ := hT4 q _ hq
      rw [g3] at k1
      obtain rfl := Option.some.inj k1
      refine ⟨q, r', by rwa [hy.get? hq], (neighborMode_same hT4 hy hq _).2 g2, k2, ?_⟩
      obtain ⟨n, hn⟩ := List.mem_iff_getElem?.1 g4
      rcases samePositions_get? (samePositions_drop k3 1) n with ⟨k4, k5⟩ | ⟨q', j', k4, k5, k6⟩
      · rw [hn] at k5; simp at k5
      · rw [hn] at k5
        obtain rfl := Option.some.inj k5
        rw [nodup_get?_inj hX.nodup hp k6]
        exact List.mem_of_getElem? k4

/-! ### SPY -/

theorem majorityAmong_eq {y : List Int} {maj : Int} {nb : List Nat} (h : ∀ i ∈ nb, i < y.length) :
    majorityAmong y maj nb = .ok (nb.filter (fun i => decide (y.getD i 0 = maj))) := by
  unfold majorityAmong
  rw [takeRows_getD (a := 0) h, ok_bind]
  refine congrArg Except.ok ?_
  clear h
  induction nb with
  | nil => rfl
  | cons i nb ih =>
    rw [List.map_cons, List.zip_cons_cons, List.filter_cons, List.filter_cons]
    split
    · rw [List.map_cons, ih]
    · exact ih

/-- The rows relabelled because of the neighbours `nb`. -/
def flipsOf (threshold : ℚ) (k : Nat) (y : List Int) (maj : Int) (nb : List Nat) : List Nat :=
  if (((nb.drop 1).filter (fun i => decide (y.getD i 0 = maj))).length : ℚ) < threshold * k then
    (nb.drop 1).filter (fun i => decide (y.getD i 0 = maj)) else []

theorem spyFlips_eq {threshold : ℚ} {k : Nat} {y : List Int} {maj : Int} {nb : List Nat} (h : ∀ i ∈ nb, i < y.length) :
    spyFlips threshold k y maj nb = .ok (flipsOf threshold k y maj nb) := by
  unfold spyFlips
  rw [majorityAmong_eq fun i hi => h i (List.mem_of_mem_drop hi), ok_bind]
  rfl

theorem flipsOf_same {σ : List Nat} {y y' : List Int} (hy : Reordered σ y y') {r r' : List Nat} (h : SamePositions σ r r') (threshold : ℚ) (k : Nat)
    (maj : Int) : SamePositions σ (flipsOf threshold k y maj r) (flipsOf threshold k y' maj r') := by
  have hf : ∀ {r r' : List Nat}, SamePositions σ r r' → SamePositions σ (r.filter (fun i => decide (y.getD i 0 = maj)))
      (r'.filter (fun i => decide (y'.getD i 0 = maj))) := by
    intro r r' h
    unfold SamePositions at h ⊢
    induction h with
    | nil => exact .nil
    | @cons q j l1 l2 h1 _ ih =>
      have e : y'.getD q 0 = y.getD j 0 := by
        rw [List.getD_eq_getElem?_getD, List.getD_eq_getElem?_getD, hy.get? h1]
      rw [List.filter_cons, List.filter_cons, e]
      split
      · exact .cons h1 ih
      · exact ih
  have h2 := hf (samePositions_drop h 1)
  have hl := List.Forall₂.length_eq h2
  unfold flipsOf
  rw [hl]
  split
  · exact h2
  · exact .nil

theorem mem_samePositions {σ : List Nat} (hn : σ.Nodup) {r r' : List Nat} (h : SamePositions σ r r') {p i : Nat} (hp : σ[p]? = some i) :
    p ∈ r' ↔ i ∈ r := by
  unfold SamePositions at h
  induction h with
  | nil => simp
  | @cons q j l1 l2 h1 _ ih =>
    rw [List.mem_cons, List.mem_cons, ih]
    refine or_congr_left ⟨?_, ?_⟩
    · rintro rfl
      exact Option.some.inj (hp.symm.trans h1)
    · rintro rfl
      exact nodup_get?_inj hn hp h1

/-- SPY relabels the same rows in any order, if the search finds the same neighbours. -/
theorem C121_spy {near : Nat → List Row → Row → List Nat} {threshold : ℚ} {nNeighbors : Nat} {checks : List Check} {d : Nat} {σ : List Nat}
    {X X' : List Row} {y y' : List Int} {a b : Int} (hl : X.length = y.length) (hm : IsMinority y a b) (hX : Reordered σ X X')
    (hy : Reordered σ y y') (hnear : ∀ x ∈ X, (∀ i ∈ near (min X.length (nNeighbors + 1)) X x, i < X.length) ∧
      (∀ i ∈ near (min X.length (nNeighbors + 1)) X' x, i < X.length) ∧
      SamePositions σ (near (min X.length (nNeighbors + 1)) X x) (near (min X.length (nNeighbors + 1)) X' x)) :
    SameRows (sample checks d (spyAlg threshold nNeighbors (fun k X Q => Q.map (near k X))) X y)
      (sample checks d (spyAlg threshold nNeighbors (fun k X Q => Q.map (near k X))) X' y') := by
  have hz := hX.zip hy hl
  obtain ⟨s, hs, e1, e2⟩ := stats_of_isMinority hm
  obtain ⟨s', hs', e1', e2'⟩ := stats_of_isMinority (hy.isMinority hm)
  have hc : s'.count s'.minLabel = s.count s.minLabel := by
    rw [stats_count hs (stats_min_mem hs).1, stats_count hs' (stats_min_mem hs').1, e1, e1', hy.perm_items.count_eq]
  right
  unfold sample
  rw [hs, hs', ok_bind, ok_bind, hc]
  split
  · exact ⟨X, y, X', y', rfl, rfl, hz.perm_items⟩
  · unfold spyAlg
    dsimp only
    rw [e1, e1', e2, e2', hX.length_eq]
    set k := min X.length (nNeighbors + 1)
    have hrows : (selectLabel X' y' a).Perm (selectLabel X y a) := by
      rw [selectLabel_eq_classRows, selectLabel_eq_classRows]
      exact (hz.perm_items.filter _).map _
    have hsub : ∀ x ∈ selectLabel X y a, x ∈ X := fun x hx => selectLabel_mem hx
    have f1 : ((selectLabel X y a).map (near k X)).mapM (spyFlips threshold k y b) =
        .ok ((selectLabel X y a).map (fun x => flipsOf threshold k y b (near k X x))) := by
      rw [List.mapM_map]
      refine mapM_ok_of fun x hx => spyFlips_eq fun i hi => ?_
      rw [← hl]; exact (hnear x (hsub x hx)).1 i hi
    have f2 : ((selectLabel X' y' a).map (near k X')).mapM (spyFlips threshold k y' b) =
        .ok ((selectLabel X' y' a).map (fun x => flipsOf threshold k y' b (near k X' x))) := by
      rw [List.mapM_map]
      refine mapM_ok_of fun x hx => spyFlips_eq fun i hi => ?_
      rw [hy.length_eq, ← hl]; exact (hnear x (hsub x (hrows.mem_iff.1 hx))).2.1 i hi
    rw [f1, f2, ok_bind, ok_bind]
    refine ⟨_, _, _, _, rfl, rfl, ?_⟩
    set F := ((selectLabel X y a).map (fun x => flipsOf threshold k y b (near k X x))).flatten with hF
    set F' := ((selectLabel X' y' a).map (fun x => flipsOf threshold k y' b (near k X' x))).flatten with hF'
    have hmem : ∀ p i : Nat, σ[p]? = some i → (p ∈ F' ↔ i ∈ F) := by
      intro p i hp
      rw [hF, hF']
      simp only [List.mem_flatten, List.mem_map]
      constructor
      · rintro ⟨_, ⟨x, hx, rfl⟩, h⟩
        have hx' := hrows.mem_iff.1 hx
        exact ⟨_, ⟨x, hx', rfl⟩, (mem_samePositions hX.nodup (flipsOf_same hy (hnear x (hsub x hx')).2.2 threshold k b) hp).1 h⟩
      · rintro ⟨_, ⟨x, hx, rfl⟩, h⟩
        exact ⟨_, ⟨x, hrows.mem_iff.2 hx, rfl⟩, (mem_samePositions hX.nodup (flipsOf_same hy (hnear x (hsub x hx)).2.2 threshold k b) hp).2 h⟩
    have hre : Reordered σ (assignAt y F a) (assignAt y' F' a) := by
      refine ⟨by rw [assignAt_length]; exact hy.perm, ?_⟩
      rw [List.forall₂_iff_get]
      refine ⟨by rw [assignAt_length, hy.length_eq, hy.length_pos], fun p h1 h2 => ?_⟩
      have hp : σ[p]? = some σ[p] := List.getElem?_eq_getElem h1
      have hlt := hy.lt hp
      have hlt' : p < y'.length := by rwa [assignAt_length] at h2
      have g1 := assignAt_get y F a σ[p] hlt
      have g2 := assignAt_get y' F' a p hlt'
      have g3 := hy.get? hp
      simp only [List.get_eq_getElem]
      rw [← List.getElem?_eq_getElem h2, g1, g2]
      simp only [hmem p _ hp, g3]
    exact (hX.zip hre (by rw [assignAt_length, hl])).perm_items

/-- The exact search meets the hypothesis on data without ties. -/
theorem C121_spy_exact {threshold : ℚ} {nNeighbors : Nat} {checks : List Check} {d : Nat} {σ : List Nat}
    {X X' : List Row} {y y' : List Int} {a b : Int} (hl : X.length = y.length) (hm : IsMinority y a b) (hX : Reordered σ X X')
    (hy : Reordered σ y y') (hx : ∀ x ∈ X, NoTies X x) :
    SameRows (sample checks d (spyAlg threshold nNeighbors (fun k X Q => Q.map (nearestTo X k))) X y)
      (sample checks d (spyAlg threshold nNeighbors (fun k X Q => Q.map (nearestTo X k))) X' y') := by
  have hlt : ∀ (X : List Row) (k : Nat) (x : Row), ∀ i ∈ nearestTo X k x, i < X.length := by
    intro X k x i hi
    have hp := List.perm_insertionSort (fun a b => sqDist x (X.getD a []) ≤ sqDist x (X.getD b [])) (List.range X.length)
    exact List.mem_range.1 (hp.mem_iff.1 (List.mem_of_mem_take hi))
  refine C121_spy (near := fun k X x => nearestTo X k x) hl hm hX hy fun x hxm => ⟨hlt X _ x, ?_, nearestTo_same hX (hx x hxm) _⟩
  intro i hi
  rw [← hX.length_eq]
  exact hlt X' _ x i hi

/-! ### polynom_fit_SMOTE -/

theorem rowAdd_leftComm (a b c : Row) : Row.add a (Row.add b c) = Row.add b (Row.add a c) := by
  unfold Row.add
  refine List.ext_getElem (by simp; omega) fun i h1 h2 => ?_
  simp only [List.getElem_zipWith]
  ring

theorem rowSum_perm {d : Nat} {A B : List Row} (h : A.Perm B) : rowSum d A = rowSum d B := by
  unfold rowSum
  have : LeftCommutative Row.add := ⟨rowAdd_leftComm⟩
  exact h.foldr_eq _

theorem zip_append_perm {X X' N N' : List Row} {y y' : List Int} {l : Int} (hl : X.length = y.length) (hl' : X'.length = y'.length)
    (hz : (X'.zip y').Perm (X.zip y)) (hN : N'.Perm N) :
    ((X' ++ N').zip (y' ++ List.replicate N'.length l)).Perm ((X ++ N).zip (y ++ List.replicate N.length l)) := by
  have e : ∀ N : List Row, N.zip (List.replicate N.length l) = N.map (fun x => (x, l)) := by
    intro N
    induction N with
    | nil => rfl
    | cons x N ih => rw [List.length_cons, List.replicate_succ, List.zip_cons_cons, ih, List.map_cons]
  rw [List.zip_append hl, List.zip_append hl', e, e]
  exact hz.append (hN.map _)

/-- The star topology does not depend on the order of the rows: it joins each minority row to the mean. -/
theorem C121_star {proportion : ℚ} {d d0 : Nat} {checks : List Check} {X X' : List Row} {y y' : List Int} {a b : Int} (hl : X.length = y.length)
    (hl' : X'.length = y'.length) (hm : IsMinority y a b) (hz : (X'.zip y').Perm (X.zip y)) :
    SameRows (sample checks d0 (polynomAlg proportion .star d) X y) (sample checks d0 (polynomAlg proportion .star d) X' y') := by
  have hyp : y'.Perm y := by
    have := hz.map Prod.snd
    rwa [List.map_snd_zip (by omega), List.map_snd_zip (by omega)] at this
  have hm' : IsMinority y' a b := by
    obtain ⟨h1, h2, h3, h4⟩ := hm
    refine ⟨hyp.mem_iff.2 h1, hyp.mem_iff.2 h2, fun l hl => h3 l (hyp.mem_iff.1 hl), ?_⟩
    rw [hyp.count_eq, hyp.count_eq]; exact h4
  obtain ⟨s, hs, e1, e2⟩ := stats_of_isMinority hm
  obtain ⟨s', hs', e1', e2'⟩ := stats_of_isMinority hm'
  have hc : s'.count s'.minLabel = s.count s.minLabel := by
    rw [stats_count hs (stats_min_mem hs).1, stats_count hs' (stats_min_mem hs').1, e1, e1', hyp.count_eq]
  have hc' : s'.count s'.majLabel = s.count s.majLabel := by
    rw [stats_count hs (stats_min_mem hs).2.1, stats_count hs' (stats_min_mem hs').2.1, e2, e2', hyp.count_eq]
  have hrows : (selectLabel X' y' a).Perm (selectLabel X y a) := by
    rw [selectLabel_eq_classRows, selectLabel_eq_classRows]
    exact (hz.filter _).map _
  unfold sample
  rw [hs, hs', ok_bind, ok_bind, hc]
  split
  · exact Or.inr ⟨X, y, X', y', rfl, rfl, hz⟩
  · unfold polynomAlg
    rw [hc, hc']
    cases hn : detNToSample (.num proportion) (s.count s.majLabel) (s.count s.minLabel) with
    | error e => exact Or.inl ⟨e, rfl, rfl⟩
    | ok n =>
      rw [ok_bind, ok_bind]
      right
      split
      · exact ⟨X, y, X', y', rfl, rfl, hz⟩
      · refine ⟨_, _, _, _, rfl, rfl, ?_⟩
        rw [e1, e1']
        refine zip_append_perm hl hl' hz ?_
        simp only [Topology.samples, starSamples]
        have hmean : meanRow d (selectLabel X' y' a) = meanRow d (selectLabel X y a) := by
          unfold meanRow; rw [hrows.length_eq, rowSum_perm hrows]
        rw [hmean, hrows.length_eq]
        exact List.Perm.flatMap_right _ hrows

/-- The bus topology joins each minority row to the next one, so the order matters. -/
theorem C121_bus_not : ∃ (X X' : List Row) (y : List Int), X.length = y.length ∧ IsMinority y 1 0 ∧ (X'.zip y).Perm (X.zip y) ∧
    ¬ SameRows (sample defaultChecks 1 (polynomAlg 1 .bus 1) X y) (sample defaultChecks 1 (polynomAlg 1 .bus 1) X' y) := by
  refine ⟨[[0], [1], [3], [20], [21], [22], [23], [24]], [[1], [0], [3], [20], [21], [22], [23], [24]], [1, 1, 1, 0, 0, 0, 0, 0], rfl,
    ⟨by decide, by decide, by decide, Or.inl (by decide)⟩, by decide, ?_⟩
  have e1 : sample defaultChecks 1 (polynomAlg 1 .bus 1) [[0], [1], [3], [20], [21], [22], [23], [24]] [1, 1, 1, 0, 0, 0, 0, 0] =
    .ok ([[0], [1], [3], [20], [21], [22], [23], [24], [1 / 2], [2]], [1, 1, 1, 0, 0, 0, 0, 0, 1, 1]) := by decide +kernel
  have e2 : sample defaultChecks 1 (polynomAlg 1 .bus 1) [[1], [0], [3], [20], [21], [22], [23], [24]] [1, 1, 1, 0, 0, 0, 0, 0] =
    .ok ([[1], [0], [3], [20], [21], [22], [23], [24], [1 / 2], [3 / 2]], [1, 1, 1, 0, 0, 0, 0, 0, 1, 1]) := by decide +kernel
  rw [e1, e2]
  rintro (⟨e, h, _⟩ | ⟨X, y, X', y', h, h', hp⟩)
  · cases h
  · obtain ⟨rfl, rfl⟩ := Prod.mk.inj (Except.ok.inj h)
    obtain ⟨rfl, rfl⟩ := Prod.mk.inj (Except.ok.inj h')
    revert hp
    decide +kernel

/-! ### SMOTE -/

/-- Every list with the same items is a reordering. -/
theorem reordered_of_perm {α : Type} {xs xs' : List α} (h : xs'.Perm xs) : ∃ σ, Reordered σ xs xs' := by
  induction h with
  | nil => exact ⟨[], .refl _, .nil⟩
  | @cons x l1 l2 _ ih =>
    obtain ⟨σ, h1, h2⟩ := ih
    refine ⟨0 :: σ.map (· + 1), ?_, .cons (by simp) ?_⟩
    · rw [List.length_cons, List.range_succ_eq_map]
      exact (h1.map _).cons 0
    · rw [List.forall₂_map_left_iff]
      exact h2.imp fun i x h => by simpa using h
  | @swap x z l =>
    refine ⟨1 :: 0 :: (List.range l.length).map (· + 2), ?_, .cons (by simp) (.cons (by simp) ?_)⟩
    · rw [List.length_cons, List.length_cons, List.range_succ_eq_map, List.range_succ_eq_map, List.map_cons, List.map_map]
      exact List.Perm.swap _ _ _
    · rw [List.forall₂_map_left_iff, List.forall₂_iff_get]
      exact ⟨by simp, fun i h1 h2 => by simp⟩
  | @trans l1 l2 l3 _ _ ih1 ih2 =>
    obtain ⟨σ, h1, h2⟩ := ih1
    obtain ⟨τ, h3, h4⟩ := ih2
    have hT : Reordered τ l3 l2 := ⟨h3, h4⟩
    have hS : Reordered σ l2 l1 := ⟨h1, h2⟩
    refine ⟨σ.map (fun p => τ.getD p 0), ?_, ?_⟩
    · have : (List.range l2.length).map (fun p => τ.getD p 0) = τ := by
        rw [hT.length_eq, ← hT.length_pos]
        refine List.ext_getElem (by simp) fun i h1 h2 => ?_
        simp [List.getD_eq_getElem?_getD, List.getElem?_eq_getElem h2]
      refine (h1.map _).trans ?_
      rw [this]; exact h3
    · rw [List.forall₂_map_left_iff]
      have hlt : ∀ p ∈ σ, p < τ.length := by
        intro p hp
        have := List.mem_range.1 (h1.mem_iff.1 hp)
        rwa [hT.length_eq, ← hT.length_pos] at this
      rw [List.forall₂_iff_get] at h2 ⊢
      refine ⟨h2.1, fun i g1 g2 => ?_⟩
      have := h2.2 i g1 g2
      simp only [List.get_eq_getElem] at this ⊢
      have hp := hlt _ (List.getElem_mem g1)
      have e : τ[σ[i]]? = some (τ.getD σ[i] 0) := by
        rw [List.getD_eq_getElem?_getD, List.getElem?_eq_getElem hp]; rfl
      rw [← hT.get? e]; exact this

/-- SMOTE with simplices and points drawn at random: whatever new rows it can give for some data, it can give for the same data in another
order, with other draws. The search is used on the minority rows only. -/
theorem C121_smote {par : SmoteParams} {vol : List Row → ℚ} {dr : Draws} {d : Nat} {knn : Nat → List Row → List (List Nat)} {σ : List Nat}
    {X X' : List Row} {y y' : List Int} {a b : Int} (hk : KnnOK knn) (hs : par.ss.simplexSampling ≠ .deterministic)
    (hw : par.ss.within ≠ .deterministic) (hdr : dr.OK) (hl : X.length = y.length) (hl' : X'.length = y'.length) (hm : IsMinority y a b)
    (hm' : IsMinority y' a b) (hb : y'.count b = y.count b) (hX : Reordered σ (classRows X y a) (classRows X' y' a))
    (hS : SameNeighbors σ (knn (min (y.count a) (par.nNeighbors + 1)) (classRows X y a))
      (knn (min (y.count a) (par.nNeighbors + 1)) (classRows X' y' a))) :
    ∃ dr' : Draws, dr'.OK ∧ newRows X' (smoteSample par vol dr' d knn X' y') = newRows X (smoteSample par vol dr d knn X y) := by
  obtain ⟨s, hst, e1, e2⟩ := stats_of_isMinority hm
  obtain ⟨s', hst', e1', e2'⟩ := stats_of_isMinority hm'
  have hlen : (classRows X y a).length = y.count a := by rw [← selectLabel_eq_classRows, selectLabel_length hl]
  have hlen' : (classRows X' y' a).length = y'.count a := by rw [← selectLabel_eq_classRows, selectLabel_length hl']
  have ha : y'.count a = y.count a := by rw [← hlen, ← hlen', hX.length_eq]
  have c1 : s.count s.minLabel = y.count a := by rw [stats_count hst (stats_min_mem hst).1, e1]
  have c2 : s.count s.majLabel = y.count b := by rw [stats_count hst (stats_min_mem hst).2.1, e2]
  have c1' : s'.count s'.minLabel = y.count a := by rw [stats_count hst' (stats_min_mem hst').1, e1', ha]
  have c2' : s'.count s'.majLabel = y.count b := by rw [stats_count hst' (stats_min_mem hst').2.1, e2', hb]
  set k := min (y.count a) (par.nNeighbors + 1) with hkdef
  obtain ⟨t1, t2⟩ := hk k (classRows X y a) (by rw [hlen]; exact min_le_left _ _)
  obtain ⟨t1', t2'⟩ := hk k (classRows X' y' a) (by rw [hlen', ha]; exact min_le_left _ _)
  have key : ∀ n, ∃ dr' : Draws, dr'.OK ∧ sampleSimplex par.ss vol dr' d (classRows X' y' a) (knn k (classRows X' y' a)) k n {} =
      sampleSimplex par.ss vol dr d (classRows X y a) (knn k (classRows X y a)) k n {} := fun n =>
    sampleSimplex_reordered hs hw hdr hX hS t1 t1' t2 t2'
  have hrun : ∀ dr' : Draws, (∀ n, detNToSample (.num par.proportion) (y.count b) (y.count a) = .ok n →
      sampleSimplex par.ss vol dr' d (classRows X' y' a) (knn k (classRows X' y' a)) k n {} =
      sampleSimplex par.ss vol dr d (classRows X y a) (knn k (classRows X y a)) k n {}) →
      newRows X' (smoteSample par vol dr' d knn X' y') = newRows X (smoteSample par vol dr d knn X y) := by
    intro dr' h2
    unfold smoteSample sample smoteAlg
    rw [hst, hst', ok_bind, ok_bind, c1, c2, c1', c2', e1, e1', selectLabel_eq_classRows, selectLabel_eq_classRows]
    split
    · simp only [new_pure, List.drop_length]
    · cases hn : detNToSample (.num par.proportion) (y.count b) (y.count a) with
      | error e => rfl
      | ok n =>
        rw [ok_bind, ok_bind]
        split
        · simp only [new_pure, List.drop_length]
        · dsimp only
          rw [hlen, hlen', ha, ← hkdef, h2 n hn, new_bind, new_bind]
          refine bind_congr fun S => ?_
          rw [new_pure, new_pure, List.drop_left, List.drop_left]
  cases hn : detNToSample (.num par.proportion) (y.count b) (y.count a) with
  | error e => exact ⟨dr, hdr, hrun dr fun n h => by rw [hn] at h; cases h⟩
  | ok n =>
    obtain ⟨dr', h1, h2⟩ := key n
    refine ⟨dr', h1, hrun dr' fun m h => ?_⟩
    rw [hn] at h
    obtain rfl := Except.ok.inj h
    exact h2

/-- In particular with the exact search, when there are no ties among the minority rows. -/
theorem C121_smote_exact {par : SmoteParams} {vol : List Row → ℚ} {dr : Draws} {d : Nat}
    {X X' : List Row} {y y' : List Int} {a b : Int} (hs : par.ss.simplexSampling ≠ .deterministic)
    (hw : par.ss.within ≠ .deterministic) (hdr : dr.OK) (hl : X.length = y.length) (hl' : X'.length = y'.length) (hm : IsMinority y a b)
    (hz : (X'.zip y').Perm (X.zip y)) (hx : ∀ x ∈ classRows X y a, NoTies (classRows X y a) x) :
    ∃ dr' : Draws, dr'.OK ∧ newRows X' (smoteSample par vol dr' d bruteKnn X' y') = newRows X (smoteSample par vol dr d bruteKnn X y) := by
  have hyp : y'.Perm y := by
    have := hz.map Prod.snd
    rwa [List.map_snd_zip (by omega), List.map_snd_zip (by omega)] at this
  have hm' : IsMinority y' a b := by
    obtain ⟨h1, h2, h3, h4⟩ := hm
    refine ⟨hyp.mem_iff.2 h1, hyp.mem_iff.2 h2, fun l hl => h3 l (hyp.mem_iff.1 hl), ?_⟩
    rw [hyp.count_eq, hyp.count_eq]; exact h4
  obtain ⟨σ, hσ⟩ := reordered_of_perm (xs := classRows X y a) (xs' := classRows X' y' a) ((hz.filter _).map _)
  exact C121_smote bruteKnn_ok hs hw hdr hl hl' hm hm' (hyp.count_eq b) hσ (bruteKnn_same hσ hx _)

/-- Deterministic SMOTE depends on the order of the rows. -/
theorem C121_smote_deterministic_not : ∃ (X X' : List Row) (y y' : List Int), X.length = y.length ∧ IsMinority y 1 0 ∧
    (X'.zip y').Perm (X.zip y) ∧ (∀ x ∈ X, NoTies X x) ∧ ∀ dr dr' : Draws,
    ¬ SameRows (smoteSample ⟨1, 2, ⟨2, .deterministic, .deterministic, .none⟩⟩ (fun _ => 1) dr 1 bruteKnn X y)
      (smoteSample ⟨1, 2, ⟨2, .deterministic, .deterministic, .none⟩⟩ (fun _ => 1) dr' 1 bruteKnn X' y') := by
  refine ⟨[[1], [0], [3], [20], [50], [120], [260], [600]], [[0], [3], [1], [20], [50], [120], [260], [600]], [1, 1, 1, 0, 0, 0, 0, 0],
    [1, 1, 1, 0, 0, 0, 0, 0], rfl, ⟨by decide, by decide, by decide, Or.inl (by decide)⟩, by decide, by decide +kernel, fun dr dr' => ?_⟩
  have hd : ∀ dr X y, smoteSample ⟨1, 2, ⟨2, .deterministic, .deterministic, .none⟩⟩ (fun _ => 1) dr 1 bruteKnn X y =
      smoteSample ⟨1, 2, ⟨2, .deterministic, .deterministic, .none⟩⟩ (fun _ => 1) exDraws 1 bruteKnn X y := by
    intro dr X y
    simp only [smoteSample, sample, smoteAlg, sampleSimplex, simplicesSel, if_true, addGaussianNoise]
  rw [hd dr, hd dr']
  have e1 : smoteSample ⟨1, 2, ⟨2, .deterministic, .deterministic, .none⟩⟩ (fun _ => 1) exDraws 1 bruteKnn
    [[1], [0], [3], [20], [50], [120], [260], [600]] [1, 1, 1, 0, 0, 0, 0, 0] =
    .ok ([[1], [0], [3], [20], [50], [120], [260], [600], [1 / 2], [3 / 2]], [1, 1, 1, 0, 0, 0, 0, 0, 1, 1]) := by decide +kernel
  have e2 : smoteSample ⟨1, 2, ⟨2, .deterministic, .deterministic, .none⟩⟩ (fun _ => 1) exDraws 1 bruteKnn
    [[0], [3], [1], [20], [50], [120], [260], [600]] [1, 1, 1, 0, 0, 0, 0, 0] =
    .ok ([[0], [3], [1], [20], [50], [120], [260], [600], [7 / 3], [5 / 3]], [1, 1, 1, 0, 0, 0, 0, 0, 1, 1]) := by decide +kernel
  rw [e1, e2]
  rintro (⟨e, h, _⟩ | ⟨X, y, X', y', h, h', hp⟩)
  · cases h
  · obtain ⟨rfl, rfl⟩ := Prod.mk.inj (Except.ok.inj h)
    obtain ⟨rfl, rfl⟩ := Prod.mk.inj (Except.ok.inj h')
    revert hp
    decide +kernel

/-! ### Condensing -/

theorem not_sameRows {r r' : Res (List Row × List Int)} {X X' : List Row} {y y' : List Int} (h : r = .ok (X, y)) (h' : r' = .ok (X', y'))
    (hn : ¬ (X'.zip y').Perm (X.zip y)) : ¬ SameRows r r' := by
  subst h h'
  rintro (⟨e, h, _⟩ | ⟨_, _, _, _, h, h', hp⟩)
  · cases h
  · obtain ⟨rfl, rfl⟩ := Prod.mk.inj (Except.ok.inj h)
    obtain ⟨rfl, rfl⟩ := Prod.mk.inj (Except.ok.inj h')
    exact hn hp

/-- Rows in two orders, without ties. -/
theorem orderExample : Reordered [0, 3, 2, 1, 4] ([[10], [0], [8], [7], [21]] : List Row) [[10], [7], [8], [0], [21]] ∧
    Reordered [0, 3, 2, 1, 4] ([1, 0, 0, 0, 1] : List Int) [1, 0, 0, 0, 1] ∧
    ∀ x ∈ ([[10], [0], [8], [7], [21]] : List Row), NoTies [[10], [0], [8], [7], [21]] x :=
  ⟨⟨by decide, .cons rfl (.cons rfl (.cons rfl (.cons rfl (.cons rfl .nil))))⟩,
    ⟨by decide, .cons rfl (.cons rfl (.cons rfl (.cons rfl (.cons rfl .nil))))⟩, by decide +kernel⟩

/-- The condensed nearest neighbour rule starts with the first majority row, so it depends on the order. -/
theorem C121_cnn_not : ¬ IgnoresOrder [] (fun _ => cnnRemove nn1) := by
  intro h
  have h1 := h bruteKnn _ _ _ _ _ 1 0 bruteKnn_ok rfl ⟨by decide, by decide, by decide, Or.inl (by decide)⟩ orderExample.1 orderExample.2.1
    (by simp)
  exact not_sameRows (X := [[10], [21], [0], [8], [7]]) (y := [1, 1, 0, 0, 0]) (X' := [[10], [21], [7]]) (y' := [1, 1, 0])
    (by decide +kernel) (by decide +kernel) (by decide +kernel) h1

/-- And with it the one sided selection. -/
theorem C121_oss_not : ¬ IgnoresOrder [2] (fun knn => ossRemove knn nn1) := by
  intro h
  have h1 := h bruteKnn _ _ _ _ _ 1 0 bruteKnn_ok rfl ⟨by decide, by decide, by decide, Or.inl (by decide)⟩ orderExample.1 orderExample.2.1
    (fun k _ _ => bruteKnn_same orderExample.1 orderExample.2.2 k)
  exact not_sameRows (X := [[10], [21], [0], [8], [7]]) (y := [1, 1, 0, 0, 0]) (X' := [[10], [21], [7]]) (y' := [1, 1, 0])
    (by decide +kernel) (by decide +kernel) (by decide +kernel) h1

/-- And condensing followed by the Tomek link removal. -/
theorem C121_cnn_tomek_not : ¬ IgnoresOrder [2] (fun knn => cnnTomekRemove knn nn1) := by
  intro h
  have h1 := h bruteKnn _ _ _ _ _ 1 0 bruteKnn_ok rfl ⟨by decide, by decide, by decide, Or.inl (by decide)⟩ orderExample.1 orderExample.2.1
    (fun k _ _ => bruteKnn_same orderExample.1 orderExample.2.2 k)
  exact not_sameRows (X := [[10], [21], [0], [8], [7]]) (y := [1, 1, 0, 0, 0]) (X' := [[21], [7]]) (y' := [1, 0])
    (by decide +kernel) (by decide +kernel) (by decide +kernel) h1

/-- The cleaners meet the hypotheses on the data of `orderExample`, and remove a row there. -/
example : KnnOK bruteKnn ∧ SameNeighbors [0, 3, 2, 1, 4] (bruteKnn 2 [[10], [0], [8], [7], [21]]) (bruteKnn 2 [[10], [7], [8], [0], [21]]) ∧
    tomekRemove .removeMajority bruteKnn [[10], [0], [8], [9], [21]] [1, 0, 0, 0, 1] = .ok ([[10], [0], [8], [21]], [1, 0, 0, 1]) :=
  ⟨bruteKnn_ok, bruteKnn_same orderExample.1 orderExample.2.2 2, by decide +kernel⟩

/-- Data for `C121_smote_exact`, `C121_star` and `C121_spy_exact`. -/
example : exDraws.OK ∧ exPar.ss.simplexSampling ≠ .deterministic ∧ exPar.ss.within ≠ .deterministic ∧
    IsMinority [1, 0, 1, 0, 0, 1, 0] 1 0 ∧
    (([[3], [20], [0], [21], [24], [1], [30]] : List Row).zip [1, 0, 1, 0, 0, 1, 0]).Perm
      (([[0], [20], [1], [21], [24], [3], [30]] : List Row).zip [1, 0, 1, 0, 0, 1, 0]) ∧
    (∀ x ∈ classRows ([[0], [20], [1], [21], [24], [3], [30]] : List Row) [1, 0, 1, 0, 0, 1, 0] 1,
      NoTies (classRows ([[0], [20], [1], [21], [24], [3], [30]] : List Row) [1, 0, 1, 0, 0, 1, 0] 1) x) ∧
    newRows [[0], [20], [1], [21], [24], [3], [30]] (smoteSample exPar (fun _ => 1) exDraws 1 bruteKnn [[0], [20], [1], [21], [24], [3], [30]]
      [1, 0, 1, 0, 0, 1, 0]) = .ok [[9 / 5]] :=
  ⟨exDraws_ok, by decide, by decide, ⟨by decide, by decide, by decide, Or.inl (by decide)⟩, by decide, by decide +kernel, by decide +kernel⟩

end Verif

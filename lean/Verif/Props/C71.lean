import Verif.Model.Selected
import Verif.Props.C63
import Verif.Props.C70

/-! # C71: Selected_SMOTE and ROSE -/

namespace Verif

/-! ## Specification -/

/-- The smallest and the largest value of an attribute. -/
def IsRange (rows : List Row) (j : Nat) (lo hi : ℚ) : Prop :=
  (∃ r ∈ rows, r.getD j 0 = lo) ∧ (∃ r ∈ rows, r.getD j 0 = hi) ∧ ∀ r ∈ rows, lo ≤ r.getD j 0 ∧ r.getD j 0 ≤ hi

/-- `q` is the part of the minority range of attribute `j` which the majority range covers; 0 for a constant attribute. -/
def IsOverlap (A B : List Row) (j : Nat) (q : ℚ) : Prop :=
  ∃ a b a' b', IsRange A j a b ∧ IsRange B j a' b' ∧ q * (b - a) = (if a = b then 0 else max 0 (min b b' - max a a')) ∧ (a = b → q = 0)

/-- `z` is between a minority row and one of its neighbours, and differs from the row only in the attributes `moved`. -/
def MovedIn (d : Nat) (A : List Row) (table : List (List Nat)) (moved : Nat → Prop) (z : Row) : Prop :=
  ∃ (b : Nat) (base nb : Row) (row : List Nat) (q : Nat), A[b]? = some base ∧ table[b]? = some row ∧ q ∈ row.drop 1 ∧
    A[q]? = some nb ∧ Between d base nb z ∧ ∀ k, k < d → ¬ moved k → z.getD k 0 = base.getD k 0

/-- Attribute `k` has the largest overlap. -/
def LargestOverlap (d : Nat) (A B : List Row) (k : Nat) : Prop :=
  ∃ q, IsOverlap A B k q ∧ ∀ j, j < d → ∃ q', IsOverlap A B j q' ∧ q' ≤ q

/-! ## Selected_SMOTE -/

theorem isRange_minL {rows : List Row} (h : rows ≠ []) (j : Nat) :
    IsRange rows j (minL (rows.map (fun r => r.getD j 0))) (maxL (rows.map (fun r => r.getD j 0))) := by
  obtain ⟨m1, m2⟩ := minL_spec (l := rows.map (fun r => r.getD j 0)) (by simpa using h)
  obtain ⟨M1, M2⟩ := maxL_spec (l := rows.map (fun r => r.getD j 0)) (by simpa using h)
  refine ⟨List.mem_map.1 m1, List.mem_map.1 M1, fun r hr => ⟨m2 _ (List.mem_map.2 ⟨r, hr, rfl⟩), M2 _ (List.mem_map.2 ⟨r, hr, rfl⟩)⟩⟩

theorem overlapShare_isOverlap {A B : List Row} (hA : A ≠ []) (hB : B ≠ []) (j : Nat) : IsOverlap A B j (overlapShare A B j) := by
  refine ⟨_, _, _, _, isRange_minL hA j, isRange_minL hB j, ?_, ?_⟩
  · unfold overlapShare
    dsimp only
    set a := minL (A.map (fun r => r.getD j 0))
    set b := maxL (A.map (fun r => r.getD j 0))
    set o := min b (maxL (B.map (fun r => r.getD j 0))) - max a (minL (B.map (fun r => r.getD j 0)))
    have ho : (if o < 0 then 0 else o) = max 0 o := by
      split
      · rw [max_eq_left (by linarith)]
      · rw [max_eq_right (by linarith)]
    rw [ho]
    by_cases hab : a = b
    · rw [if_pos hab, hab]; simp
    · rw [if_neg hab, if_pos (sub_ne_zero.2 (Ne.symm hab)), div_mul_cancel₀ _ (sub_ne_zero.2 (Ne.symm hab))]
  · intro h
    unfold overlapShare
    dsimp only
    rw [if_neg (by rw [not_not, ← h, sub_self]), ← h, sub_self]

/-- `np.rint` of a number which is not negative is 0 exactly up to one half. -/
theorem rint_zero {x : ℚ} (h : 0 ≤ x) : min 1 (rint x) = if x ≤ 1 / 2 then 0 else 1 := by
  have h0 : (0 : Int) ≤ ⌊x⌋ := Int.floor_nonneg.2 h
  have h1 := Int.floor_le x
  have h2 := Int.lt_floor_add_one x
  unfold rint
  by_cases hx : x < 1
  · have hf : ⌊x⌋ = 0 := Int.floor_eq_zero_iff.2 ⟨h, hx⟩
    rw [hf]
    simp only [Int.cast_zero, sub_zero]
    by_cases hl : x < 1 / 2
    · rw [if_pos hl, if_pos hl.le]; rfl
    · rw [if_neg hl]
      by_cases hg : 1 / 2 < x
      · rw [if_pos hg, if_neg (by linarith)]; rfl
      · rw [if_neg hg, if_pos (by decide), if_pos (by linarith)]; rfl
  · have hf : 1 ≤ ⌊x⌋ := Int.le_floor.2 (by push_cast; linarith)
    rw [if_neg (by linarith : ¬ x ≤ 1 / 2)]
    split
    · exact min_eq_left hf
    · split
      · exact min_eq_left (by omega)
      · split
        · exact min_eq_left hf
        · exact min_eq_left (by omega)

theorem significantAttr_spec {share : ℚ} {d : Nat} {A B : List Row} (hs : 0 ≤ share) (k : Nat) (hk : k < d) :
    (significantAttr share d A B).getD k 0 =
      if share * d ≤ 1 / 2 ∨ ∀ j, j < d → overlapShare A B j ≤ overlapShare A B k then 1 else 0 := by
  unfold significantAttr
  dsimp only
  have hl : ((List.range d).map (overlapShare A B)).length = d := by simp
  rw [hl, rint_zero (by positivity)]
  have hne : (List.range d).map (overlapShare A B) ≠ [] := by
    intro h
    rw [h, List.length_nil] at hl
    omega
  obtain ⟨m1, m2⟩ := minL_spec hne
  obtain ⟨M1, M2⟩ := maxL_spec hne
  have hmem : ∀ j, j < d → overlapShare A B j ∈ (List.range d).map (overlapShare A B) :=
    fun j hj => List.mem_map.2 ⟨j, List.mem_range.2 hj, rfl⟩
  rw [List.getD_eq_getElem?_getD, List.getElem?_map, List.getElem?_map, List.getElem?_range hk]
  simp only [Option.map_some, Option.getD_some]
  by_cases hc : share * d ≤ 1 / 2
  · have e1 : (share * d ≤ 1 / 2 ∨ ∀ j, j < d → overlapShare A B j ≤ overlapShare A B k) := Or.inl hc
    simp only [if_pos hc, if_pos e1]
    rw [if_pos trivial, if_pos (m2 _ (hmem k hk))]
  · simp only [if_neg hc]
    have h10 : ¬ ((1 : Int) = 0) := by decide
    simp only [if_neg h10]
    by_cases hall : ∀ j, j < d → overlapShare A B j ≤ overlapShare A B k
    · have e1 : (share * d ≤ 1 / 2 ∨ ∀ j, j < d → overlapShare A B j ≤ overlapShare A B k) := Or.inr hall
      simp only [if_pos e1]
      rw [if_pos]
      obtain ⟨j, hj, hj'⟩ := List.mem_map.1 M1
      rw [← hj']
      exact hall j (List.mem_range.1 hj)
    · have e1 : ¬ (share * d ≤ 1 / 2 ∨ ∀ j, j < d → overlapShare A B j ≤ overlapShare A B k) := by
        rintro (h | h)
        · exact hc h
        · exact hall h
      simp only [if_neg e1]
      rw [if_neg]
      intro h
      exact hall (fun j hj => le_trans (M2 _ (hmem j hj)) h)

theorem largestOverlap_iff {d : Nat} {A B : List Row} {k : Nat} (hA : A ≠ []) (hB : B ≠ [])
    (h : ∀ j, j < d → overlapShare A B j ≤ overlapShare A B k) : LargestOverlap d A B k :=
  ⟨_, overlapShare_isOverlap hA hB k, fun j hj => ⟨_, overlapShare_isOverlap hA hB j, h j hj⟩⟩

/-- **Selected_SMOTE**: exactly the requested number of minority rows is appended, each between a minority row and one of its
neighbours, coordinate by coordinate. If `perc_sign_attr` times the number of attributes exceeds one half, a new row differs from the
minority row only in attributes with the largest overlap; otherwise it may differ in all. -/
theorem C71_selected {proportion share : ℚ} {nNeighbors : Nat} {ix : Nat → Nat → Nat → Nat} {un : Nat → Nat → ℚ} {d : Nat}
    {knn : Nat → List Row → List Row → List (List Nat)} {X : List Row} {y : List Int} {a b : Int}
    (hwf : WF d X y) (hk : KnnQueryOK knn) (hix : IxOK ix) (hun : ∀ i j, 0 ≤ un i j ∧ un i j < 1) (hmin : IsMinority y a b)
    (hs0 : 0 ≤ share) (hnn : 1 ≤ nNeighbors) (h3 : 2 < y.count a) (hn : 0 < requested proportion (y.count b) (y.count a)) :
    ∃ X' y', sample defaultChecks d (selectedAlg proportion nNeighbors share ix un d knn) X y = .ok (X', y') ∧
      OversampledBy X y a (requested proportion (y.count b) (y.count a)) (MovedIn d (classRows X y a)
        (knn (min (y.count a) (nNeighbors + 1)) (classRows X y a) (classRows X y a))
        (fun k => share * d ≤ 1 / 2 ∨ LargestOverlap d (classRows X y a) (classRows X y b) k)) X' y' := by
  obtain ⟨s, hs, rfl, rfl⟩ := stats_of_isMinority hmin
  obtain ⟨hm, hM, hab⟩ := stats_min_mem hs
  have hA : (classRows X y s.minLabel).length = y.count s.minLabel := classRows_length hwf.1 _
  have hB : (classRows X y s.majLabel).length = y.count s.majLabel := classRows_length hwf.1 _
  have hMpos : 0 < y.count s.majLabel := List.count_pos_iff.2 hM
  obtain ⟨k3, k4⟩ := hk (min (y.count s.minLabel) (nNeighbors + 1)) (classRows X y s.minLabel) (classRows X y s.minLabel) (by omega)
  have hAne : classRows X y s.minLabel ≠ [] := by intro h; rw [h, List.length_nil] at hA; omega
  have hBne : classRows X y s.majLabel ≠ [] := by intro h; rw [h, List.length_nil] at hB; omega
  set A := classRows X y s.minLabel with hAd
  set B := classRows X y s.majLabel with hBd
  set kk := min (y.count s.minLabel) (nNeighbors + 1) with hkk
  set n := requested proportion (y.count s.majLabel) (y.count s.minLabel) with hnd
  set sign := significantAttr share d A B with hsign
  have hspec : ∀ i, ∃ z, selectedRow ix un A (knn kk A A) kk sign i = .ok z ∧ MovedIn d A (knn kk A A)
      (fun k => share * d ≤ 1 / 2 ∨ LargestOverlap d A B k) z := by
    intro i
    set p0 := ix 0 A.length i with hp0
    have h0 : p0 < A.length := hix _ _ _ (by omega)
    have h1 : p0 < (knn kk A A).length := by omega
    obtain ⟨n1, n2⟩ := k4 _ (List.getElem_mem h1)
    have hr : 1 + ix 1 (kk - 1) i < ((knn kk A A)[p0]).length := by
      rw [n1]
      have := hix 1 (kk - 1) i (by omega)
      omega
    have hx := n2 _ (List.getElem_mem hr)
    have hbl := hwf.2 _ (mem_of_mem_classRows (List.getElem_mem h0))
    have hnl := hwf.2 _ (mem_of_mem_classRows (List.getElem_mem hx))
    have hsg : ∀ k, k < d → (sign.getD k 0 = 0 ∨ sign.getD k 0 = 1) ∧
        (¬ (share * d ≤ 1 / 2 ∨ LargestOverlap d A B k) → sign.getD k 0 = 0) := by
      intro k hkd
      rw [hsign, significantAttr_spec hs0 k hkd]
      split
      · rename_i h
        refine ⟨.inr rfl, fun hno => absurd ?_ hno⟩
        exact h.imp id (largestOverlap_iff hAne hBne)
      · exact ⟨.inl rfl, fun _ => rfl⟩
    refine ⟨mixRow A[p0] A[(knn kk A A)[p0][1 + ix 1 (kk - 1) i]] (fun j => un i j * sign.getD j 0), ?_, p0, _, _, _, _,
      List.getElem?_eq_getElem h0, List.getElem?_eq_getElem h1, ?_, List.getElem?_eq_getElem hx, ?_, ?_⟩
    · unfold selectedRow
      dsimp only
      rw [← hp0, getRow_ok.2 (List.getElem?_eq_getElem h0), ok_bind, getRow_ok.2 (List.getElem?_eq_getElem h1), ok_bind,
        getRow_ok.2 (List.getElem?_eq_getElem hr), ok_bind, getRow_ok.2 (List.getElem?_eq_getElem hx), ok_bind]
      rfl
    · rw [List.mem_iff_getElem?]
      exact ⟨ix 1 (kk - 1) i, by rw [List.getElem?_drop]; exact List.getElem?_eq_getElem hr⟩
    · refine ⟨mixRow_length hbl hnl, fun k hkd => ?_⟩
      rw [mixRow_getD hbl hnl hkd]
      have hu := hun i k
      refine mix_between ?_ ?_
      · rcases (hsg k hkd).1 with h | h <;> rw [h] <;> linarith
      · rcases (hsg k hkd).1 with h | h <;> rw [h] <;> linarith
    · intro k hkd hno
      rw [mixRow_getD hbl hnl hkd, (hsg k hkd).2 hno]
      ring
  obtain ⟨samples, hsm⟩ := mapM_exists_ok (l := List.range n) (fun i _ => (hspec i).imp (fun _ h => h.1))
  have hf := mapM_ok_iff.1 hsm
  refine ⟨_, _, ?_, withSamples_oversampledBy (samples := samples) (by rw [← hf.length_eq, List.length_range]) ?_ rfl⟩
  · rw [sample_default hs, if_neg (by omega)]
    unfold selectedAlg
    rw [stats_count hs hm, stats_count hs hM, detN_eq_requested, ok_bind, if_neg (by omega)]
    simp only [selectLabel_eq_classRows, ← hAd, ← hBd, hA, ← hkk, ← hsign]
    rw [choiceFrom_pos (by omega), ok_bind, choiceFrom_pos (by omega), ok_bind, ← hnd, hsm, ok_bind]
    rfl
  · intro z hz
    obtain ⟨i, _, hi⟩ := forall₂_mem_right hf hz
    obtain ⟨z', h1, h2⟩ := hspec i
    rw [hi] at h1
    injection h1 with h1
    subst h1
    exact h2

/-- **`perc_sign_attr` has only two effects**: all values above `1 / (2 d)` give the same result. -/
theorem C71_share {proportion share share' : ℚ} {nNeighbors : Nat} {ix : Nat → Nat → Nat → Nat} {un : Nat → Nat → ℚ} {d : Nat}
    {knn : Nat → List Row → List Row → List (List Nat)} {X : List Row} {y : List Int} (hs : 1 / 2 < share * d) (hs' : 1 / 2 < share' * d) :
    sample defaultChecks d (selectedAlg proportion nNeighbors share ix un d knn) X y =
      sample defaultChecks d (selectedAlg proportion nNeighbors share' ix un d knn) X y := by
  have key : significantAttr share d = significantAttr share' d := by
    funext A B
    unfold significantAttr
    dsimp only
    rw [List.length_map, List.length_range, rint_zero (by linarith), rint_zero (by linarith),
      if_neg (by linarith : ¬ share * d ≤ 1 / 2), if_neg (by linarith : ¬ share' * d ≤ 1 / 2)]
  have : selectedAlg proportion nNeighbors share ix un d knn = selectedAlg proportion nNeighbors share' ix un d knn := by
    funext s X y
    unfold selectedAlg
    rw [key]
  rw [this]

/-! ## ROSE -/

/-- `z` is a minority row with independent noise: attribute `k` has the width `h k`. -/
def KernelAround (d : Nat) (A : List Row) (h : Nat → ℚ) (z : Row) : Prop :=
  ∃ base ∈ A, z.length = d ∧ ∀ k, k < d → ∃ g : ℚ, z.getD k 0 = base.getD k 0 + g * h k

/-- **ROSE**: exactly the requested number of minority rows is appended, each a minority row with noise; the width for an attribute is
its deviation in the minority class times a factor which depends on the number of *all* rows and of the attributes only. -/
theorem C71_rose {proportion : ℚ} {std : List ℚ → ℚ} {width : Nat → Nat → ℚ} {ix : Nat → Nat → Nat → Nat} {normal : Nat → Nat → ℚ}
    {d : Nat} {X : List Row} {y : List Int} {a b : Int} (hwf : WF d X y) (hix : IxOK ix) (hmin : IsMinority y a b)
    (h3 : 2 < y.count a) (hn : 0 < requested proportion (y.count b) (y.count a)) :
    ∃ X' y', sample defaultChecks d (roseAlg proportion std width ix normal d) X y = .ok (X', y') ∧
      OversampledBy X y a (requested proportion (y.count b) (y.count a)) (KernelAround d (classRows X y a)
        (fun k => std ((classRows X y a).map (fun r => r.getD k 0)) * width X.length d)) X' y' := by
  obtain ⟨s, hs, rfl, rfl⟩ := stats_of_isMinority hmin
  obtain ⟨hm, hM, hab⟩ := stats_min_mem hs
  have hA : (classRows X y s.minLabel).length = y.count s.minLabel := classRows_length hwf.1 _
  set A := classRows X y s.minLabel with hAd
  set n := requested proportion (y.count s.majLabel) (y.count s.minLabel) with hnd
  set H := (List.range d).map (fun j => std (A.map (fun r => r.getD j 0)) * width X.length d) with hH
  have hspec : ∀ i, ∃ z, (do
      let base ← getRow A (ix 0 A.length i)
      return (List.range d).map (fun j => base.getD j 0 + normal i j * H.getD j 0) : Res Row) = .ok z ∧ KernelAround d A
        (fun k => std (A.map (fun r => r.getD k 0)) * width X.length d) z := by
    intro i
    have h0 : ix 0 A.length i < A.length := hix _ _ _ (by omega)
    refine ⟨_, by rw [getRow_ok.2 (List.getElem?_eq_getElem h0), ok_bind]; rfl, _, List.getElem_mem h0, by simp, ?_⟩
    intro k hk
    refine ⟨normal i k, ?_⟩
    have hHk : H.getD k 0 = std (A.map (fun r => r.getD k 0)) * width X.length d := by
      rw [hH, List.getD_eq_getElem?_getD, List.getElem?_map, List.getElem?_range hk]
      rfl
    rw [List.getD_eq_getElem?_getD, List.getElem?_map, List.getElem?_range hk]
    simp only [Option.map_some, Option.getD_some]
    rw [hHk]
  obtain ⟨samples, hsm⟩ := mapM_exists_ok (l := List.range n) (fun i _ => (hspec i).imp (fun _ h => h.1))
  have hf := mapM_ok_iff.1 hsm
  refine ⟨_, _, ?_, withSamples_oversampledBy (samples := samples) (by rw [← hf.length_eq, List.length_range]) ?_ rfl⟩
  · rw [sample_default hs, if_neg (by omega)]
    unfold roseAlg
    rw [stats_count hs hm, stats_count hs hM, detN_eq_requested, ok_bind, if_neg (by omega)]
    simp only [selectLabel_eq_classRows, ← hAd, ← hH, ← hnd]
    rw [choiceFrom_pos (by omega), ok_bind, hsm, ok_bind]
    rfl
  · intro z hz
    obtain ⟨i, _, hi⟩ := forall₂_mem_right hf hz
    obtain ⟨z', h1, h2⟩ := hspec i
    rw [hi] at h1
    injection h1 with h1
    subst h1
    exact h2

/-- **Attributes which are constant in the minority class stay constant**, if the deviation of equal numbers is zero. -/
theorem C71_rose_constant {d : Nat} {A : List Row} {std : List ℚ → ℚ} {f : ℚ} {z : Row} {k : Nat} {c : ℚ}
    (hstd : ∀ l : List ℚ, (∀ x ∈ l, x = c) → std l = 0) (hc : ∀ r ∈ A, r.getD k 0 = c) (hk : k < d)
    (h : KernelAround d A (fun k => std (A.map (fun r => r.getD k 0)) * f) z) : z.getD k 0 = c := by
  obtain ⟨base, hb, _, hz⟩ := h
  obtain ⟨g, hg⟩ := hz k hk
  dsimp only at hg
  rw [hg, hc base hb, hstd _ (by
    intro x hx
    obtain ⟨r, hr, rfl⟩ := List.mem_map.1 hx
    exact hc r hr)]
  ring

/-! ## Examples -/

def selX : List Row := [[0, 0], [4, 1], [2, 3], [1, 2], [3, 5], [3, 6], [2, 4]]

/-- **Only one attribute is changed** by the default share of one half (`C71_selected` with the largest overlap in attribute 0); a share
of zero changes both. -/
theorem C71_zero : sample defaultChecks 2 (selectedAlg 1 2 (1 / 2) outIx (fun _ _ => 1 / 2) 2 gsKnn) selX outY =
      .ok (selX ++ [[2, 0]], outY ++ [1]) ∧
    sample defaultChecks 2 (selectedAlg 1 2 0 outIx (fun _ _ => 1 / 2) 2 gsKnn) selX outY =
      .ok (selX ++ [[2, 1 / 2]], outY ++ [1]) := by
  constructor <;> decide +kernel

example : WF 2 selX outY ∧ IsMinority outY 1 0 ∧ KnnQueryOK gsKnn ∧ IxOK outIx ∧ 2 < outY.count 1 ∧
    0 < requested 1 (outY.count 0) (outY.count 1) ∧ (1 / 2 : ℚ) < 1 / 2 * (2 : Nat) ∧ (1 / 2 : ℚ) < 1 * (2 : Nat) := by
  refine ⟨⟨by decide, by decide +kernel⟩, ⟨by decide, by decide, by decide, Or.inl (by decide)⟩, gsKnn_ok, fun _ m _ h => h,
    by decide, by decide +kernel, by norm_num, by norm_num⟩

end Verif

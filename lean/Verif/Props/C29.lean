import Verif.Lemmas.Distances

/-!
# C29 Chunked distance computation equals the direct one
-/

namespace Verif

/-- Whenever one row fits into the memory limit, the chunked computation returns the whole matrix, with at most two nested
calls, for every number of rows. -/
theorem C29_chunked {β : Type} {maxMem : Nat} (sqrt : ℚ → β) (d : Nat) (t : Option (List Row)) (o : Bool)
    (X Y : List Row) {depth : Nat} (h0 : 0 < maxMem) (hrow : d * Y.length ≤ maxMem) (hdepth : 2 ≤ depth) :
    pairwiseDistances maxMem sqrt d t o Y depth X = .ok (directDistances sqrt d t o X Y) := by
  obtain ⟨e, rfl⟩ : ∃ e, depth = e + 1 + 1 := ⟨depth - 2, by omega⟩
  by_cases hbig : X.length * d * Y.length > maxMem
  · rw [pairwiseDistances, if_pos hbig, if_neg (by omega)]
    have hfit := rowBlockSize_fits h0 hrow hbig
    generalize hs : rowBlockSize X.length d Y.length maxMem = s at hfit
    have hs1 : 1 ≤ s := by rw [← hs]; exact le_max_right _ _
    have hall : ∀ b ∈ rowBlocks (s - 1) X, pairwiseDistances maxMem sqrt d t o Y (e + 1) b =
        .ok (directDistances sqrt d t o b Y) := by
      intro b hb
      apply pairwise_small
      have hlen : b.length ≤ s := by
        have := rowBlocks_length (s - 1) X b hb
        omega
      calc b.length * d * Y.length ≤ s * d * Y.length :=
            Nat.mul_le_mul_right _ (Nat.mul_le_mul_right _ hlen)
        _ ≤ maxMem := hfit
    rw [mapM_ok_map (g := fun b => directDistances sqrt d t o b Y) hall, ok_bind, directDistances_flatten,
      rowBlocks_flatten]
    rfl
  · rw [pairwise_small (by omega)]

/-- When one row alone exceeds the limit, the recursion never ends: every recursion limit is exhausted. -/
theorem C29_diverges {β : Type} {maxMem : Nat} (sqrt : ℚ → β) (d : Nat) (t : Option (List Row)) (o : Bool)
    (Y : List Row) (h0 : 0 < maxMem) (hrow : maxMem < d * Y.length) (depth : Nat) :
    ∀ X : List Row, X.length ≠ 0 → pairwiseDistances maxMem sqrt d t o Y depth X = .error .recursionError := by
  induction depth with
  | zero => intro X _; rfl
  | succ depth ih =>
    intro X hX
    have hbig : X.length * d * Y.length > maxMem := by
      have h1 : 1 * (d * Y.length) ≤ X.length * (d * Y.length) := Nat.mul_le_mul_right _ (by omega)
      rw [Nat.mul_assoc]
      omega
    rw [pairwiseDistances, if_pos hbig, if_neg (by omega)]
    obtain ⟨b, rest, hb, hne⟩ := rowBlocks_first (size := rowBlockSize X.length d Y.length maxMem - 1) hX
    rw [hb, List.mapM_cons, ih b hne]
    rfl

/-- A limit of zero is a division by zero as soon as there is anything to compute. -/
theorem C29_zero_limit {β : Type} (sqrt : ℚ → β) (d : Nat) (t : Option (List Row)) (o : Bool) (X Y : List Row) (depth : Nat)
    (h : 0 < X.length * d * Y.length) :
    pairwiseDistances 0 sqrt d t o Y (depth + 1) X = .error .zeroDivision := by
  rw [pairwiseDistances, if_pos h, if_pos rfl]

/-- The tensor in force: the identity when none is given. -/
def usedTensor (t : Option (List Row)) (k l : Nat) : ℚ :=
  match t with
  | some T => entryOf T k l
  | none => if k = l then 1 else 0

/-- Entry `(i, j)` is the root of the double sum of the tensor over the difference of row `i` and row `j`, with and without
the `optimized` flag, for no tensor and for every tensor that is not within the tolerance of the identity. -/
theorem C29_entry {β : Type} (sqrt : ℚ → β) (d : Nat) {t : Option (List Row)} (o : Bool) {X Y : List Row}
    (hX : ∀ r ∈ X, r.length = d) (hY : ∀ r ∈ Y, r.length = d)
    (ht : ∀ T, t = some T → T.length = d ∧ (∀ r ∈ T, r.length = d) ∧ allcloseEye T d = false)
    {i j : Nat} {x y : Row} (hx : X[i]? = some x) (hy : Y[j]? = some y) :
    ∃ row, (directDistances sqrt d t o X Y)[i]? = some row ∧
      row[j]? = some (sqrt (tensorNorm d (usedTensor t) (diffOf x y))) := by
  have hxl := hX x (List.mem_of_getElem? hx)
  have hyl := hY y (List.mem_of_getElem? hy)
  have hv := length_rowSub hxl hyl
  have hnorm : ∀ (T : Nat → Nat → ℚ), tensorNorm d T (fun k => (Row.sub x y).getD k 0) = tensorNorm d T (diffOf x y) := by
    intro T
    unfold tensorNorm
    apply list_sum_map_congr
    intro k hk
    apply list_sum_map_congr
    intro l hl
    rw [List.mem_range] at hk hl
    dsimp only
    rw [getD_rowSub hxl hyl hk, getD_rowSub hxl hyl hl]
  have hsq : sumSquares (Row.sub x y) = tensorNorm d (fun k l => if k = l then 1 else 0) (diffOf x y) := by
    rw [sumSquares_eq hv, ← hnorm, tensorNorm_eye]
  unfold directDistances
  cases t with
  | none =>
    dsimp only
    have : usedTensor none = fun k l => if k = l then 1 else 0 := rfl
    rw [this]
    split
    · refine ⟨Y.map (fun y => sqrt (sumSquares (Row.sub x y))), by simp [hx], ?_⟩
      simp [hy, hsq]
    · refine ⟨Y.map (fun y => sqrt (quadForm (eyeRows d) (Row.sub x y))), by simp [hx], ?_⟩
      simp [hy, quadForm_eye hv, hsq]
  | some T =>
    obtain ⟨h1, h2, h3⟩ := ht T rfl
    dsimp only
    rw [if_neg (by rw [h3]; decide)]
    refine ⟨Y.map (fun y => sqrt (quadForm T (Row.sub x y))), by simp [hx], ?_⟩
    have : usedTensor (some T) = entryOf T := rfl
    rw [this, ← hnorm, ← quadForm_eq h1 h2 hv]
    simp [hy]

/-- A tensor within `np.allclose` of the identity is replaced by the identity. -/
theorem C29_near_identity {β : Type} (sqrt : ℚ → β) (d : Nat) (T : List Row) (o : Bool) (X Y : List Row)
    (h : allcloseEye T d = true) : directDistances sqrt d (some T) o X Y = directDistances sqrt d none o X Y := by
  unfold directDistances
  dsimp only
  rw [if_pos h]

theorem absQ_eq (q : ℚ) : absQ q = |q| := by
  unfold absQ
  split
  · rename_i h; rw [abs_of_neg h]
  · rename_i h; rw [abs_of_nonneg (not_lt.1 h)]

theorem zipWith_all {α β : Type} (f : α → β → Bool) (as : List α) (bs : List β) :
    (List.zipWith f as bs).all id = true ↔ ∀ (i : Nat) (a : α) (b : β), as[i]? = some a → bs[i]? = some b → f a b = true := by
  rw [List.all_eq_true]
  constructor
  · intro h i a b ha hb
    have : (List.zipWith f as bs)[i]? = some (f a b) := by rw [List.getElem?_zipWith, ha, hb]
    exact h _ (List.mem_of_getElem? this)
  · intro h x hx
    obtain ⟨i, hi⟩ := List.mem_iff_getElem?.1 hx
    rw [List.getElem?_zipWith] at hi
    cases ha : as[i]? with
    | none => rw [ha] at hi; simp at hi
    | some a =>
      cases hb : bs[i]? with
      | none => rw [ha, hb] at hi; simp at hi
      | some b =>
        rw [ha, hb] at hi
        simp only [Option.some.injEq] at hi
        rw [← hi]
        exact h i a b ha hb

/-- The tensors taken for the identity: no entry differs from that of the identity by more than `1e-8`, on the diagonal
`1e-8 + 1e-5`. -/
theorem C29_near_identity_iff {d : Nat} {T : List Row} (hT : T.length = d) (hr : ∀ r ∈ T, r.length = d) :
    allcloseEye T d = true ↔
      ∀ k l, k < d → l < d → |entryOf T k l - (if k = l then 1 else 0)| ≤ 1 / 100000000 + (if k = l then 1 / 100000 else 0) := by
  have heye : ∀ k, k < d → (eyeRows d)[k]? = some ((List.range d).map (fun j => if k = j then (1 : ℚ) else 0)) := by
    intro k hk
    unfold eyeRows
    rw [List.getElem?_map, List.getElem?_eq_getElem (by simpa using hk)]
    simp
  unfold allcloseEye
  rw [zipWith_all]
  constructor
  · intro h k l hk hl
    have hkT : k < T.length := by omega
    have h1 := h k T[k] _ (List.getElem?_eq_getElem hkT) (heye k hk)
    rw [zipWith_all] at h1
    have hl' : l < T[k].length := by rw [hr _ (List.getElem_mem _)]; exact hl
    have h2 := h1 l T[k][l] (if k = l then 1 else 0) (List.getElem?_eq_getElem hl') (by
      rw [List.getElem?_map, List.getElem?_eq_getElem (by simpa using hl)]; simp)
    have he : entryOf T k l = T[k][l] := by simp [entryOf, hkT, hl']
    rw [he]
    simp only [closeQ, absQ_eq, decide_eq_true_eq] at h2
    by_cases hkl : k = l
    · simp only [hkl, if_true, abs_one] at h2 ⊢
      linarith
    · simp only [hkl, if_false, abs_zero] at h2 ⊢
      linarith
  · intro h k r e hkr hke
    obtain ⟨hkT, rfl⟩ := List.getElem?_eq_some_iff.1 hkr
    have hk : k < d := by omega
    rw [heye k hk] at hke
    injection hke with hke
    subst hke
    rw [zipWith_all]
    intro l a b hla hlb
    obtain ⟨hl', rfl⟩ := List.getElem?_eq_some_iff.1 hla
    have hl : l < d := by rw [hr _ (List.getElem_mem _)] at hl'; exact hl'
    rw [List.getElem?_map, List.getElem?_eq_getElem (by simpa using hl)] at hlb
    simp only [List.getElem_range, Option.map_some, Option.some.injEq] at hlb
    subst hlb
    have h2 := h k l hk hl
    have he : entryOf T k l = T[k][l] := by simp [entryOf, hkT, hl']
    rw [he] at h2
    simp only [closeQ, absQ_eq, decide_eq_true_eq]
    by_cases hkl : k = l
    · simp only [hkl, if_true, abs_one] at h2 ⊢
      linarith
    · simp only [hkl, if_false, abs_zero] at h2 ⊢
      linarith

/-- So the answer can differ from the distance of the tensor that was passed. -/
theorem C29_near_identity_wrong : ∃ (T : List Row) (x y : Row), allcloseEye T 1 = true ∧
    directDistances id 1 (some T) true [x] [y] ≠ [[tensorNorm 1 (entryOf T) (diffOf x y)]] := by
  refine ⟨[[1 + 1 / 100000]], [1], [0], by decide +kernel, by decide +kernel⟩

/-- The row-wise function agrees with the diagonal of the matrix. -/
theorem C29_rowwise {β : Type} (sqrt : ℚ → β) (d : Nat) (t : Option (List Row)) {X Y : List Row}
    (hX : ∀ r ∈ X, r.length = d) (hY : ∀ r ∈ Y, r.length = d)
    (ht : ∀ T, t = some T → T.length = d ∧ (∀ r ∈ T, r.length = d))
    {i : Nat} {x y : Row} (hx : X[i]? = some x) (hy : Y[i]? = some y) :
    (rowwiseDistances sqrt d t X Y)[i]? = some (sqrt (tensorNorm d (usedTensor t) (diffOf x y))) := by
  have hxl := hX x (List.mem_of_getElem? hx)
  have hyl := hY y (List.mem_of_getElem? hy)
  have hv := length_rowSub hxl hyl
  have hnorm : ∀ (T : Nat → Nat → ℚ), tensorNorm d T (fun k => (Row.sub x y).getD k 0) = tensorNorm d T (diffOf x y) := by
    intro T
    unfold tensorNorm
    apply list_sum_map_congr
    intro k hk
    apply list_sum_map_congr
    intro l hl
    rw [List.mem_range] at hk hl
    dsimp only
    rw [getD_rowSub hxl hyl hk, getD_rowSub hxl hyl hl]
  unfold rowwiseDistances
  rw [List.getElem?_zipWith, hx, hy]
  dsimp only
  cases t with
  | none =>
    have : usedTensor none = fun k l => if k = l then 1 else 0 := rfl
    rw [this, ← hnorm, tensorNorm_eye, ← sumSquares_eq hv, ← quadForm_eye hv]
    rfl
  | some T =>
    obtain ⟨h1, h2⟩ := ht T rfl
    have : usedTensor (some T) = entryOf T := rfl
    rw [this, ← hnorm, ← quadForm_eq h1 h2 hv]
    rfl

/-- The root as a real number. -/
noncomputable def realRoot (q : ℚ) : ℝ := Real.sqrt (q : ℝ)

theorem nearestOf_ok {argsort : List ℝ → List Nat} (ha : ArgsortSorts argsort) (k : Nat) (row : List ℝ) (dist : Nat → ℝ)
    (hd : ∀ j, j < row.length → row[j]? = some (dist j)) : IsNearest row.length k dist ((argsort row).take k) := by
  obtain ⟨hp, hs⟩ := ha row
  have hnd : (argsort row).Nodup := hp.nodup_iff.2 List.nodup_range
  have hlt : ∀ i ∈ argsort row, i < row.length := fun i hi => List.mem_range.1 (hp.mem_iff.1 hi)
  have hsort : (argsort row).Pairwise (fun a b => dist a ≤ dist b) := by
    refine List.Pairwise.imp_of_mem ?_ hs
    intro a b ha hb h
    exact h _ _ (hd a (hlt a ha)) (hd b (hlt b hb))
  refine ⟨?_, hnd.sublist (List.take_sublist ..), fun i hi => hlt i (List.mem_of_mem_take hi),
    hsort.sublist (List.take_sublist ..), ?_⟩
  · rw [List.length_take, hp.length_eq, List.length_range]
  · intro i hi j hj hn
    have hj' : j ∈ argsort row := hp.mem_iff.2 (List.mem_range.2 hj)
    rw [← List.take_append_drop k (argsort row)] at hj' hsort
    rcases List.mem_append.1 hj' with h | h
    · exact absurd h hn
    · exact (List.pairwise_append.1 hsort).2.2 i hi j h

/-- A neighbour search with a metric tensor answers, for every query row, the `k` nearest fitted rows under the distance of
the tensor (all fitted rows if there are fewer than `k`), for every memory limit that admits one row. -/
theorem C29_kneighbors {maxMem depth d k : Nat} {argsort : List ℝ → List Nat} (ha : ArgsortSorts argsort) {T fitted X : List Row}
    (h0 : 0 < maxMem) (hrow : d * fitted.length ≤ maxMem) (hdepth : 2 ≤ depth)
    (hX : ∀ r ∈ X, r.length = d) (hF : ∀ r ∈ fitted, r.length = d)
    (hT : T.length = d) (hTr : ∀ r ∈ T, r.length = d) (hne : allcloseEye T d = false) :
    ∃ ind, tensorKneighbors maxMem depth realRoot argsort d T fitted X k = .ok ind ∧ ind.length = X.length ∧
      ∀ (i : Nat) x (sel : List Nat), X[i]? = some x → ind[i]? = some sel →
        IsNearest fitted.length k (fun j => realRoot (tensorNorm d (entryOf T) (diffOf x (fitted.getD j [])))) sel := by
  unfold tensorKneighbors
  rw [C29_chunked realRoot d (some T) true X fitted h0 hrow hdepth, ok_bind]
  have hlen : (directDistances realRoot d (some T) true X fitted).length = X.length := by
    unfold directDistances; dsimp only; rw [if_neg (by rw [hne]; decide), List.length_map]
  refine ⟨_, rfl, by unfold nearestOf; rw [List.length_map, hlen], ?_⟩
  intro i x sel hx hsel
  unfold nearestOf at hsel
  rw [List.getElem?_map] at hsel
  cases hr : (directDistances realRoot d (some T) true X fitted)[i]? with
  | none => rw [hr] at hsel; cases hsel
  | some row =>
    rw [hr] at hsel
    injection hsel with hsel
    subst hsel
    have hrl : row.length = fitted.length := by
      unfold directDistances at hr
      dsimp only at hr
      rw [if_neg (by rw [hne]; decide), List.getElem?_map, hx] at hr
      injection hr with hr
      rw [← hr, List.length_map]
    rw [← hrl]
    apply nearestOf_ok ha
    intro j hj
    rw [hrl] at hj
    obtain ⟨row', h1, h2⟩ := C29_entry realRoot d (t := some T) true hX hF
      (fun T' h => by injection h with h; subst h; exact ⟨hT, hTr, hne⟩) hx (List.getElem?_eq_getElem hj)
    rw [hr] at h1
    injection h1 with h1
    subst h1
    rw [h2]
    have : fitted.getD j [] = fitted[j] := by
      rw [List.getD_eq_getElem?_getD, List.getElem?_eq_getElem hj, Option.getD_some]
    rw [this]
    rfl

/-- For a positive semidefinite tensor the order of the roots is the order of the squared distances. -/
theorem C29_root_order {d : Nat} {T : Nat → Nat → ℚ} (hpsd : ∀ v, 0 ≤ tensorNorm d T v) (v w : Nat → ℚ) :
    realRoot (tensorNorm d T v) ≤ realRoot (tensorNorm d T w) ↔ tensorNorm d T v ≤ tensorNorm d T w := by
  unfold realRoot
  rw [Real.sqrt_le_sqrt_iff (by exact_mod_cast hpsd w)]
  exact_mod_cast Iff.rfl

/-- A radius search returns, for every query row, exactly the fitted rows within the radius. -/
theorem C29_radius {β : Type} (le : β → β → Bool) {maxMem depth d : Nat} (sqrt : ℚ → β) {T fitted X : List Row}
    (h0 : 0 < maxMem) (hrow : d * fitted.length ≤ maxMem) (hdepth : 2 ≤ depth)
    (hX : ∀ r ∈ X, r.length = d) (hF : ∀ r ∈ fitted, r.length = d)
    (hT : T.length = d) (hTr : ∀ r ∈ T, r.length = d) (hne : allcloseEye T d = false) (r : β) :
    ∃ ind, tensorRadiusNeighbors le maxMem depth sqrt d T fitted X (some r) = .ok ind ∧ ind.length = X.length ∧
      ∀ (i : Nat) x (sel : List Nat), X[i]? = some x → ind[i]? = some sel → sel.Pairwise (· < ·) ∧
        ∀ j, j ∈ sel ↔ ∃ f, fitted[j]? = some f ∧ le (sqrt (tensorNorm d (entryOf T) (diffOf x f))) r = true := by
  unfold tensorRadiusNeighbors
  rw [C29_chunked sqrt d (some T) true X fitted h0 hrow hdepth, ok_bind]
  have hlen : (directDistances sqrt d (some T) true X fitted).length = X.length := by
    unfold directDistances; dsimp only; rw [if_neg (by rw [hne]; decide), List.length_map]
  refine ⟨_, rfl, by rw [List.length_map, hlen], ?_⟩
  intro i x sel hx hsel
  rw [List.getElem?_map] at hsel
  cases hr : (directDistances sqrt d (some T) true X fitted)[i]? with
  | none => rw [hr] at hsel; cases hsel
  | some row =>
    rw [hr] at hsel
    injection hsel with hsel
    subst hsel
    have hrl : row.length = fitted.length := by
      unfold directDistances at hr
      dsimp only at hr
      rw [if_neg (by rw [hne]; decide), List.getElem?_map, hx] at hr
      injection hr with hr
      rw [← hr, List.length_map]
    refine ⟨List.Pairwise.filter _ List.pairwise_lt_range, ?_⟩
    intro j
    rw [List.mem_filter, List.mem_range, hrl]
    constructor
    · rintro ⟨hj, hle⟩
      refine ⟨fitted[j], List.getElem?_eq_getElem hj, ?_⟩
      obtain ⟨row', h1, h2⟩ := C29_entry sqrt d (t := some T) true hX hF
        (fun T' h => by injection h with h; subst h; exact ⟨hT, hTr, hne⟩) hx (List.getElem?_eq_getElem hj)
      rw [hr] at h1
      injection h1 with h1
      subst h1
      rw [h2] at hle
      exact hle
    · rintro ⟨f, hf, hle⟩
      obtain ⟨row', h1, h2⟩ := C29_entry sqrt d (t := some T) true hX hF
        (fun T' h => by injection h with h; subst h; exact ⟨hT, hTr, hne⟩) hx hf
      rw [hr] at h1
      injection h1 with h1
      subst h1
      refine ⟨(List.getElem?_eq_some_iff.1 hf).1, ?_⟩
      rw [h2]
      exact hle

/-- Without an explicit radius every non-empty radius query raises `TypeError`: the radius of the constructor is ignored. -/
theorem C29_radius_default {β : Type} (le : β → β → Bool) {maxMem depth d : Nat} (sqrt : ℚ → β) {T fitted X : List Row}
    (h0 : 0 < maxMem) (hrow : d * fitted.length ≤ maxMem) (hdepth : 2 ≤ depth) (hne : allcloseEye T d = false)
    (hX : X ≠ []) : tensorRadiusNeighbors le maxMem depth sqrt d T fitted X none = .error .typeError := by
  unfold tensorRadiusNeighbors
  rw [C29_chunked sqrt d (some T) true X fitted h0 hrow hdepth, ok_bind]
  have hlen : (directDistances sqrt d (some T) true X fitted).length = X.length := by
    unfold directDistances; dsimp only; rw [if_neg (by rw [hne]; decide), List.length_map]
  dsimp only
  rw [if_neg (by rw [hlen]; intro h; exact hX (List.length_eq_zero_iff.1 h))]
  rfl

/-- Hypotheses met: five rows in two dimensions, a limit of four numbers per block... -/
example : pairwiseDistances 4 id 2 none true [[0, 0], [1, 1]] 2 [[0, 0], [1, 0], [2, 0], [3, 1], [4, 2]] =
    .ok [[0, 2], [1, 1], [4, 2], [10, 4], [20, 10]] := by decide +kernel
/-- ...and a tensor that is not the identity. -/
example : allcloseEye [[2, 0], [0, 1]] 2 = false := by decide +kernel
example : ∃ argsort : List ℚ → List Nat, ArgsortSorts argsort := by
  refine ⟨fun l => (List.range l.length).insertionSort (fun a b => l.getD a 0 ≤ l.getD b 0), fun l => ⟨?_, ?_⟩⟩
  · exact List.perm_insertionSort _ _
  · have := List.pairwise_insertionSort (fun a b => l.getD a 0 ≤ l.getD b 0) (List.range l.length)
    refine this.imp ?_
    intro a b h x y hx hy
    simpa [List.getD_eq_getElem?_getD, hx, hy] using h

end Verif

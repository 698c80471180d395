import Verif.Model.Arrays
import Verif.Spec.Arrays
import Verif.Lemmas.Basic
import Mathlib.Algebra.BigOperators.Field
import Mathlib.Algebra.BigOperators.Ring.Finset
import Mathlib.Algebra.Order.BigOperators.Ring.Finset
import Mathlib.Data.List.Perm.Basic
import Mathlib.Data.List.GetD
import Mathlib.Tactic.Linarith
import Mathlib.Tactic.Ring
import Mathlib.Tactic.FieldSimp

/-!
# C128 The array helpers do what their names say
-/

namespace Verif

theorem mapM_flatMap_ok {α β γ : Type} {g : β → Res γ} {f : α → List β} : ∀ {L : List α} {outs : List (List γ)},
    L.mapM (fun p => (f p).mapM g) = .ok outs → (L.flatMap f).mapM g = .ok outs.flatten := by
  intro L
  induction L with
  | nil =>
    intro outs h
    injection h with h
    subst h
    rfl
  | cons p L ih =>
    intro outs h
    rw [List.mapM_cons] at h
    obtain ⟨o, ho, h⟩ := bind_ok.1 h
    obtain ⟨os, hos, h⟩ := bind_ok.1 h
    injection h with h
    subst h
    rw [List.flatMap_cons, List.mapM_append, ho, ok_bind, ih hos, ok_bind]
    rfl

theorem forall₂_with_mem {α β : Type} {R : α → β → Prop} {l : List α} {m : List β} (h : List.Forall₂ R l m) :
    List.Forall₂ (fun x z => x ∈ l ∧ R x z) l m := by
  induction h with
  | nil => exact List.Forall₂.nil
  | cons h _ ih => exact List.Forall₂.cons ⟨by simp, h⟩ (ih.imp fun _ _ h => ⟨List.mem_cons_of_mem _ h.1, h.2⟩)

theorem flatten_at {α : Type} {w : Nat} : ∀ {A : List (List α)} {r : Nat} {a : List α} {i : Nat}, (∀ row ∈ A, row.length = w) →
    A[r]? = some a → i < w → A.flatten[i + r * w]? = a[i]? := by
  intro A
  induction A with
  | nil => intro r a i _ h; cases h
  | cons b A ih =>
    intro r a i hw h hi
    have hb := hw b (by simp)
    rw [List.flatten_cons]
    cases r with
    | zero =>
      injection h with h
      subst h
      rw [List.getElem?_append_left (by omega)]
      simp
    | succ r =>
      rw [List.getElem?_append_right (by rw [hb, Nat.succ_mul]; omega)]
      rw [List.getElem?_cons_succ] at h
      rw [← ih (fun row hr => hw row (by simp [hr])) h hi]
      congr 1
      rw [hb, Nat.succ_mul]
      omega

theorem rowsOf_flatten {α : Type} {k : Nat} : ∀ {outs : List (List α)}, (∀ o ∈ outs, o.length = k) →
    rowsOf k outs.flatten outs.length = outs := by
  intro outs
  induction outs with
  | nil => intro _; rfl
  | cons o outs ih =>
    intro h
    have ho := h o (by simp)
    unfold rowsOf at ih ⊢
    rw [List.length_cons, List.range_succ_eq_map, List.map_cons, List.map_map, List.flatten_cons]
    congr 1
    · rw [Nat.zero_mul, List.drop_zero, List.take_append_of_le_length (by omega), ← ho, List.take_length]
    · conv_rhs => rw [← ih (fun o h' => h o (by simp [h']))]
      apply List.map_congr_left
      intro r _
      simp only [Function.comp]
      rw [Nat.succ_mul, List.drop_append, List.drop_eq_nil_of_le (by omega), List.nil_append, ho]
      congr 2
      omega

theorem npItem_flat {α : Type} {w : Nat} {A : List (List α)} {r : Nat} {a : List α} {i : Int} (hw : ∀ row ∈ A, row.length = w)
    (hr : A[r]? = some a) (h0 : 0 ≤ i) (hi : i < w) :
    ∃ x, npItem A.flatten (i + ((r * w : Nat) : Int)) = .ok x ∧ a[i.toNat]? = some x := by
  have haw := hw a (List.mem_of_getElem? hr)
  have hlt : i.toNat < a.length := by omega
  refine ⟨a[i.toNat], ?_, List.getElem?_eq_getElem hlt⟩
  unfold npItem
  rw [if_pos (by omega)]
  apply getRow_ok.2
  have e : (i + ((r * w : Nat) : Int)).toNat = i.toNat + r * w := by omega
  rw [e, flatten_at hw hr (by omega), List.getElem?_eq_getElem hlt]

/-- `array_array_index` takes from every row of the array the items at the positions in the corresponding row of indices. -/
theorem C128_index {α : Type} {A : List (List α)} {w k : Nat} {I : List (List Int)} (hA : ∀ row ∈ A, row.length = w)
    (hl : A.length = I.length) (hI : ∀ row ∈ I, row.length = k ∧ ∀ i ∈ row, 0 ≤ i ∧ i < w) :
    ∃ R, arrayArrayIndex A w I k = .ok R ∧ PicksRowByRow A I R := by
  unfold arrayArrayIndex
  by_cases hk : k = 1
  · subst hk
    rw [if_pos rfl]
    unfold broadcastPairs
    rw [if_pos (by rw [List.length_map, hl]), ok_bind]
    have hone : ∀ p ∈ (List.range A.length).zip (I.map (fun row => row.headD 0)), ∃ x, (do
        let row ← getRow A p.1
        npItem row p.2 : Res α) = .ok x := by
      intro p hp
      have h1 := List.mem_range.1 (List.of_mem_zip hp).1
      obtain ⟨row, hrow, hp2⟩ := List.mem_map.1 (List.of_mem_zip hp).2
      obtain ⟨hrl, hri⟩ := hI row hrow
      obtain ⟨i, rfl⟩ := List.length_eq_one_iff.1 hrl
      have := hri i (by simp)
      have hw := hA _ (List.getElem_mem h1)
      rw [getRow_lt h1, ok_bind, ← hp2]
      unfold npItem
      show ∃ x, (if 0 ≤ i then _ else _) = Except.ok x
      rw [if_pos this.1, List.headD_cons, getRow_lt (by omega)]
      exact ⟨_, rfl⟩
    obtain ⟨out, hout⟩ := mapM_exists_ok hone
    have hol : out.length = I.length := by
      rw [mapM_ok_length hout, List.length_zip, List.length_range, List.length_map, hl, Nat.min_self]
    rw [hout, ok_bind, if_neg (by simp [hol])]
    refine ⟨_, rfl, by rw [List.length_map, hol], ?_⟩
    intro r a is ha his
    obtain ⟨hrl, hri⟩ := hI is (List.mem_of_getElem? his)
    obtain ⟨i, rfl⟩ := List.length_eq_one_iff.1 hrl
    have hz : ((List.range A.length).zip (I.map (fun row => row.headD 0)))[r]? = some (r, i) := by
      rw [List.getElem?_zip_eq_some, List.getElem?_map, his]
      exact ⟨List.getElem?_range (List.getElem?_eq_some_iff.1 ha).1, rfl⟩
    obtain ⟨x, hx1, hx2⟩ := mapM_ok_get hout hz
    rw [getRow_ok.2 ha, ok_bind] at hx2
    unfold npItem at hx2
    rw [if_pos (hri i (by simp)).1] at hx2
    refine ⟨[x], by rw [List.getElem?_map, hx1]; rfl, ?_⟩
    exact List.Forall₂.cons ⟨(hri i (by simp)).1, getRow_ok.1 hx2⟩ List.Forall₂.nil
  · rw [if_neg hk]
    have hrow : ∀ p ∈ I.zipIdx, ∃ o, (p.1.map (fun i => i + ((p.2 * w : Nat) : Int))).mapM (npItem A.flatten) = .ok o := by
      rintro ⟨is, r⟩ hp
      have his := List.mem_zipIdx_iff_getElem?.1 hp
      obtain ⟨hrl, hri⟩ := hI is (List.mem_of_getElem? his)
      have hr : r < A.length := by rw [hl]; exact (List.getElem?_eq_some_iff.1 his).1
      apply mapM_exists_ok
      intro j hj
      obtain ⟨i, hi, rfl⟩ := List.mem_map.1 hj
      obtain ⟨x, hx, _⟩ := npItem_flat hA (List.getElem?_eq_getElem hr) (hri i hi).1 (hri i hi).2
      exact ⟨x, hx⟩
    obtain ⟨outs, houts⟩ := mapM_exists_ok hrow
    have hol : outs.length = I.length := by rw [mapM_ok_length houts, List.length_zipIdx]
    have hget : ∀ (r : Nat) (is : List Int), I[r]? = some is → ∃ o, outs[r]? = some o ∧
        (is.map (fun i => i + ((r * w : Nat) : Int))).mapM (npItem A.flatten) = .ok o := by
      intro r is his
      have : (I.zipIdx)[r]? = some (is, r) := by rw [List.getElem?_zipIdx, his]; simp
      exact mapM_ok_get houts this
    rw [mapM_flatMap_ok houts, ok_bind, ← hol, rowsOf_flatten]
    · refine ⟨_, rfl, hol, ?_⟩
      intro r a is ha his
      obtain ⟨hrl, hri⟩ := hI is (List.mem_of_getElem? his)
      obtain ⟨o, ho1, ho2⟩ := hget r is his
      refine ⟨o, ho1, ?_⟩
      have hf := mapM_ok_iff.1 ho2
      rw [List.forall₂_map_left_iff] at hf
      have : ∀ {is : List Int} {o : List α}, (∀ i ∈ is, 0 ≤ i ∧ i < w) → List.Forall₂ (fun i x =>
          npItem A.flatten (i + ((r * w : Nat) : Int)) = .ok x) is o → List.Forall₂ (fun i x => 0 ≤ i ∧ a[i.toNat]? = some x) is o := by
        intro is o hin hf
        induction hf with
        | nil => exact List.Forall₂.nil
        | @cons i x is o hx _ ih =>
          refine List.Forall₂.cons ⟨(hin i (by simp)).1, ?_⟩ (ih (fun i h => hin i (by simp [h])))
          obtain ⟨x', hx1, hx2⟩ := npItem_flat hA ha (hin i (by simp)).1 (hin i (by simp)).2
          rw [hx] at hx1
          injection hx1 with hx1
          rw [hx1]
          exact hx2
      exact this hri hf
    · intro o ho
      obtain ⟨r, hr, rfl⟩ := List.getElem_of_mem ho
      have hrI : r < I.length := by omega
      obtain ⟨o', ho1, ho2⟩ := hget r _ (List.getElem?_eq_getElem hrI)
      rw [List.getElem?_eq_getElem hr] at ho1
      injection ho1 with ho1
      rw [ho1, mapM_ok_length ho2, List.length_map]
      exact (hI _ (List.getElem_mem hrI)).1

example : arrayArrayIndex [["a", "b", "c"], ["d", "e", "f"]] 3 [[2, 0], [1, 1]] 2 = .ok [["c", "a"], ["e", "e"]] ∧
    arrayArrayIndex [["a", "b", "c"], ["d", "e", "f"]] 3 [[2], [1]] 1 = .ok [["c"], ["e"]] := by decide +kernel

/-- An index that does not exist in its row is not refused as soon as there are two columns of indices: the item of the next row is
returned, and for a negative index that of the previous row. With one column the same index raises. -/
theorem C128_index_not :
    arrayArrayIndex [["a", "b"], ["c", "d"]] 2 [[2, 0], [0, 1]] 2 = .ok [["c", "a"], ["c", "d"]] ∧
    arrayArrayIndex [["a", "b"], ["c", "d"]] 2 [[0, 1], [-1, 0]] 2 = .ok [["a", "b"], ["b", "c"]] ∧
    arrayArrayIndex [["a", "b"], ["c", "d"]] 2 [[2], [0]] 1 = .error .indexError ∧
    arrayArrayIndex [["a", "b"], ["c", "d"]] 2 [[0], [-1]] 1 = .ok [["a"], ["d"]] := by decide +kernel

/-- With one column of indices a single row of either argument is repeated, but the result is then not accepted when the array is the
longer one; with more columns an array of another length is not noticed. -/
theorem C128_index_lengths :
    arrayArrayIndex [["a", "b"]] 2 [[1], [0]] 1 = .ok [["b"], ["a"]] ∧
    arrayArrayIndex [["a", "b"], ["c", "d"]] 2 [[1]] 1 = .error .valueError ∧
    arrayArrayIndex [["a"], ["b"], ["c"]] 1 [[0], [0]] 1 = .error .indexError ∧
    arrayArrayIndex [["a", "b"], ["c", "d"], ["e", "f"]] 2 [[1, 0], [0, 1]] 2 = .ok [["b", "a"], ["c", "d"]] := by decide +kernel

/-! ## Products -/

theorem range_mul (n P : Nat) : List.range (n * P) = (List.range n).flatMap (fun i => (List.range P).map (fun j => i * P + j)) := by
  induction n with
  | zero => simp
  | succ n ih => rw [Nat.succ_mul, List.range_add, ih, List.range_succ, List.flatMap_append]; simp

theorem product_items {α : Type} : ∀ arrays : List (List α), (List.range ((arrays.map List.length).prod)).mapM (fun m =>
    ((arrays.zip (unravel (arrays.map List.length) m))).mapM (fun p => getRow p.1 p.2)) = .ok (lexProduct arrays) := by
  intro arrays
  induction arrays with
  | nil => rfl
  | cons a as ih =>
    rw [List.map_cons, List.prod_cons, range_mul]
    generalize hP : (as.map List.length).prod = P at ih
    have hrow : (List.range a.length).mapM (fun i => ((List.range P).map (fun j => i * P + j)).mapM (fun m =>
        (((a :: as).zip (unravel (a.length :: as.map List.length) m))).mapM (fun p => getRow p.1 p.2))) =
        .ok (a.map (fun x => (lexProduct as).map (fun t => x :: t))) := by
      rw [mapM_ok_iff]
      have hr : List.Forall₂ (fun (i : Nat) (x : α) => a[i]? = some x) (List.range a.length) a := by
        rw [List.forall₂_iff_get]
        refine ⟨by simp, fun i h1 h2 => ?_⟩
        simp only [List.get_eq_getElem, List.getElem_range]
        exact List.getElem?_eq_getElem h2
      rw [List.forall₂_map_right_iff]
      refine hr.imp fun i x hx => ?_
      rw [List.mapM_map, mapM_ok_iff, List.forall₂_map_right_iff]
      refine (forall₂_with_mem (mapM_ok_iff.1 ih)).imp ?_
      rintro j t ⟨hj, ht⟩
      have hjP := List.mem_range.1 hj
      unfold unravel
      rw [hP]
      have h1 : (i * P + j) / P = i := by
        rw [Nat.mul_comm, Nat.mul_add_div (by omega), Nat.div_eq_of_lt hjP, Nat.add_zero]
      have h2 : (i * P + j) % P = j := by rw [Nat.mul_comm, Nat.mul_add_mod, Nat.mod_eq_of_lt hjP]
      simp only [Function.comp]
      rw [h1, h2, List.zip_cons_cons, List.mapM_cons]
      dsimp only
      rw [getRow_ok.2 hx, ok_bind, ht, ok_bind]
      rfl
    rw [mapM_flatMap_ok hrow]
    rw [lexProduct, List.flatMap_def]

/-- `cartesian_product` returns the product of its arguments in lexicographic order. -/
theorem C128_product {α : Type} {arrays : List (List α)} (h : arrays ≠ []) : cartesianProduct arrays = .ok (lexProduct arrays) := by
  unfold cartesianProduct
  rw [if_neg h]
  exact product_items arrays

/-- So it lists exactly the tuples with one item of each argument, as many as the product of the lengths, and none twice if no argument
repeats an item. -/
theorem C128_product_complete {α : Type} {arrays : List (List α)} (h : arrays ≠ []) :
    ∃ out, cartesianProduct arrays = .ok out ∧ (∀ t, t ∈ out ↔ List.Forall₂ (fun x a => x ∈ a) t arrays) ∧
      out.length = (arrays.map List.length).prod ∧ ((∀ a ∈ arrays, a.Nodup) → out.Nodup) := by
  refine ⟨_, C128_product h, ?_, ?_, ?_⟩
  · intro t
    clear h
    induction arrays generalizing t with
    | nil => simp [lexProduct]
    | cons a as ih =>
      simp only [lexProduct, List.mem_flatMap, List.mem_map]
      constructor
      · rintro ⟨x, hx, t', ht', rfl⟩
        exact List.Forall₂.cons hx ((ih t').1 ht')
      · intro hf
        cases hf with
        | cons hx hf => exact ⟨_, hx, _, (ih _).2 hf, rfl⟩
  · clear h
    induction arrays with
    | nil => rfl
    | cons a as ih =>
      simp only [lexProduct, List.length_flatMap, List.length_map, List.map_cons, List.prod_cons, ← ih]
      simp
  · clear h
    induction arrays with
    | nil => intro _; simp [lexProduct]
    | cons a as ih =>
      intro hn
      rw [lexProduct, List.nodup_flatMap]
      refine ⟨fun x _ => (ih (fun a h => hn a (by simp [h]))).map (fun s t h => by simpa using h), ?_⟩
      refine (hn a (by simp)).imp ?_
      intro x z hxz t ht ht'
      obtain ⟨s, _, rfl⟩ := List.mem_map.1 ht
      obtain ⟨s', _, h⟩ := List.mem_map.1 ht'
      injection h with h
      exact hxz h.symm

example : cartesianProduct [["a", "b"], ["c", "d", "e"]] =
    .ok [["a", "c"], ["a", "d"], ["a", "e"], ["b", "c"], ["b", "d"], ["b", "e"]] := by decide +kernel

/-! ## Shuffling -/

/-- `shuffle_training_set` keeps every row with its label, and changes nothing without a random state. -/
theorem C128_shuffle {X : List Row} {y : List Int} {mask : List Nat} (hxy : X.length = y.length)
    (hm : mask.Perm (List.range X.length)) :
    shuffleTrainingSet none X y = .ok (X, y) ∧
    ∃ X' y', shuffleTrainingSet (some mask) X y = .ok (X', y') ∧ X'.length = X.length ∧ y'.length = y.length ∧
      (X'.zip y').Perm (X.zip y) := by
  refine ⟨rfl, ?_⟩
  have hX : takeRows X mask = .ok (mask.map (fun i => X.getD i [])) := by
    apply mapM_ok_of
    intro i hi
    have := List.mem_range.1 (hm.subset hi)
    rw [getRow_lt this, List.getD_eq_getElem _ _ this]
  have hy : takeRows y mask = .ok (mask.map (fun i => y.getD i 0)) := by
    apply mapM_ok_of
    intro i hi
    have := List.mem_range.1 (hm.subset hi)
    rw [hxy] at this
    rw [getRow_lt this, List.getD_eq_getElem _ _ this]
  refine ⟨_, _, by unfold shuffleTrainingSet; dsimp only; rw [hX, ok_bind, hy, ok_bind]; rfl, ?_, ?_, ?_⟩
  · rw [List.length_map, hm.length_eq, List.length_range]
  · rw [List.length_map, hm.length_eq, List.length_range, hxy]
  · rw [List.zip_map']
    refine (hm.map _).trans (List.Perm.of_eq ?_)
    refine List.ext_getElem (by simp [hxy]) ?_
    intro i h1 h2
    rw [List.getElem_map, List.getElem_range, List.getElem_zip]
    rw [List.length_zip] at h2
    rw [List.getD_eq_getElem _ _ (by omega), List.getD_eq_getElem _ _ (by omega)]

example : shuffleTrainingSet (some [2, 0, 1]) [[1], [2], [3]] [1, 2, 3] = .ok ([[3], [1], [2]], [3, 1, 2]) := by decide +kernel

/-! ## Jittering -/

/-- `sample_by_jittering` moves all coordinates by one common amount, any amount between `-std` and `std`. -/
theorem C128_jitter {x : Row} {std : ℚ} (hs : 0 < std) (z : Row) :
    (∃ u, 0 ≤ u ∧ u < 1 ∧ jitter x std u = z) ↔ ∃ t, -std ≤ t ∧ t < std ∧ z = x.map (fun c => c + t) := by
  constructor
  · rintro ⟨u, h0, h1, rfl⟩
    exact ⟨(u - 1 / 2) * 2 * std, by nlinarith, by nlinarith, rfl⟩
  · rintro ⟨t, h0, h1, rfl⟩
    refine ⟨t / (2 * std) + 1 / 2, ?_, ?_, ?_⟩
    · have : -(1 / 2) ≤ t / (2 * std) := by rw [le_div_iff₀ (by linarith)]; linarith
      linarith
    · have : t / (2 * std) < 1 / 2 := by rw [div_lt_iff₀ (by linarith)]; linarith
      linarith
    · unfold jitter
      apply List.map_congr_left
      intro c _
      field_simp
      ring

/-- `sample_by_jittering_componentwise` moves every coordinate by at most its own deviation. -/
theorem C128_jitter_componentwise {x std : Row} {u : Nat → ℚ} (hl : std.length = x.length) (hs : ∀ t ∈ std, 0 ≤ t)
    (hu : ∀ i, 0 ≤ u i ∧ u i < 1) :
    (jitterComponentwise x std u).length = x.length ∧ ∀ i, i < x.length →
      |(jitterComponentwise x std u).getD i 0 - x.getD i 0| ≤ std.getD i 0 := by
  unfold jitterComponentwise
  have hlen : ((List.zip x std).zipIdx.map (fun p => p.1.1 + (u p.2 - 1 / 2) * 2 * p.1.2)).length = x.length := by simp [hl]
  refine ⟨hlen, fun i hi => ?_⟩
  rw [List.getD_eq_getElem _ _ (by omega), List.getD_eq_getElem _ _ hi, List.getD_eq_getElem _ _ (by omega : i < std.length)]
  rw [List.getElem_map, List.getElem_zipIdx, List.getElem_zip]
  dsimp only
  have h0 := hs _ (List.getElem_mem (by omega : i < std.length))
  obtain ⟨h1, h2⟩ := hu (0 + i)
  rw [abs_le]
  constructor <;> nlinarith

example : jitter [1, 2] 3 (3 / 4) = [5 / 2, 7 / 2] ∧ jitterComponentwise [1, 2] [1, 2] (fun _ => 0) = [0, 0] := by decide +kernel

/-! ## Covariances -/

theorem zipWith_sum {f : ℚ → ℚ → ℚ} : ∀ {a b : Row}, a.length = b.length →
    (List.zipWith f a b).sum = ∑ t ∈ Finset.range a.length, f (a.getD t 0) (b.getD t 0) := by
  intro a
  induction a with
  | nil => intro b _; simp
  | cons x a ih =>
    intro b hb
    cases b with
    | nil => simp at hb
    | cons z b =>
      rw [List.zipWith_cons_cons, List.sum_cons, ih (by simpa using hb), List.length_cons, Finset.sum_range_succ']
      simp only [List.getD_cons_zero, List.getD_cons_succ]
      ring

theorem covEntry_eq {a b : Row} (h : a.length = b.length) (h2 : 2 ≤ a.length) : covEntry a b = .ok (sampleCov a b) := by
  unfold covEntry sampleCov
  rw [if_neg (by omega), zipWith_sum h]

theorem covHelper_eq {vars : List Row} {n nCols : Nat} (hn : 2 ≤ n) (hv : ∀ v ∈ vars, v.length = n) :
    covHelper true nCols vars = .ok (vars.map (fun a => vars.map (fun b => sampleCov a b))) := by
  have hm : vars.mapM (fun a => vars.mapM (fun b => covEntry a b)) = .ok (vars.map (fun a => vars.map (fun b => sampleCov a b))) := by
    apply mapM_ok_of
    intro a ha
    apply mapM_ok_of
    intro b hb
    exact covEntry_eq (by rw [hv a ha, hv b hb]) (by rw [hv a ha]; exact hn)
  unfold covHelper variablesOf
  rw [if_pos rfl]
  match vars, hv, hm with
  | [], _, _ => rfl
  | [v], hv, _ =>
    unfold npCov
    dsimp only
    rw [covEntry_eq rfl (by rw [hv v (by simp)]; exact hn)]
    rfl
  | v :: w :: vars, _, hm =>
    unfold npCov
    dsimp only
    rw [hm]
    rfl

/-- `cov` returns the matrix of all sample covariances, one row and one column per variable, for a single variable as well: it is
symmetric and no weighted sum of the variables has a negative variance. -/
theorem C128_cov {vars : List Row} {n nCols : Nat} (hn : 2 ≤ n) (hv : ∀ v ∈ vars, v.length = n) :
    ∃ M, covHelper true nCols vars = .ok M ∧ M.length = vars.length ∧ (∀ row ∈ M, row.length = vars.length) ∧
      (∀ i j, i < vars.length → j < vars.length →
        (M.getD i []).getD j 0 = sampleCov (vars.getD i []) (vars.getD j []) ∧
        (M.getD i []).getD j 0 = (M.getD j []).getD i 0) ∧
      ∀ c : Nat → ℚ, 0 ≤ ∑ i ∈ Finset.range vars.length, ∑ j ∈ Finset.range vars.length,
        c i * c j * (M.getD i []).getD j 0 := by
  refine ⟨_, covHelper_eq hn hv, by simp, by simp, ?_⟩
  have hget : ∀ i j, i < vars.length → j < vars.length →
      ((vars.map (fun a => vars.map (fun b => sampleCov a b))).getD i []).getD j 0 =
        sampleCov (vars.getD i []) (vars.getD j []) := by
    intro i j hi hj
    rw [List.getD_eq_getElem (vars.map _) [] (by simpa using hi), List.getElem_map,
      List.getD_eq_getElem (vars.map _) 0 (by simpa using hj), List.getElem_map,
      List.getD_eq_getElem _ _ hi, List.getD_eq_getElem _ _ hj]
  have hlen : ∀ i, i < vars.length → (vars.getD i []).length = n := by
    intro i hi
    rw [List.getD_eq_getElem _ _ hi]
    exact hv _ (List.getElem_mem hi)
  refine ⟨fun i j hi hj => ⟨hget i j hi hj, ?_⟩, fun c => ?_⟩
  · rw [hget i j hi hj, hget j i hj hi]
    unfold sampleCov
    rw [hlen i hi, hlen j hj]
    congr 1
    exact Finset.sum_congr rfl fun t _ => mul_comm _ _
  · have hn' : (0 : ℚ) < (n : ℚ) - 1 := by
      have : (2 : ℚ) ≤ n := by exact_mod_cast hn
      linarith
    have key : ∑ i ∈ Finset.range vars.length, ∑ j ∈ Finset.range vars.length,
        c i * c j * ((vars.map (fun a => vars.map (fun b => sampleCov a b))).getD i []).getD j 0 =
        (∑ t ∈ Finset.range n, (∑ i ∈ Finset.range vars.length,
          c i * ((vars.getD i []).getD t 0 - (vars.getD i []).sum / n)) ^ 2) / ((n : ℚ) - 1) := by
      have e1 : ∀ i ∈ Finset.range vars.length, ∀ j ∈ Finset.range vars.length,
          c i * c j * ((vars.map (fun a => vars.map (fun b => sampleCov a b))).getD i []).getD j 0 =
          (∑ t ∈ Finset.range n, (c i * ((vars.getD i []).getD t 0 - (vars.getD i []).sum / n)) *
            (c j * ((vars.getD j []).getD t 0 - (vars.getD j []).sum / n))) / ((n : ℚ) - 1) := by
        intro i hi j hj
        rw [hget i j (Finset.mem_range.1 hi) (Finset.mem_range.1 hj)]
        unfold sampleCov
        rw [hlen i (Finset.mem_range.1 hi), hlen j (Finset.mem_range.1 hj), ← mul_div_assoc, Finset.mul_sum]
        congr 1
        exact Finset.sum_congr rfl fun t _ => by ring
      rw [Finset.sum_congr rfl fun i hi => Finset.sum_congr rfl fun j hj => e1 i hi j hj]
      simp only [← Finset.sum_div]
      congr 1
      rw [Finset.sum_congr rfl fun i _ => Finset.sum_comm, Finset.sum_comm]
      refine Finset.sum_congr rfl fun t _ => ?_
      rw [sq, Finset.sum_mul_sum]
    rw [key]
    exact div_nonneg (Finset.sum_nonneg fun t _ => sq_nonneg _) hn'.le

/-- numpy returns a number, not a matrix, for a single variable: this is what the helper is for. -/
theorem C128_cov_single {v : Row} (hv : 2 ≤ v.length) : npCov [v] = .ok (.number (sampleCov v v)) ∧
    ∀ nCols, covHelper true nCols [v] = .ok [[sampleCov v v]] := by
  refine ⟨?_, fun nCols => covHelper_eq hv (by simp)⟩
  have h := covHelper_eq (vars := [v]) (nCols := 0) hv (by simp)
  unfold covHelper variablesOf npCov at h
  unfold npCov
  cases hc : covEntry v v with
  | error e => simp [hc, bind, Except.bind] at h
  | ok c => simp_all [bind, Except.bind, pure, Except.pure]

/-- With the variables in the columns the result is that for the columns; with fewer than two observations it is NaN. -/
theorem C128_cov_columns {A : List Row} {nCols : Nat} :
    covHelper false nCols A = covHelper true nCols ((List.range nCols).map (fun j => A.map (fun r => r.getD j 0))) ∧
    (A.length < 2 → 0 < nCols → covHelper false nCols A = .error .nan) := by
  refine ⟨rfl, fun hA hc => ?_⟩
  unfold covHelper variablesOf
  rw [if_neg (by simp)]
  have hnan : ∀ (j : Nat) (b : Row), covEntry (A.map (fun r => r.getD j 0)) b = .error .nan := by
    intro j b
    unfold covEntry
    rw [if_pos (by simpa using hA)]
  match nCols, hc with
  | 1, _ =>
    show (do let c ← npCov [A.map (fun r => r.getD 0 0)]; _ : Res _) = _
    unfold npCov
    dsimp only
    rw [hnan]
    rfl
  | m + 2, _ =>
    rw [List.range_succ_eq_map, List.range_succ_eq_map]
    simp only [List.map_cons]
    unfold npCov
    dsimp only
    rw [List.mapM_cons, List.mapM_cons, hnan]
    rfl

example : covHelper false 2 [[1, 2], [3, 6]] = .ok [[2, 4], [4, 8]] ∧ covHelper false 1 [[1], [3]] = .ok [[2]] := by decide +kernel

end Verif

import Verif.Model.Distances
import Verif.Spec.Distances
import Verif.Lemmas.Basic
import Mathlib.Tactic.Linarith
import Mathlib.Tactic.Ring
import Mathlib.Tactic.NormNum

/-! # Lemmas about distance matrices -/

namespace Verif

theorem rowBlocks_flatten (size : Nat) (X : List Row) : (rowBlocks size X).flatten = X := by
  induction X using rowBlocks.induct (size := size) with
  | case1 X h =>
    rw [rowBlocks, if_pos h]
    rw [List.length_eq_zero_iff.1 h]; rfl
  | case2 X h ih =>
    rw [rowBlocks, if_neg h, List.flatten_cons, ih, List.take_append_drop]

theorem rowBlocks_length (size : Nat) (X : List Row) : ∀ b ∈ rowBlocks size X, b.length ≤ size + 1 := by
  induction X using rowBlocks.induct (size := size) with
  | case1 X h => rw [rowBlocks, if_pos h]; simp
  | case2 X h ih =>
    rw [rowBlocks, if_neg h]
    intro b hb
    rcases List.mem_cons.1 hb with rfl | hb
    · rw [List.length_take]; omega
    · exact ih b hb

theorem rowBlocks_first {size : Nat} {X : List Row} (h : X.length ≠ 0) :
    ∃ b rest, rowBlocks size X = b :: rest ∧ b.length ≠ 0 := by
  refine ⟨X.take (size + 1), rowBlocks size (X.drop (size + 1)), ?_, ?_⟩
  · conv_lhs => rw [rowBlocks]
    rw [if_neg h]
  · rw [List.length_take]; omega

theorem directDistances_append {β : Type} (sqrt : ℚ → β) (d : Nat) (t : Option (List Row)) (o : Bool) (Y A B : List Row) :
    directDistances sqrt d t o (A ++ B) Y = directDistances sqrt d t o A Y ++ directDistances sqrt d t o B Y := by
  unfold directDistances
  cases t with
  | none => dsimp only; split <;> rw [List.map_append]
  | some T =>
    dsimp only
    split
    · split <;> rw [List.map_append]
    · rw [List.map_append]

theorem directDistances_nil {β : Type} (sqrt : ℚ → β) (d : Nat) (t : Option (List Row)) (o : Bool) (Y : List Row) :
    directDistances sqrt d t o [] Y = [] := by
  unfold directDistances
  cases t with
  | none => dsimp only; split <;> rfl
  | some T =>
    dsimp only
    split
    · split <;> rfl
    · rfl

theorem directDistances_flatten {β : Type} (sqrt : ℚ → β) (d : Nat) (t : Option (List Row)) (o : Bool) (Y : List Row)
    (bs : List (List Row)) :
    (bs.map (fun b => directDistances sqrt d t o b Y)).flatten = directDistances sqrt d t o bs.flatten Y := by
  induction bs with
  | nil => rw [List.flatten_nil, directDistances_nil]; rfl
  | cons b bs ih => rw [List.map_cons, List.flatten_cons, ih, List.flatten_cons, directDistances_append]

theorem mapM_ok_map {α β : Type} {f : α → Res β} {g : α → β} {l : List α} (h : ∀ a ∈ l, f a = .ok (g a)) :
    l.mapM f = .ok (l.map g) := by
  induction l with
  | nil => rfl
  | cons a l ih =>
    rw [List.mapM_cons, h a (List.mem_cons_self ..), ok_bind, ih (fun b hb => h b (List.mem_cons_of_mem _ hb)), ok_bind]
    rfl

theorem pairwise_small {β : Type} {maxMem : Nat} {sqrt : ℚ → β} {d : Nat} {t : Option (List Row)} {o : Bool}
    {Y X : List Row} {depth : Nat} (h : X.length * d * Y.length ≤ maxMem) :
    pairwiseDistances maxMem sqrt d t o Y (depth + 1) X = .ok (directDistances sqrt d t o X Y) := by
  rw [pairwiseDistances, if_neg (by omega)]

/-- Blocks of the computed size fit. -/
theorem rowBlockSize_fits {n d m maxMem : Nat} (h0 : 0 < maxMem) (hrow : d * m ≤ maxMem) (hbig : n * d * m > maxMem) :
    rowBlockSize n d m maxMem * d * m ≤ maxMem := by
  unfold rowBlockSize
  generalize hc : (n * d * m + maxMem - 1) / maxMem = c
  have hc1 : n * d * m ≤ c * maxMem := by
    have := Nat.lt_div_mul_add (a := n * d * m + maxMem - 1) h0
    rw [hc] at this
    omega
  have hcpos : 0 < c := by
    rcases Nat.eq_zero_or_pos c with h | h
    · rw [h] at hc1; omega
    · exact h
  have key : n / c * d * m ≤ maxMem := by
    have h1 : n / c * c ≤ n := Nat.div_mul_le_self n c
    have h2 : (n / c * d * m) * c ≤ maxMem * c := by
      calc (n / c * d * m) * c = (n / c * c) * (d * m) := by ring
        _ ≤ n * (d * m) := Nat.mul_le_mul_right _ h1
        _ = n * d * m := by ring
        _ ≤ c * maxMem := hc1
        _ = maxMem * c := by ring
    exact Nat.le_of_mul_le_mul_right h2 hcpos
  rcases le_total (n / c) 1 with h | h
  · rw [max_eq_right h, Nat.one_mul]; exact hrow
  · rw [max_eq_left h]; exact key

/-- `zipWith` of two rows as a sum over positions. -/
theorem zipWith_sum_range {d : Nat} {α β : Type} (a : List α) (b : List β) (g : α → β → ℚ) (da : α) (db : β)
    (ha : a.length = d) (hb : b.length = d) :
    (List.zipWith g a b).sum = ((List.range d).map (fun k => g (a.getD k da) (b.getD k db))).sum := by
  congr 1
  apply List.ext_getElem
  · simp [ha, hb]
  · intro i h1 h2
    simp at h2
    simp [List.getD_eq_getElem?_getD, ha, hb, h2]

theorem getD_rowSub {d : Nat} {x y : Row} (hx : x.length = d) (hy : y.length = d) {k : Nat} (hk : k < d) :
    (Row.sub x y).getD k 0 = diffOf x y k := by
  unfold Row.sub diffOf
  simp [List.getD_eq_getElem?_getD, hx, hy, hk]

theorem length_rowSub {d : Nat} {x y : Row} (hx : x.length = d) (hy : y.length = d) : (Row.sub x y).length = d := by
  unfold Row.sub; rw [List.length_zipWith, hx, hy, min_self]

theorem list_sum_map_congr {l : List Nat} {f g : Nat → ℚ} (h : ∀ k ∈ l, f k = g k) : (l.map f).sum = (l.map g).sum := by
  rw [List.map_congr_left h]

theorem list_sum_map_mul_left (l : List Nat) (c : ℚ) (f : Nat → ℚ) :
    c * (l.map f).sum = (l.map (fun k => c * f k)).sum := by
  induction l with
  | nil => simp
  | cons a l ih => rw [List.map_cons, List.sum_cons, List.map_cons, List.sum_cons, ← ih]; ring

/-- The quadratic form is the double sum of the specification. -/
theorem quadForm_eq {d : Nat} {T : List Row} {v : Row} (hT : T.length = d) (hr : ∀ r ∈ T, r.length = d) (hv : v.length = d) :
    quadForm T v = tensorNorm d (entryOf T) (fun k => v.getD k 0) := by
  unfold quadForm tensorNorm
  rw [zipWith_sum_range v T _ 0 [] hv hT]
  apply list_sum_map_congr
  intro k hk
  rw [List.mem_range] at hk
  unfold dotRow
  have hrow : (T.getD k []).length = d := by
    rw [List.getD_eq_getElem?_getD, List.getElem?_eq_getElem (by omega), Option.getD_some]
    exact hr _ (List.getElem_mem _)
  rw [zipWith_sum_range (T.getD k []) v _ 0 0 hrow hv, list_sum_map_mul_left]
  apply list_sum_map_congr
  intro l hl
  unfold entryOf
  ring

theorem eyeRows_length (d : Nat) : (eyeRows d).length = d := by simp [eyeRows]

theorem eyeRows_row (d : Nat) : ∀ r ∈ eyeRows d, r.length = d := by
  intro r hr
  unfold eyeRows at hr
  rw [List.mem_map] at hr
  obtain ⟨i, _, rfl⟩ := hr
  simp

theorem entryOf_eye {d k l : Nat} (hk : k < d) (hl : l < d) : entryOf (eyeRows d) k l = if k = l then 1 else 0 := by
  unfold entryOf eyeRows
  simp [List.getD_eq_getElem?_getD, hk, hl]

theorem sum_range_single {d k : Nat} (hk : k < d) (c : ℚ) (f : Nat → ℚ) (hf : f k = c)
    (h0 : ∀ l, l < d → l ≠ k → f l = 0) : ((List.range d).map f).sum = c := by
  induction d with
  | zero => omega
  | succ d ih =>
    rw [List.range_succ, List.map_append, List.sum_append, List.map_cons, List.map_nil, List.sum_cons, List.sum_nil]
    rcases Nat.lt_or_ge k d with h | h
    · rw [ih h (fun l hl => h0 l (by omega)), h0 d (by omega) (by omega)]; ring
    · have hkd : k = d := by omega
      subst hkd
      have : ((List.range k).map f).sum = 0 := by
        have : ((List.range k).map f) = (List.range k).map (fun _ => (0 : ℚ)) := by
          apply List.map_congr_left
          intro l hl
          rw [List.mem_range] at hl
          exact h0 l (by omega) (by omega)
        rw [this]
        simp
      rw [this, hf]; ring

/-- The form of the identity is the sum of squares. -/
theorem tensorNorm_eye (d : Nat) (v : Nat → ℚ) :
    tensorNorm d (fun k l => if k = l then 1 else 0) v = ((List.range d).map (fun k => v k ^ 2)).sum := by
  unfold tensorNorm
  apply list_sum_map_congr
  intro k hk
  rw [List.mem_range] at hk
  apply sum_range_single hk
  · simp; ring
  · intro l _ hne
    simp [Ne.symm hne]

theorem sumSquares_eq {d : Nat} {v : Row} (hv : v.length = d) :
    sumSquares v = ((List.range d).map (fun k => v.getD k 0 ^ 2)).sum := by
  unfold sumSquares
  congr 1
  apply List.ext_getElem
  · simp [hv]
  · intro i h1 h2
    simp at h1
    simp [List.getD_eq_getElem?_getD, h1]
    ring

theorem quadForm_eye {d : Nat} {v : Row} (hv : v.length = d) : quadForm (eyeRows d) v = sumSquares v := by
  rw [quadForm_eq (eyeRows_length d) (eyeRows_row d) hv, sumSquares_eq hv, ← tensorNorm_eye]
  unfold tensorNorm
  apply list_sum_map_congr
  intro k hk
  apply list_sum_map_congr
  intro l hl
  rw [List.mem_range] at hk hl
  rw [entryOf_eye hk hl]

end Verif

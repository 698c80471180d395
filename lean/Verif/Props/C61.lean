import Verif.Model.Weighted
import Verif.Lemmas.Drawn
import Verif.Lemmas.SelTotal
import Verif.Lemmas.SimplexAlg
import Verif.Lemmas.SmoteExample
import Verif.Lemmas.Unique
import Verif.Props.C47
import Verif.Props.C58

/-!
# C61: MCT, Edge_Det_SMOTE and ADASYN draw the base rows with the documented probabilities
-/

namespace Verif

/-! ## Specification -/

/-- `a` is the `k`-th smallest entry of the list, counted from 0. -/
def IsOrderStat (l : List ℚ) (k : Nat) (a : ℚ) : Prop :=
  a ∈ l ∧ l.countP (fun x => decide (x < a)) ≤ k ∧ k < l.countP (fun x => decide (x ≤ a))

/-- `m` is the median: the middle entry, or the midpoint of the two middle entries. -/
def IsMedian (l : List ℚ) (m : ℚ) : Prop :=
  ∃ a b, IsOrderStat l ((l.length - 1) / 2) a ∧ IsOrderStat l (l.length / 2) b ∧ m = (a + b) / 2

/-- Every coordinate of `c` is the median of the coordinates of the rows. -/
def IsMedianRow (d : Nat) (rows : List Row) (c : Row) : Prop :=
  c.length = d ∧ ∀ (t : Nat) (q : ℚ), c[t]? = some q → IsMedian (rows.map (fun r => r.getD t 0)) q

/-- How many rows come before row `i` when the rows are ordered by an attribute, equal values in the order of the rows. -/
def rankIn (col : List ℚ) (i : Nat) : Nat :=
  ((List.range col.length).filter (fun k => decide (col.getD k 0 < col.getD i 0) ||
    (decide (col.getD k 0 = col.getD i 0) && decide (k < i)))).length

/-- Row `i` stands between two rows of different classes when the rows are ordered by the attribute. -/
def onEdge (col : List ℚ) (y : List Int) (i : Nat) : Bool :=
  (List.range col.length).any (fun p => (List.range col.length).any (fun s =>
    decide (rankIn col p + 1 = rankIn col i) && decide (rankIn col s = rankIn col i + 1) && decide (y[p]? ≠ y[s]?)))

/-- The number of attributes in which row `i` stands between two rows of different classes. -/
def edgeCount (d : Nat) (X : List Row) (y : List Int) (i : Nat) : Nat :=
  ((List.range d).filter (fun t => onEdge (X.map (fun r => r.getD t 0)) y i)).length

/-- The positions of the rows labelled `a`. -/
def positionsOf (y : List Int) (a : Int) : List Nat := (List.range y.length).filter (fun i => decide (y[i]? = some a))

/-- The weights of the minority rows in Edge_Det_SMOTE: square roots of the shares of the edge counts. -/
def edgeSpec (sqrt : ℚ → ℚ) (d : Nat) (X : List Row) (y : List Int) (a : Int) : List ℚ :=
  (shares ((positionsOf y a).map (fun i => (edgeCount d X y i : ℚ)))).map sqrt

/-- Contract of the square root: not negative, zero only at zero. -/
def SqrtOK (sqrt : ℚ → ℚ) : Prop := sqrt 0 = 0 ∧ ∀ q, 0 < q → 0 < sqrt q

/-- The rows `X`, `y` followed by `n` rows labelled `a`; the `i`-th of them is a convex combination of the minority row in whose
share of the weights the `i`-th random number falls and of `nDim - 1` rows listed for it. -/
def DrawnBy (d nDim : Nat) (A : List Row) (table : List (List Nat)) (w : List ℚ) (u : Nat → ℚ) (X : List Row) (y : List Int)
    (a : Int) (n : Nat) (X' : List Row) (y' : List Int) : Prop :=
  ∃ new : List Row, X' = X ++ new ∧ y' = y ++ List.replicate n a ∧ new.length = n ∧
    ∀ (i : Nat) (x : Row), new[i]? = some x → ∃ b, DrawsShare w (u i) b ∧ SimplexOf d nDim A A table (fun c => c = b) x

/-! ## Sorting -/

theorem countP_le_of_sorted {l : List ℚ} (h : l.Pairwise (· ≤ ·)) {k : Nat} (hk : k < l.length) :
    l.countP (fun x => decide (x < l[k])) ≤ k ∧ k < l.countP (fun x => decide (x ≤ l[k])) := by
  have hs : l = l.take (k + 1) ++ l.drop (k + 1) := (List.take_append_drop _ _).symm
  have hs' : l = l.take k ++ l.drop k := (List.take_append_drop _ _).symm
  have hle : ∀ x ∈ l.take (k + 1), x ≤ l[k] := by
    intro x hx
    obtain ⟨i, hi⟩ := List.mem_iff_getElem?.1 hx
    obtain ⟨hlt, he⟩ := List.getElem?_eq_some_iff.1 hi
    rw [List.length_take] at hlt
    rw [List.getElem_take] at he
    rw [← he]
    rcases Nat.lt_or_ge i k with h1 | h1
    · exact (List.pairwise_iff_getElem.1 h) i k (by omega) hk h1
    · have : i = k := by omega
      subst this; exact le_refl _
  have hge : ∀ x ∈ l.drop k, l[k] ≤ x := by
    intro x hx
    obtain ⟨i, hi⟩ := List.mem_iff_getElem?.1 hx
    obtain ⟨hlt, he⟩ := List.getElem?_eq_some_iff.1 hi
    rw [List.length_drop] at hlt
    rw [List.getElem_drop] at he
    rw [← he]
    rcases Nat.eq_zero_or_pos i with h1 | h1
    · subst h1; exact le_of_eq rfl
    · exact (List.pairwise_iff_getElem.1 h) k (k + i) hk (by omega) (by omega)
  constructor
  · have h0 : (l.drop k).countP (fun x => decide (x < l[k])) = 0 := by
      rw [List.countP_eq_zero]
      intro x hx
      have := hge x hx
      simpa using this
    have h1 : (l.take k).countP (fun x => decide (x < l[k])) ≤ (l.take k).length := List.countP_le_length
    rw [List.length_take] at h1
    have : l.countP (fun x => decide (x < l[k])) = (l.take k ++ l.drop k).countP (fun x => decide (x < l[k])) := by
      rw [List.take_append_drop]
    rw [this, List.countP_append]
    omega
  · have h0 : (l.take (k + 1)).countP (fun x => decide (x ≤ l[k])) = (l.take (k + 1)).length := by
      rw [List.countP_eq_length]
      intro x hx
      simpa using hle x hx
    rw [List.length_take] at h0
    have : l.countP (fun x => decide (x ≤ l[k])) = (l.take (k + 1) ++ l.drop (k + 1)).countP (fun x => decide (x ≤ l[k])) := by
      rw [List.take_append_drop]
    rw [this, List.countP_append]
    omega

theorem medianOf_isMedian {l : List ℚ} (h : l ≠ []) : IsMedian l (medianOf l) := by
  have hp := List.perm_insertionSort (· ≤ ·) l
  have hl : (l.insertionSort (· ≤ ·)).length = l.length := hp.length_eq
  have hs : (l.insertionSort (· ≤ ·)).Pairwise (· ≤ ·) := List.pairwise_insertionSort (· ≤ ·) l
  have hpos : 0 < l.length := List.length_pos_iff.2 h
  have key : ∀ k, k < l.length → IsOrderStat l k ((l.insertionSort (· ≤ ·)).getD k 0) := by
    intro k hk
    have hk' : k < (l.insertionSort (· ≤ ·)).length := by omega
    obtain ⟨h1, h2⟩ := countP_le_of_sorted hs hk'
    rw [List.getD_eq_getElem?_getD, List.getElem?_eq_getElem hk', Option.getD_some]
    refine ⟨hp.subset (List.getElem_mem hk'), ?_, ?_⟩
    · rw [← hp.countP_eq]; exact h1
    · rw [← hp.countP_eq]; exact h2
  refine ⟨_, _, key ((l.length - 1) / 2) (by omega), key (l.length / 2) (by omega), ?_⟩
  unfold medianOf
  simp only [hl]

theorem medianRow_isMedianRow (d : Nat) {rows : List Row} (h : rows ≠ []) : IsMedianRow d rows (medianRow d rows) := by
  refine ⟨by simp [medianRow], fun t q hq => ?_⟩
  unfold medianRow at hq
  rw [List.getElem?_map, Option.map_eq_some_iff] at hq
  obtain ⟨i, hi, rfl⟩ := hq
  obtain ⟨hlt, he⟩ := List.getElem?_eq_some_iff.1 hi
  rw [List.getElem_range] at he
  subst he
  exact medianOf_isMedian (by simpa using h)

/-! ## The order by an attribute -/

/-- Row `i` comes before row `j`. -/
def Before (col : List ℚ) (i j : Nat) : Prop := col.getD i 0 < col.getD j 0 ∨ (col.getD i 0 = col.getD j 0 ∧ i < j)

theorem Before.asymm {col : List ℚ} {i j : Nat} (h : Before col i j) : ¬ Before col j i := by
  rcases h with h | ⟨h, h'⟩ <;> rintro (g | ⟨g, g'⟩)
  · exact absurd h (not_lt.2 g.le)
  · exact absurd h (by rw [g]; exact lt_irrefl _)
  · exact absurd g (by rw [h]; exact lt_irrefl _)
  · omega

theorem sortPositions_perm (col : List ℚ) : (sortPositions col).Perm (List.range col.length) := List.perm_insertionSort _ _

theorem sortPositions_length (col : List ℚ) : (sortPositions col).length = col.length := by
  rw [(sortPositions_perm col).length_eq, List.length_range]

theorem sortPositions_before (col : List ℚ) : (sortPositions col).Pairwise (Before col) := by
  let R : Nat → Nat → Prop := fun i j => col.getD i 0 < col.getD j 0 ∨ (col.getD i 0 = col.getD j 0 ∧ i ≤ j)
  have tot : Std.Total R := ⟨fun a b => by
    rcases lt_trichotomy (col.getD a 0) (col.getD b 0) with h | h | h
    · exact .inl (.inl h)
    · rcases Nat.le_total a b with h' | h'
      · exact .inl (.inr ⟨h, h'⟩)
      · exact .inr (.inr ⟨h.symm, h'⟩)
    · exact .inr (.inl h)⟩
  have trans : IsTrans Nat R := ⟨fun a b c h1 h2 => by
    rcases h1 with h1 | ⟨h1, h1'⟩ <;> rcases h2 with h2 | ⟨h2, h2'⟩
    · exact .inl (h1.trans h2)
    · exact .inl (by rw [← h2]; exact h1)
    · exact .inl (by rw [h1]; exact h2)
    · exact .inr ⟨h1.trans h2, h1'.trans h2'⟩⟩
  have hs : (sortPositions col).Pairwise R := List.pairwise_insertionSort R (List.range col.length)
  have hn : (sortPositions col).Nodup := (sortPositions_perm col).nodup_iff.2 List.nodup_range
  refine (hs.and hn).imp ?_
  rintro i j ⟨h | ⟨h, h'⟩, hne⟩
  · exact .inl h
  · exact .inr ⟨h, by omega⟩

theorem rankIn_eq {col : List ℚ} {r i : Nat} (h : (sortPositions col)[r]? = some i) : rankIn col i = r := by
  unfold rankIn
  rw [← List.countP_eq_length_filter, ← (sortPositions_perm col).countP_eq]
  obtain ⟨hlt, he⟩ := List.getElem?_eq_some_iff.1 h
  have hb := sortPositions_before col
  rw [List.pairwise_iff_getElem] at hb
  have hiff : ∀ k, (decide (col.getD k 0 < col.getD i 0) || (decide (col.getD k 0 = col.getD i 0) && decide (k < i))) = true ↔
      Before col k i := by
    intro k; unfold Before; simp
  have hsp : sortPositions col = (sortPositions col).take r ++ (sortPositions col).drop r := (List.take_append_drop _ _).symm
  rw [hsp, List.countP_append]
  have h1 : ((sortPositions col).take r).countP (fun k => decide (col.getD k 0 < col.getD i 0) ||
      (decide (col.getD k 0 = col.getD i 0) && decide (k < i))) = ((sortPositions col).take r).length := by
    rw [List.countP_eq_length]
    intro k hk
    rw [hiff]
    obtain ⟨m, hm⟩ := List.mem_iff_getElem?.1 hk
    obtain ⟨hml, hme⟩ := List.getElem?_eq_some_iff.1 hm
    rw [List.getElem_take] at hme
    rw [List.length_take] at hml
    rw [← hme, ← he]
    exact hb m r (by omega) hlt (by omega)
  have h2 : ((sortPositions col).drop r).countP (fun k => decide (col.getD k 0 < col.getD i 0) ||
      (decide (col.getD k 0 = col.getD i 0) && decide (k < i))) = 0 := by
    rw [List.countP_eq_zero]
    intro k hk
    rw [hiff]
    obtain ⟨m, hm⟩ := List.mem_iff_getElem?.1 hk
    obtain ⟨hml, hme⟩ := List.getElem?_eq_some_iff.1 hm
    rw [List.getElem_drop] at hme
    rw [List.length_drop] at hml
    rcases Nat.eq_zero_or_pos m with hm0 | hm0
    · subst hm0
      have hki : k = i := by rw [← hme, ← he]; rfl
      subst hki
      exact fun h => h.asymm h
    · rw [← hme, ← he]
      exact (hb r (r + m) hlt (by omega) (by omega)).asymm
  rw [h1, h2, List.length_take]
  omega

theorem exists_rank {col : List ℚ} {i : Nat} (h : i < col.length) :
    (sortPositions col)[rankIn col i]? = some i ∧ rankIn col i < col.length := by
  have hm : i ∈ sortPositions col := (sortPositions_perm col).mem_iff.2 (List.mem_range.2 h)
  obtain ⟨r, hr⟩ := List.mem_iff_getElem?.1 hm
  rw [rankIn_eq hr]
  refine ⟨hr, ?_⟩
  have := (List.getElem?_eq_some_iff.1 hr).1
  rwa [sortPositions_length] at this

/-! ## The loops of Edge_Det_SMOTE -/

theorem foldl_modify_getElem? (js : List Nat) (f : Nat → Nat) (c : Nat → ℚ) (mag : List ℚ) (i : Nat) :
    (js.foldl (fun m j => m.modify (f j) (fun q => q + c j)) mag)[i]? =
      mag[i]?.map (fun q => q + (js.map (fun j => if f j = i then c j else 0)).sum) := by
  induction js generalizing mag with
  | nil => simp
  | cons j js ih =>
    rw [List.foldl_cons, ih, List.getElem?_modify, List.map_cons, List.sum_cons]
    cases hm : mag[i]? with
    | none => simp
    | some q =>
      by_cases hf : f j = i
      · simp only [hf, if_true, Option.map_some, Option.some.injEq, Option.map_eq_map]; ring
      · simp only [if_neg hf, Option.map_some, Option.some.injEq, Option.map_eq_map]; ring

theorem sum_single {js : List Nat} (hn : js.Nodup) {p : Nat → Prop} [DecidablePred p] {r : Nat} (h : ∀ j ∈ js, p j ↔ j = r)
    (c : Nat → ℚ) : (js.map (fun j => if p j then c j else 0)).sum = if r ∈ js then c r else 0 := by
  induction js with
  | nil => simp
  | cons j js ih =>
    rw [List.nodup_cons] at hn
    have ih' := ih hn.2 (fun j hj => h j (by simp [hj]))
    rw [List.map_cons, List.sum_cons, ih']
    by_cases hj : j = r
    · subst hj
      rw [if_pos ((h j (by simp)).2 rfl), if_neg hn.1, if_pos (by simp)]
      ring
    · rw [if_neg (fun hp => hj ((h j (by simp)).1 hp))]
      by_cases hr : r ∈ js
      · rw [if_pos hr, if_pos (by simp [hr])]; ring
      · rw [if_neg hr, if_neg (by simp [hr]; exact fun h => hj h.symm)]; ring

theorem edgeColumn_get {col : List ℚ} {y : List Int} {a b : Int} (hy : col.length = y.length) (hab : ∀ l ∈ y, l = a ∨ l = b)
    {mag : List ℚ} {i : Nat} (hi : i < col.length) :
    (edgeColumn col y mag)[i]? = mag[i]?.map (fun q => q + if onEdge col y i then (((a - b) ^ 2 : Int) : ℚ) else 0) := by
  unfold edgeColumn
  dsimp only
  rw [foldl_modify_getElem?]
  congr 1
  funext q
  congr 1
  obtain ⟨hr, hrl⟩ := exists_rank hi
  have hlen := sortPositions_length col
  have hget : ∀ j, j < col.length → (sortPositions col).getD j 0 < col.length ∧
      rankIn col ((sortPositions col).getD j 0) = j := by
    intro j hj
    have h1 : (sortPositions col)[j]? = some ((sortPositions col).getD j 0) := by
      rw [List.getD_eq_getElem?_getD, List.getElem?_eq_getElem (by omega)]; rfl
    have := (sortPositions_perm col).mem_iff.1 (List.mem_of_getElem? h1)
    exact ⟨List.mem_range.1 this, rankIn_eq h1⟩
  rw [sum_single (r := rankIn col i) List.nodup_range' (by
    intro j hj
    rw [List.mem_range'_1] at hj
    have hjl : j < col.length := by omega
    constructor
    · intro he
      rw [← he]; exact (hget j hjl).2.symm
    · rintro rfl
      rw [List.getD_eq_getElem?_getD, hr]; rfl)]
  set r := rankIn col i with hrd
  by_cases hin : r ∈ List.range' 1 ((sortPositions col).length - 2)
  · rw [if_pos hin]
    rw [List.mem_range'_1] at hin
    obtain ⟨p1, p2⟩ := hget (r - 1) (by omega)
    obtain ⟨s1, s2⟩ := hget (r + 1) (by omega)
    set p := (sortPositions col).getD (r - 1) 0 with hp
    set t := (sortPositions col).getD (r + 1) 0 with ht
    have hyp : y[p]? = some (y.getD p 0) := by
      rw [List.getD_eq_getElem?_getD, List.getElem?_eq_getElem (by omega)]; rfl
    have hyt : y[t]? = some (y.getD t 0) := by
      rw [List.getD_eq_getElem?_getD, List.getElem?_eq_getElem (by omega)]; rfl
    have hon : onEdge col y i = true ↔ y.getD p 0 ≠ y.getD t 0 := by
      unfold onEdge
      simp only [List.any_eq_true, List.mem_range, Bool.and_eq_true, decide_eq_true_eq]
      constructor
      · rintro ⟨p', hp', t', ht', ⟨h1, h2⟩, h3⟩
        obtain ⟨e1, _⟩ := exists_rank hp'
        obtain ⟨e2, _⟩ := exists_rank ht'
        have : p' = p := by
          rw [hp, show r - 1 = rankIn col p' by omega, List.getD_eq_getElem?_getD, e1]; rfl
        subst this
        have : t' = t := by
          rw [ht, show r + 1 = rankIn col t' by omega, List.getD_eq_getElem?_getD, e2]; rfl
        subst this
        rw [hyp, hyt] at h3
        intro h; exact h3 (by rw [h])
      · intro h
        refine ⟨p, p1, t, s1, ⟨by omega, s2⟩, ?_⟩
        rw [hyp, hyt]
        intro h'; injection h' with h'; exact h h'
    rcases hab _ (List.mem_of_getElem? hyp) with e1 | e1 <;> rcases hab _ (List.mem_of_getElem? hyt) with e2 | e2 <;>
      rw [e1, e2] at hon ⊢
    · rw [if_neg (by rw [hon]; simp)]; simp
    · by_cases h : a = b
      · subst h; simp
      · rw [if_pos (hon.2 h)]
    · by_cases h : a = b
      · subst h; simp
      · rw [if_pos (hon.2 (fun he => h he.symm))]; push_cast; ring
    · rw [if_neg (by rw [hon]; simp)]; simp
  · rw [if_neg hin, if_neg]
    rw [List.mem_range'_1] at hin
    unfold onEdge
    simp only [List.any_eq_true, List.mem_range, Bool.and_eq_true, decide_eq_true_eq]
    rintro ⟨p', hp', t', ht', ⟨h1, h2⟩, _⟩
    obtain ⟨_, e1⟩ := exists_rank hp'
    obtain ⟨_, e2⟩ := exists_rank ht'
    omega

theorem edgeMagnitudes_get {d : Nat} {X : List Row} {y : List Int} {a b : Int} (hxy : X.length = y.length)
    (hab : ∀ l ∈ y, l = a ∨ l = b) {i : Nat} (hi : i < X.length) :
    (edgeMagnitudes d X y)[i]? = some ((((a - b) ^ 2 : Int) : ℚ) * (edgeCount d X y i : ℚ)) := by
  have key : ∀ (ts : List Nat) (mag : List ℚ),
      (ts.foldl (fun m t => edgeColumn (X.map (fun r => r.getD t 0)) y m) mag)[i]? =
        mag[i]?.map (fun q => q + (((a - b) ^ 2 : Int) : ℚ) *
          ((ts.filter (fun t => onEdge (X.map (fun r => r.getD t 0)) y i)).length : ℚ)) := by
    intro ts
    induction ts with
    | nil => intro mag; simp
    | cons t ts ih =>
      intro mag
      rw [List.foldl_cons, ih, edgeColumn_get (by rw [List.length_map]; exact hxy) hab (by rw [List.length_map]; exact hi),
        Option.map_map]
      congr 1
      funext q
      simp only [Function.comp_def, List.filter_cons]
      split
      · rw [List.length_cons]; push_cast; ring
      · ring
  unfold edgeMagnitudes edgeCount
  rw [key, List.getElem?_replicate, if_pos hi]
  simp

theorem foldl_modify_length (js : List Nat) (f : Nat → Nat) (c : Nat → ℚ → ℚ) (mag : List ℚ) :
    (js.foldl (fun m j => m.modify (f j) (c j)) mag).length = mag.length := by
  induction js generalizing mag with
  | nil => rfl
  | cons j js ih => rw [List.foldl_cons, ih, List.length_modify]

theorem edgeMagnitudes_length (d : Nat) (X : List Row) (y : List Int) : (edgeMagnitudes d X y).length = X.length := by
  unfold edgeMagnitudes
  have : ∀ (ts : List Nat) (mag : List ℚ),
      (ts.foldl (fun m t => edgeColumn (X.map (fun r => r.getD t 0)) y m) mag).length = mag.length := by
    intro ts
    induction ts with
    | nil => intro mag; rfl
    | cons t ts ih =>
      intro mag
      rw [List.foldl_cons, ih]
      exact foldl_modify_length _ _ _ _
  rw [this, List.length_replicate]

theorem shares_scale {l : List ℚ} {c : ℚ} (hc : c ≠ 0) : shares (l.map (fun q => c * q)) = shares l := by
  unfold shares
  rw [List.sum_map_mul_left, List.map_id', List.length_map]
  by_cases h : l.sum = 0
  · rw [if_pos h, if_pos (by rw [h, mul_zero])]
  · rw [if_neg h, if_neg (mul_ne_zero hc h), List.map_map]
    apply List.map_congr_left
    intro q _
    simp only [Function.comp_def]
    rw [mul_div_mul_left _ _ hc]

theorem edgeWeights_eq {sqrt : ℚ → ℚ} {d : Nat} {X : List Row} {y : List Int} {a b : Int} (hxy : X.length = y.length)
    (hne : a ≠ b) (hab : ∀ l ∈ y, l = a ∨ l = b) : edgeWeights sqrt d X y a = normalize (edgeSpec sqrt d X y a) := by
  unfold edgeWeights edgeSpec
  dsimp only
  congr 2
  rw [fixDensity_fin]
  have hc0 : (((a - b) ^ 2 : Int) : ℚ) ≠ 0 := by
    have : (a - b) ^ 2 ≠ 0 := pow_ne_zero _ (sub_ne_zero.2 hne)
    exact_mod_cast this
  rw [← shares_scale (l := (positionsOf y a).map _) hc0, List.map_map]
  congr 1
  have h1 := takeRows_labelPositions (V := edgeMagnitudes d X y) (labels := y) (by rw [edgeMagnitudes_length]; exact hxy) a
  rw [takeRows_map_getD 0 (by
    intro i hi
    rw [edgeMagnitudes_length, hxy]
    exact List.mem_range.1 (List.mem_filter.1 hi).1)] at h1
  injection h1 with h1
  rw [selectLabel_eq_classRows, ← h1, List.map_map]
  have hpos : positionsOf y a = labelPositions y a := rfl
  rw [hpos]
  apply List.map_congr_left
  intro i hi
  have hi' : i < X.length := by rw [hxy]; exact List.mem_range.1 (List.mem_filter.1 hi).1
  simp only [Function.comp_def]
  rw [List.getD_eq_getElem?_getD, edgeMagnitudes_get hxy hab hi', Option.getD_some, if_neg]
  push_cast
  have : (0 : ℚ) ≤ ((a : ℚ) - b) ^ 2 * (edgeCount d X y i : ℚ) := by positivity
  linarith

/-! ## Shares -/

theorem shares_length (l : List ℚ) : (shares l).length = l.length := by
  unfold shares; split <;> simp

theorem shares_nonneg {l : List ℚ} (h : ∀ x ∈ l, 0 ≤ x) : ∀ x ∈ shares l, 0 ≤ x := by
  intro x hx
  unfold shares at hx
  split at hx
  · rw [List.eq_of_mem_replicate hx]; positivity
  · obtain ⟨q, hq, rfl⟩ := List.mem_map.1 hx
    exact div_nonneg (h q hq) (List.sum_nonneg h)

theorem shares_sum {l : List ℚ} (h : l ≠ []) : (shares l).sum = 1 := by
  unfold shares
  split
  · rw [List.sum_replicate, nsmul_eq_mul, mul_one_div, div_self]
    have := List.length_pos_iff.2 h
    exact_mod_cast this.ne'
  · rename_i hs
    rw [sum_map_div, div_self hs]

theorem sum_take_div (w : List ℚ) (c : ℚ) (b : Nat) : ((w.map (fun x => x / c)).take b).sum = (w.take b).sum / c := by
  rw [← List.map_take, sum_map_div]

/-- Dividing all weights by a positive number does not change the shares. -/
theorem drawsShare_div {w : List ℚ} {c u : ℚ} {b : Nat} (hc : 0 < c) (h : DrawsShare (w.map (fun x => x / c)) u b) :
    DrawsShare w u b := by
  obtain ⟨h1, h2, h3⟩ := h
  rw [sum_take_div, sum_map_div, div_le_iff₀ hc] at h2
  rw [sum_take_div, sum_map_div, lt_div_iff₀ hc] at h3
  rw [List.length_map] at h1
  have : u * (w.sum / c) * c = u * w.sum := by field_simp
  rw [this] at h2 h3
  exact ⟨h1, h2, h3⟩

theorem DrawnBy.div {d nDim : Nat} {A : List Row} {table : List (List Nat)} {w : List ℚ} {c : ℚ} {u : Nat → ℚ} {X : List Row}
    {y : List Int} {a : Int} {n : Nat} {X' : List Row} {y' : List Int} (hc : 0 < c)
    (h : DrawnBy d nDim A table (w.map (fun x => x / c)) u X y a n X' y') : DrawnBy d nDim A table w u X y a n X' y' := by
  obtain ⟨new, h1, h2, h3, h4⟩ := h
  refine ⟨new, h1, h2, h3, fun i x hx => ?_⟩
  obtain ⟨b, hb, hx⟩ := h4 i x hx
  exact ⟨b, drawsShare_div hc hb, hx⟩

/-! ## Sampling with weights of the base rows -/

/-- The end of the three algorithms. -/
def weightedTail (ss : SSParams) (nNeighbors : Nat) (vol : List Row → ℚ) (dr : Draws) (d : Nat)
    (knn : Nat → List Row → List Row → List (List Nat)) (w : List ℚ) (X : List Row) (y : List Int) (a : Int) (n : Nat) :
    Res (List Row × List Int) := do
  let A := classRows X y a
  let k := min A.length (nNeighbors + 1)
  let samples ← sampleSimplex ss vol dr d A (knn k A A) k n { baseWeights := some w }
  return withSamples X y a samples

theorem weightedTail_sound {ss : SSParams} {nNeighbors : Nat} {vol : List Row → ℚ} {dr : Draws} {d : Nat}
    {knn : Nat → List Row → List Row → List (List Nat)} {w : List ℚ} {X X' : List Row} {y y' : List Int} {a : Int} {n : Nat}
    (hwf : WF d X y) (hk : KnnQueryOK knn) (hdr : dr.OK) (hg : ss.gaussian = .none) (hvol : ∀ vs, 0 ≤ vol vs)
    (hwl : w.length = (classRows X y a).length) (hw0 : ∀ x ∈ w, 0 ≤ x)
    (h : weightedTail ss nNeighbors vol dr d knn w X y a n = .ok (X', y')) :
    let A := classRows X y a
    let k := min A.length (nNeighbors + 1)
    OversampledBy X y a n (SimplexOf d (min ss.nDim k) A A (knn k A A) (fun b => ∃ q, w[b]? = some q ∧ 0 < q)) X' y' ∧
    (ss.simplexSampling ≠ .deterministic → ss.within = .random →
      DrawnBy d (min ss.nDim k) A (knn k A A) w dr.choiceU X y a n X' y') := by
  intro A k
  unfold weightedTail at h
  dsimp only at h
  rw [bind_ok] at h
  obtain ⟨out, hout, h⟩ := h
  rw [pure_ok] at h
  have hAd : ∀ r ∈ A, r.length = d := fun r hr => hwf.2 r (mem_of_mem_classRows hr)
  obtain ⟨k1, _⟩ := hk k A A (Nat.min_le_left _ _)
  obtain ⟨g1, g2⟩ := sampleSimplex_simplexOf hAd (by intro V hV; cases hV) rfl (by intro hV; cases hV) hdr (le_of_eq k1) hg
    (by intro w' hw'; injection hw' with hw'; subst hw'; exact ⟨by rw [hwl, k1], hw0⟩) rfl hvol hout
  refine ⟨withSamples_oversampledBy g1 (fun x hx => ?_) h, fun hm hwi => ?_⟩
  · obtain ⟨b, base, row, nbIdx, nbrs, wt, h1, h2, h3⟩ := g2 x hx
    exact ⟨b, base, row, nbIdx, nbrs, wt, h1, h2 w rfl, h3⟩
  · have g3 := sampleSimplex_drawn hAd (by intro V hV; cases hV) (by intro V hV; cases hV) hdr (le_of_eq k1) hg rfl
      (by rw [hwl, k1]) hw0 rfl hvol hm hwi hout
    unfold withSamples at h
    obtain ⟨rfl, rfl⟩ := Prod.mk.inj h
    exact ⟨out, rfl, by rw [g1], g1, g3⟩

theorem weightedTail_total {ss : SSParams} {nNeighbors : Nat} {vol : List Row → ℚ} {dr : Draws} {d : Nat}
    {knn : Nat → List Row → List Row → List (List Nat)} {w : List ℚ} {X : List Row} {y : List Int} {a : Int} {n : Nat}
    (hk : KnnQueryOK knn) (hdr : dr.OK) (hu : ∀ i j, 0 < dr.simplexU i j) (hd : 1 ≤ ss.nDim)
    (hwi : ss.within = .random ∨ (ss.within = .deterministic ∧ ss.nDim ≤ 2))
    (hne : classRows X y a ≠ []) (hwl : w.length = (classRows X y a).length) (hw0 : ∀ x ∈ w, 0 ≤ x) (hws : 0 < w.sum) :
    ∃ r, weightedTail ss nNeighbors vol dr d knn w X y a n = .ok r := by
  unfold weightedTail
  dsimp only
  have hpos := List.length_pos_iff.2 hne
  obtain ⟨k1, k2⟩ := hk (min (classRows X y a).length (nNeighbors + 1)) (classRows X y a) (classRows X y a) (Nat.min_le_left _ _)
  obtain ⟨out, hout⟩ := sampleSimplex_ok (ss := ss) (vol := vol) (dr := dr) (d := d) (X := classRows X y a)
    (indices := knn (min (classRows X y a).length (nNeighbors + 1)) (classRows X y a) (classRows X y a))
    (k := min (classRows X y a).length (nNeighbors + 1)) (n := n) (a := { baseWeights := some w }) k2 (le_of_eq k1)
    (by intro h0; rw [h0, List.length_nil] at k1; omega) (by omega) hd rfl (by intro V hV; cases hV) (by intro V; cases V)
    ⟨by rw [hwl, k1], hw0, hws⟩ hdr.choice hu (by
      rcases hwi with h | ⟨h, h'⟩
      · exact .inl h
      · exact .inr ⟨h, le_trans (Nat.min_le_left _ _) h'⟩)
  rw [hout]
  exact ⟨_, rfl⟩

/-! ## MCT -/

theorem mct_eq {par : NbParams} {dist : Row → Row → ℚ} {vol : List Row → ℚ} {dr : Draws} {d : Nat}
    {knn : Nat → List Row → List Row → List (List Nat)} {X : List Row} {y : List Int} {a b : Int} (hmin : IsMinority y a b)
    (h3 : 2 < y.count a) (hn : 0 < requested par.proportion (y.count b) (y.count a)) :
    sample defaultChecks d (mctAlg par dist vol dr d knn) X y =
      weightedTail par.ss par.nNeighbors vol dr d knn (mctWeights dist d (classRows X y a)) X y a
        (requested par.proportion (y.count b) (y.count a)) := by
  obtain ⟨s, hs, rfl, rfl⟩ := stats_of_isMinority hmin
  obtain ⟨hm, hM, _⟩ := stats_min_mem hs
  rw [sample_default hs, if_neg (by omega)]
  unfold mctAlg
  rw [stats_count hs hm, stats_count hs hM, detN_eq_requested, ok_bind, if_neg (by omega)]
  dsimp only
  rw [selectLabel_eq_classRows]
  rfl

/-- The weight of a minority row in MCT: the sum of the distances of all minority rows from the centre without its own. -/
def mctSpec (dist : Row → Row → ℚ) (A : List Row) (c : Row) : List ℚ := A.map (fun r => (A.map (dist c)).sum - dist c r)

theorem mctWeights_eq (dist : Row → Row → ℚ) (d : Nat) (A : List Row) :
    mctWeights dist d A = shares (mctSpec dist A (medianRow d A)) := by
  unfold mctWeights mctSpec
  dsimp only
  rw [← fixDensity_fin, List.map_map, List.map_map]
  rfl

theorem mctSpec_nonneg {dist : Row → Row → ℚ} (hd : ∀ p q, 0 ≤ dist p q) (A : List Row) (c : Row) :
    ∀ x ∈ mctSpec dist A c, 0 ≤ x := by
  intro x hx
  obtain ⟨r, hr, rfl⟩ := List.mem_map.1 hx
  have h0 : ∀ x ∈ A.map (dist c), 0 ≤ x := by
    intro x hx
    obtain ⟨q, _, rfl⟩ := List.mem_map.1 hx
    exact hd c q
  have := List.single_le_sum h0 (dist c r) (List.mem_map.2 ⟨r, hr, rfl⟩)
  linarith

/-- **MCT**: the `i`-th new row belongs to the minority row in whose share the `i`-th random number falls; the weight of a minority
row is the sum of the distances of all minority rows from their median without its own. Whatever the sampling parameters are, a
row of weight zero is never the base of a new row. -/
theorem C61_mct {par : NbParams} {dist : Row → Row → ℚ} {vol : List Row → ℚ} {dr : Draws} {d : Nat}
    {knn : Nat → List Row → List Row → List (List Nat)} {X X' : List Row} {y y' : List Int} {a b : Int} (hwf : WF d X y)
    (hk : KnnQueryOK knn) (hdr : dr.OK) (hmin : IsMinority y a b) (hdist : ∀ p q, 0 ≤ dist p q)
    (hg : par.ss.gaussian = .none) (hvol : ∀ vs, 0 ≤ vol vs) (h3 : 2 < y.count a)
    (hn : 0 < requested par.proportion (y.count b) (y.count a))
    (h : sample defaultChecks d (mctAlg par dist vol dr d knn) X y = .ok (X', y')) :
    let A := classRows X y a
    let k := min A.length (par.nNeighbors + 1)
    let n := requested par.proportion (y.count b) (y.count a)
    ∃ c, IsMedianRow d A c ∧
      OversampledBy X y a n (SimplexOf d (min par.ss.nDim k) A A (knn k A A)
        (fun b => ∃ q, (shares (mctSpec dist A c))[b]? = some q ∧ 0 < q)) X' y' ∧
      (par.ss.simplexSampling ≠ .deterministic → par.ss.within = .random →
        DrawnBy d (min par.ss.nDim k) A (knn k A A) (shares (mctSpec dist A c)) dr.choiceU X y a n X' y') := by
  intro A k n
  rw [mct_eq hmin h3 hn, mctWeights_eq] at h
  have hAl : A.length = y.count a := classRows_length hwf.1 _
  exact ⟨_, medianRow_isMedianRow d (List.length_pos_iff.1 (by omega)),
    weightedTail_sound hwf hk hdr hg hvol (by rw [shares_length, mctSpec, List.length_map])
      (shares_nonneg (mctSpec_nonneg hdist _ _)) h⟩

/-- A minority row which is not farther from the centre never has a smaller share. -/
theorem C61_mct_closer {dist : Row → Row → ℚ} {A : List Row} {c p q : Row} {i j : Nat} {v w : ℚ} (hdist : ∀ p q, 0 ≤ dist p q)
    (hi : A[i]? = some p) (hj : A[j]? = some q) (hle : dist c p ≤ dist c q)
    (hv : (shares (mctSpec dist A c))[i]? = some v) (hw : (shares (mctSpec dist A c))[j]? = some w) : w ≤ v := by
  unfold shares at hv hw
  split at hv
  · rename_i h0
    rw [if_pos h0] at hw
    rw [List.eq_of_mem_replicate (List.mem_of_getElem? hv), List.eq_of_mem_replicate (List.mem_of_getElem? hw)]
  · rename_i h0
    rw [if_neg h0] at hw
    unfold mctSpec at hv hw
    rw [List.map_map, List.getElem?_map, hi] at hv
    rw [List.map_map, List.getElem?_map, hj] at hw
    simp only [Option.map_some, Option.some.injEq, Function.comp_def] at hv hw
    rw [← hv, ← hw]
    have hs : 0 ≤ (mctSpec dist A c).sum := List.sum_nonneg (mctSpec_nonneg hdist A c)
    exact div_le_div_of_nonneg_right (by linarith) hs

/-- With its default parameters (simplices of one vertex) MCT clones minority rows. -/
theorem C61_mct_clones {par : NbParams} {dist : Row → Row → ℚ} {vol : List Row → ℚ} {dr : Draws} {d : Nat}
    {knn : Nat → List Row → List Row → List (List Nat)} {X X' : List Row} {y y' : List Int} {a b : Int} (hwf : WF d X y)
    (hk : KnnQueryOK knn) (hdr : dr.OK) (hmin : IsMinority y a b) (hdist : ∀ p q, 0 ≤ dist p q)
    (hg : par.ss.gaussian = .none) (hvol : ∀ vs, 0 ≤ vol vs) (h3 : 2 < y.count a) (h1 : par.ss.nDim = 1)
    (hn : 0 < requested par.proportion (y.count b) (y.count a))
    (h : sample defaultChecks d (mctAlg par dist vol dr d knn) X y = .ok (X', y')) :
    OversampledBy X y a (requested par.proportion (y.count b) (y.count a)) (fun x => x ∈ classRows X y a) X' y' := by
  obtain ⟨c, _, ⟨new, e1, e2, e3, e4⟩, _⟩ := C61_mct hwf hk hdr hmin hdist hg hvol h3 hn h
  refine ⟨new, e1, e2, e3, fun x hx => ?_⟩
  have hx' := e4 x hx
  have hAl : (classRows X y a).length = y.count a := classRows_length hwf.1 _
  have hmn : min par.ss.nDim (min (classRows X y a).length (par.nNeighbors + 1)) = 1 := by rw [h1]; omega
  rw [hmn] at hx'
  exact hx'.copy (fun r hr => hwf.2 r (mem_of_mem_classRows hr))

/-- MCT never raises on a two-class data set. -/
theorem C61_mct_total {par : NbParams} {dist : Row → Row → ℚ} {vol : List Row → ℚ} {dr : Draws} {d : Nat}
    {knn : Nat → List Row → List Row → List (List Nat)} {X : List Row} {y : List Int} {a b : Int} (hxy : X.length = y.length)
    (hk : KnnQueryOK knn) (hdr : dr.OK) (hu : ∀ i j, 0 < dr.simplexU i j) (hmin : IsMinority y a b)
    (hdist : ∀ p q, 0 ≤ dist p q) (hd : 1 ≤ par.ss.nDim)
    (hwi : par.ss.within = .random ∨ (par.ss.within = .deterministic ∧ par.ss.nDim ≤ 2)) :
    ∃ r, sample defaultChecks d (mctAlg par dist vol dr d knn) X y = .ok r := by
  by_cases h3 : 2 < y.count a
  case neg =>
    obtain ⟨s, hs, rfl, rfl⟩ := stats_of_isMinority hmin
    rw [sample_default hs, if_pos (by omega)]
    exact ⟨_, rfl⟩
  by_cases hn : 0 < requested par.proportion (y.count b) (y.count a)
  case neg =>
    obtain ⟨s, hs, rfl, rfl⟩ := stats_of_isMinority hmin
    obtain ⟨hm, hM, _⟩ := stats_min_mem hs
    rw [sample_default hs, if_neg (by omega)]
    unfold mctAlg
    rw [stats_count hs hm, stats_count hs hM, detN_eq_requested, ok_bind, if_pos (by omega)]
    exact ⟨_, rfl⟩
  have hAl : (classRows X y a).length = y.count a := classRows_length hxy _
  rw [mct_eq hmin h3 hn, mctWeights_eq]
  refine weightedTail_total hk hdr hu hd hwi (List.length_pos_iff.1 (by omega)) (by rw [shares_length, mctSpec, List.length_map])
    (shares_nonneg (mctSpec_nonneg hdist _ _)) ?_
  rw [shares_sum]
  · norm_num
  · apply List.length_pos_iff.1
    rw [mctSpec, List.length_map]; omega

/-! ## Edge_Det_SMOTE -/

theorem edgeSpec_nonneg {sqrt : ℚ → ℚ} (hs : SqrtOK sqrt) {d : Nat} {X : List Row} {y : List Int} {a : Int} :
    ∀ x ∈ edgeSpec sqrt d X y a, 0 ≤ x := by
  intro x hx
  obtain ⟨q, hq, rfl⟩ := List.mem_map.1 hx
  have h0 : 0 ≤ q := shares_nonneg (by
    intro x hx
    obtain ⟨i, _, rfl⟩ := List.mem_map.1 hx
    positivity) q hq
  rcases h0.lt_or_eq with h | h
  · exact (hs.2 q h).le
  · rw [← h, hs.1]

theorem positionsOf_length {y : List Int} {a : Int} : (positionsOf y a).length = y.count a := by
  have h1 := takeRows_labelPositions (V := y) (labels := y) rfl a
  have h2 := takeRows_length h1
  rw [classRows_length rfl] at h2
  exact h2.symm

theorem edgeSpec_length {sqrt : ℚ → ℚ} {d : Nat} {X : List Row} {y : List Int} {a : Int} :
    (edgeSpec sqrt d X y a).length = y.count a := by
  rw [edgeSpec, List.length_map, shares_length, List.length_map, positionsOf_length]

theorem edgeSpec_sum_pos {sqrt : ℚ → ℚ} (hs : SqrtOK sqrt) {d : Nat} {X : List Row} {y : List Int} {a : Int}
    (h : 0 < y.count a) : 0 < (edgeSpec sqrt d X y a).sum := by
  have hpl := positionsOf_length (y := y) (a := a)
  have hne : (positionsOf y a).map (fun i => (edgeCount d X y i : ℚ)) ≠ [] := by
    apply List.length_pos_iff.1; rw [List.length_map]; omega
  have h1 := shares_sum hne
  have h0 : ∀ x ∈ shares ((positionsOf y a).map (fun i => (edgeCount d X y i : ℚ))), 0 ≤ x := shares_nonneg (by
    intro x hx
    obtain ⟨i, _, rfl⟩ := List.mem_map.1 hx
    positivity)
  rcases (List.sum_nonneg (edgeSpec_nonneg (d := d) (X := X) (y := y) (a := a) hs)).lt_or_eq with hlt | heq
  · exact hlt
  exfalso
  have hz : ∀ x ∈ shares ((positionsOf y a).map (fun i => (edgeCount d X y i : ℚ))), x = 0 := by
    intro x hx
    rcases (h0 x hx).lt_or_eq with hx0 | hx0
    · have hle := List.single_le_sum (edgeSpec_nonneg (d := d) (X := X) (y := y) (a := a) hs) (sqrt x) (List.mem_map.2 ⟨x, hx, rfl⟩)
      have := hs.2 x hx0
      rw [← heq] at hle
      linarith
    · exact hx0.symm
  rw [List.sum_eq_zero hz] at h1
  norm_num at h1

theorem edgeDet_eq {par : NbParams} {sqrt : ℚ → ℚ} {vol : List Row → ℚ} {dr : Draws} {d : Nat}
    {knn : Nat → List Row → List Row → List (List Nat)} {X : List Row} {y : List Int} {a b : Int} (hs : SqrtOK sqrt)
    (hxy : X.length = y.length) (hmin : IsMinority y a b)
    (h3 : 2 < y.count a) (hn : 0 < requested par.proportion (y.count b) (y.count a)) :
    sample defaultChecks d (edgeDetAlg par sqrt vol dr d knn) X y =
      weightedTail par.ss par.nNeighbors vol dr d knn ((edgeSpec sqrt d X y a).map (fun x => x / (edgeSpec sqrt d X y a).sum)) X y a
        (requested par.proportion (y.count b) (y.count a)) := by
  obtain ⟨s, hst, rfl, rfl⟩ := stats_of_isMinority hmin
  obtain ⟨hm, hM, hne⟩ := stats_min_mem hst
  rw [sample_default hst, if_neg (by omega)]
  unfold edgeDetAlg
  rw [stats_count hst hm, stats_count hst hM, detN_eq_requested, ok_bind, if_neg (by omega)]
  dsimp only
  rw [selectLabel_eq_classRows, edgeWeights_eq hxy hne hmin.2.2.1]
  have hp := edgeSpec_sum_pos (d := d) (X := X) (y := y) (a := s.minLabel) hs (by omega)
  unfold normalize
  rw [if_neg hp.ne', ok_bind]
  rfl

/-- **Edge_Det_SMOTE**: the `i`-th new row belongs to the minority row in whose share the `i`-th random number falls; the weights are
the square roots of the shares of the numbers of attributes in which a minority row stands between two rows of different classes
(all equal if there is no such attribute for any minority row). -/
theorem C61_edge {par : NbParams} {sqrt : ℚ → ℚ} {vol : List Row → ℚ} {dr : Draws} {d : Nat}
    {knn : Nat → List Row → List Row → List (List Nat)} {X X' : List Row} {y y' : List Int} {a b : Int} (hwf : WF d X y)
    (hk : KnnQueryOK knn) (hdr : dr.OK) (hmin : IsMinority y a b) (hs : SqrtOK sqrt)
    (hg : par.ss.gaussian = .none) (hvol : ∀ vs, 0 ≤ vol vs) (h3 : 2 < y.count a)
    (hn : 0 < requested par.proportion (y.count b) (y.count a))
    (h : sample defaultChecks d (edgeDetAlg par sqrt vol dr d knn) X y = .ok (X', y')) :
    let A := classRows X y a
    let k := min A.length (par.nNeighbors + 1)
    let n := requested par.proportion (y.count b) (y.count a)
    let w := edgeSpec sqrt d X y a
    OversampledBy X y a n (SimplexOf d (min par.ss.nDim k) A A (knn k A A) (fun b => ∃ q, w[b]? = some q ∧ 0 < q)) X' y' ∧
    (par.ss.simplexSampling ≠ .deterministic → par.ss.within = .random →
      DrawnBy d (min par.ss.nDim k) A (knn k A A) w dr.choiceU X y a n X' y') := by
  intro A k n w
  have hp : 0 < w.sum := edgeSpec_sum_pos hs (by omega)
  have hAl : A.length = y.count a := classRows_length hwf.1 _
  rw [edgeDet_eq hs hwf.1 hmin h3 hn] at h
  obtain ⟨⟨new, e1, e2, e3, e4⟩, g⟩ := weightedTail_sound hwf hk hdr hg hvol
    (by rw [List.length_map, edgeSpec_length]; exact hAl.symm)
    (by
      intro x hx
      obtain ⟨q, hq, rfl⟩ := List.mem_map.1 hx
      exact div_nonneg (edgeSpec_nonneg hs q hq) hp.le) h
  refine ⟨⟨new, e1, e2, e3, fun x hx => ?_⟩, fun hm hwi => DrawnBy.div hp (g hm hwi)⟩
  obtain ⟨b', base, row, nbIdx, nbrs, wt, h1, ⟨q, hq, hq0⟩, h3⟩ := e4 x hx
  rw [List.getElem?_map, Option.map_eq_some_iff] at hq
  obtain ⟨q', hq', rfl⟩ := hq
  refine ⟨b', base, row, nbIdx, nbrs, wt, h1, ⟨q', hq', ?_⟩, h3⟩
  by_contra hc
  have : q' / (edgeSpec sqrt d X y a).sum ≤ 0 := div_nonpos_of_nonpos_of_nonneg (not_lt.1 hc) hp.le
  linarith

/-- Edge_Det_SMOTE never raises on a two-class data set. -/
theorem C61_edge_total {par : NbParams} {sqrt : ℚ → ℚ} {vol : List Row → ℚ} {dr : Draws} {d : Nat}
    {knn : Nat → List Row → List Row → List (List Nat)} {X : List Row} {y : List Int} {a b : Int} (hxy : X.length = y.length)
    (hk : KnnQueryOK knn) (hdr : dr.OK) (hu : ∀ i j, 0 < dr.simplexU i j) (hmin : IsMinority y a b) (hs : SqrtOK sqrt)
    (hd : 1 ≤ par.ss.nDim)
    (hwi : par.ss.within = .random ∨ (par.ss.within = .deterministic ∧ par.ss.nDim ≤ 2)) :
    ∃ r, sample defaultChecks d (edgeDetAlg par sqrt vol dr d knn) X y = .ok r := by
  by_cases h3 : 2 < y.count a
  case neg =>
    obtain ⟨s, hs, rfl, rfl⟩ := stats_of_isMinority hmin
    rw [sample_default hs, if_pos (by omega)]
    exact ⟨_, rfl⟩
  by_cases hn : 0 < requested par.proportion (y.count b) (y.count a)
  case neg =>
    obtain ⟨s, hs, rfl, rfl⟩ := stats_of_isMinority hmin
    obtain ⟨hm, hM, _⟩ := stats_min_mem hs
    rw [sample_default hs, if_neg (by omega)]
    unfold edgeDetAlg
    rw [stats_count hs hm, stats_count hs hM, detN_eq_requested, ok_bind, if_pos (by omega)]
    exact ⟨_, rfl⟩
  have hAl : (classRows X y a).length = y.count a := classRows_length hxy _
  have hp : 0 < (edgeSpec sqrt d X y a).sum := edgeSpec_sum_pos hs (by omega)
  rw [edgeDet_eq hs hxy hmin h3 hn]
  refine weightedTail_total hk hdr hu hd hwi (List.length_pos_iff.1 (by omega)) (by rw [List.length_map, edgeSpec_length, hAl])
    (by
      intro x hx
      obtain ⟨q, hq, rfl⟩ := List.mem_map.1 hx
      exact div_nonneg (edgeSpec_nonneg hs q hq) hp.le) ?_
  rw [sum_map_div, div_self hp.ne']
  norm_num

/-! ## ADASYN -/

/-- The number of majority rows among the neighbours of a minority row (the first entry, the row itself, does not count). -/
def majNeighbours (table : List (List Nat)) (y : List Int) (b : Int) : List ℚ :=
  table.map (fun row => (((row.drop 1).filter (fun j => decide (y[j]? = some b))).length : ℚ))

theorem adasynRatios_eq {table : List (List Nat)} {y : List Int} {b : Int} {k : Nat} {r : List ℚ}
    (h : table.mapM (adasynRatio y b k) = .ok r) : r = (majNeighbours table y b).map (fun x => x / (k : ℚ)) := by
  unfold majNeighbours
  rw [List.map_map]
  rw [mapM_ok_iff] at h
  induction h with
  | nil => rfl
  | @cons row q t' r' h1 _ ih =>
    rw [List.map_cons, ← ih]
    congr 1
    unfold adasynRatio at h1
    rw [bind_ok] at h1
    obtain ⟨ls, hls, h1⟩ := h1
    rw [pure_ok] at h1
    rw [← h1]
    simp only [Function.comp_def]
    congr 2
    clear h1
    rw [takeRows, mapM_ok_iff] at hls
    generalize row.drop 1 = t at hls
    induction hls with
    | nil => rfl
    | @cons j l js ls hj _ ih' =>
      rw [getRow_ok] at hj
      rw [List.count_cons, List.filter_cons, hj]
      by_cases hl : l = b
      · subst hl; simp [ih']
      · simp [ih', hl]

/-- **ADASYN**: unless it skips, the `i`-th new row belongs to the minority row in whose share the `i`-th random number falls; the
weight of a minority row is the number of majority rows among its neighbours. -/
theorem C61_adasyn {par : AdasynParams} {vol : List Row → ℚ} {dr : Draws} {d : Nat}
    {knn : Nat → List Row → List Row → List (List Nat)} {X X' : List Row} {y y' : List Int} {a b : Int} (hwf : WF d X y)
    (hk : KnnQueryOK knn) (hdr : dr.OK) (hmin : IsMinority y a b) (hg : par.ss.gaussian = .none) (hn : 1 ≤ par.nNeighbors)
    (hvol : ∀ vs, 0 ≤ vol vs) (h3 : 2 < y.count a) (hn0 : 0 < requested par.beta (y.count b) (y.count a))
    (hm : par.ss.simplexSampling ≠ .deterministic) (hwi : par.ss.within = .random)
    (hsk : ¬ AdasynSkips par knn X y a b)
    (h : sample defaultChecks d (adasynAlg par vol dr d knn) X y = .ok (X', y')) :
    let A := classRows X y a
    let k := min A.length (par.nNeighbors + 1)
    DrawnBy d (min par.ss.nDim k) A (knn k A A) (majNeighbours (knn k X A) y b) dr.choiceU X y a
      (requested par.beta (y.count b) (y.count a)) X' y' := by
  intro A k
  obtain ⟨s, hs, rfl, rfl⟩ := stats_of_isMinority hmin
  obtain ⟨hmm, hM, hne⟩ := stats_min_mem hs
  rw [sample_default hs, if_neg (by omega)] at h
  unfold adasynAlg at h
  rw [stats_count hs hmm, stats_count hs hM, detN_eq_requested, ok_bind, if_neg (by omega)] at h
  dsimp only at h
  rw [selectLabel_eq_classRows] at h
  have hl : A.length = y.count s.minLabel := classRows_length hwf.1 _
  have hxy := hwf.1
  have hcnt := count_two hne hmin.2.2.1
  have hMp : 0 < y.count s.majLabel := List.count_pos_iff.2 hM
  have hmaj : X.length - (classRows X y s.minLabel).length = y.count s.majLabel := by
    change X.length - A.length = _; omega
  rw [hmaj, if_neg (by omega)] at h
  have hd : ¬ ((classRows X y s.minLabel).length : ℚ) / (y.count s.majLabel : ℚ) > par.dTh := by
    intro hd
    apply hsk
    left
    rw [← hl]; exact hd
  rw [if_neg hd, bind_ok] at h
  obtain ⟨r, hr, h⟩ := h
  have hr' := adasynRatios_eq hr
  have hz := ratios_sum_zero hn hr
  have hrz : r.sum ≠ 0 := by
    intro h0
    apply hsk
    right
    unfold adasynK
    rw [← hl]
    exact hz.1 h0
  rw [if_neg hrz] at h
  have hkq : (0 : ℚ) < par.nNeighbors := by exact_mod_cast hn
  have hr0 : ∀ x ∈ r, 0 ≤ x := by
    intro x hx
    obtain ⟨i, hi⟩ := List.mem_iff_getElem?.1 hx
    exact (ratios_get hn hr hi).1
  have hrs : 0 < r.sum := lt_of_le_of_ne (List.sum_nonneg hr0) (Ne.symm hrz)
  obtain ⟨k1, _⟩ := hk k X A (by have := List.count_le_length (a := s.minLabel) (l := y); omega)
  obtain ⟨_, g⟩ := weightedTail_sound (ss := par.ss) (nNeighbors := par.nNeighbors) (w := r.map (· / r.sum))
    (a := s.minLabel) (n := requested par.beta (y.count s.majLabel) (y.count s.minLabel)) hwf hk hdr hg hvol
    (by rw [List.length_map, mapM_ok_length hr]; exact k1)
    (by
      intro x hx
      obtain ⟨q, hq, rfl⟩ := List.mem_map.1 hx
      exact div_nonneg (hr0 q hq) hrs.le) h
  have g' := DrawnBy.div hrs (g hm hwi)
  rw [hr'] at g'
  exact DrawnBy.div hkq g'

/-! ## The hypotheses are met -/

def wtX : List Row := [[0, 0], [4, 1], [1, 3], [2, 2], [3, 9], [6, 8], [7, 7], [8, 6]]
def wtY : List Int := [1, 1, 1, 0, 0, 0, 0, 0]
def wtDist (p q : Row) : ℚ := (List.zipWith (fun a b => |a - b|) p q).sum

example : WF 2 wtX wtY ∧ IsMinority wtY 1 0 ∧ 2 < wtY.count 1 ∧ KnnQueryOK bruteQuery ∧ (∀ p q, 0 ≤ wtDist p q) ∧
    -- the median row, and the shares: the row at the centre is preferred
    medianRow 2 (classRows wtX wtY 1) = [1, 1] ∧
    mctSpec wtDist (classRows wtX wtY 1) [1, 1] = [5, 4, 5] ∧
    (match sample defaultChecks 2 (mctAlg { exPar with ss := { exPar.ss with nDim := 1 } } wtDist (fun _ => 1) exDraws 2 bruteQuery)
        wtX wtY with
     | .ok r => decide (r = (wtX ++ [[4, 1], [4, 1]], wtY ++ [1, 1]))
     | .error _ => false) = true := by
  refine ⟨⟨by decide, by decide +kernel⟩, ⟨by decide, by decide, by decide, Or.inl (by decide)⟩, by decide, bruteQuery_ok,
    fun p q => ?_, by decide +kernel, by decide +kernel, by decide +kernel⟩
  unfold wtDist
  apply List.sum_nonneg
  intro x hx
  obtain ⟨i, hi⟩ := List.mem_iff_getElem?.1 hx
  rw [List.getElem?_zipWith] at hi
  split at hi
  · injection hi with hi; rw [← hi]; exact abs_nonneg _
  · cases hi

example : SqrtOK (fun q => q) ∧
    -- only the second and the third minority row stand between rows of different classes
    (List.range 3).map (edgeCount 2 wtX wtY) = [0, 1, 1] ∧
    (match sample defaultChecks 2 (edgeDetAlg exPar (fun q => q) (fun _ => 1) exDraws 2 bruteQuery) wtX wtY with
     | .ok r => decide (r.1.length = 10 ∧ r.2 = wtY ++ [1, 1])
     | .error _ => false) = true := by
  refine ⟨⟨rfl, fun q h => h⟩, by decide +kernel, by decide +kernel⟩

example : ¬ AdasynSkips adaPar bruteQuery adaX adaY 1 0 ∧
    majNeighbours (bruteQuery 3 adaX (classRows adaX adaY 1)) adaY 0 = [0, 0, 0, 2] := by
  refine ⟨?_, by decide +kernel⟩
  rintro (h | h)
  · revert h; unfold adaPar; norm_num [adaY]
  · exact h 3 (by
      have : bruteQuery (adasynK adaPar (adaY.count 1)) adaX (classRows adaX adaY 1) = [[0, 1, 2], [1, 0, 2], [2, 1, 0], [3, 4, 5]] := by
        decide +kernel
      rw [this]
      unfold HasNeighborLabelled
      exact ⟨[0, 0], ⟨[3, 4, 5], rfl, by simp [adaY]⟩, by simp⟩)

end Verif

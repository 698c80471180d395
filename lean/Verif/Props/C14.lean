import Verif.Model.Metrics
import Verif.Lemmas.Basic

/-!
# C14 Probability scores become labels by a fixed threshold with a balanced tie rule
-/

namespace Verif

theorem assignAt_length {α : Type} (a : List α) (idx : List Nat) (v : α) :
    (assignAt a idx v).length = a.length := by
  unfold assignAt
  induction idx generalizing a with
  | nil => rfl
  | cons i idx ih => rw [List.foldl_cons, ih]; simp

theorem assignAt_get {α : Type} (a : List α) (idx : List Nat) (v : α) (i : Nat) (hi : i < a.length) :
    (assignAt a idx v)[i]? = if i ∈ idx then some v else a[i]? := by
  unfold assignAt
  induction idx generalizing a with
  | nil => simp
  | cons j idx ih =>
    rw [List.foldl_cons, ih _ (by simpa using hi), List.getElem?_set]
    by_cases h1 : i ∈ idx
    · simp [h1]
    · by_cases h2 : j = i
      · subst h2; simp [h1, hi]
      · simp [h1, h2, Ne.symm h2]

theorem mem_npWhere {m : List Bool} {i : Nat} : i ∈ npWhere m ↔ m[i]? = some true := by
  unfold npWhere
  rw [List.mem_filter, List.mem_range]
  constructor
  · rintro ⟨h1, h2⟩
    rw [List.getElem?_eq_getElem h1]
    rw [List.getD_eq_getElem?_getD, List.getElem?_eq_getElem h1] at h2
    simpa using h2
  · intro h
    have hlt : i < m.length := by
      rcases Nat.lt_or_ge i m.length with h' | h'
      · exact h'
      · rw [List.getElem?_eq_none h'] at h; simp at h
    refine ⟨hlt, ?_⟩
    rw [List.getD_eq_getElem?_getD, h]; rfl

/-- The number of items before position `i` that score exactly one half. -/
def tiesBefore (probs : List ℚ) (i : Nat) : Nat := (probs.take i).countP (fun p => decide (p = 1 / 2))

/-- The number of items that score exactly one half. -/
def ties (probs : List ℚ) : Nat := probs.countP (fun p => decide (p = 1 / 2))

theorem countP_eq_range {α : Type} (P : α → Bool) (l : List α) :
    l.countP P = ((List.range l.length).filter (fun i => (l.map P).getD i false)).length := by
  induction l with
  | nil => simp
  | cons a l ih =>
    rw [List.length_cons, List.range_succ_eq_map, List.filter_cons, List.filter_map, List.countP_cons]
    have : ((fun i => (List.map P (a :: l)).getD i false) ∘ Nat.succ)
        = (fun i => (List.map P l).getD i false) := by
      funext i; simp
    rw [this]
    by_cases h : P a = true
    · simp [h, ih]
    · simp [h, ih]

theorem npWhere_length (probs : List ℚ) :
    (npWhere (probs.map (fun p => decide (p = 1 / 2)))).length = ties probs := by
  unfold npWhere ties
  rw [List.length_map]
  exact (countP_eq_range _ _).symm

/-- Position of a tied index in the list of tied indices. -/
theorem npWhere_split (m : List Bool) (i : Nat) (hi : i < m.length) (hm : m[i] = true) :
    ∃ post, npWhere m = (npWhere m).take ((m.take i).countP id) ++ i :: post ∧
      (∀ j ∈ (npWhere m).take ((m.take i).countP id), j < i) ∧ (∀ j ∈ post, i < j) := by
  have hlen : (npWhere (m.take i)).length = (m.take i).countP id := by
    rw [countP_eq_range, List.map_id]; rfl
  have hr : List.range m.length
      = List.range i ++ (List.range (m.length - i)).map (i + ·) := by
    rw [← List.range_add]; congr 1; omega
  have hr2 : List.range (m.length - i) = 0 :: (List.range (m.length - i - 1)).map Nat.succ := by
    rw [← List.range_succ_eq_map]; congr 1; omega
  have hpre : (List.range i).filter (fun j => m.getD j false) = npWhere (m.take i) := by
    unfold npWhere
    rw [List.length_take, Nat.min_eq_left (by omega)]
    apply List.filter_congr
    intro j hj
    rw [List.mem_range] at hj
    simp only [List.getD_eq_getElem?_getD, List.getElem?_take, hj, if_true]
  have hw : npWhere m = npWhere (m.take i) ++ i ::
      ((List.range (m.length - i - 1)).map (fun j => i + Nat.succ j)).filter (fun j => m.getD j false) := by
    rw [npWhere, hr, hr2, List.filter_append, hpre]
    congr 1
    rw [List.map_cons, List.filter_cons]
    have : m.getD (i + 0) false = true := by
      rw [List.getD_eq_getElem?_getD, Nat.add_zero, List.getElem?_eq_getElem hi, hm]; rfl
    rw [if_pos this, List.map_map]
    rfl
  have htake : (npWhere m).take ((m.take i).countP id) = npWhere (m.take i) := by
    rw [← hlen, hw, List.take_left']
    rfl
  refine ⟨_, by rw [htake]; exact hw, ?_, ?_⟩
  · rw [htake]
    intro j hj
    have := mem_npWhere.1 hj
    have hlt : j < (m.take i).length := by
      rcases Nat.lt_or_ge j (m.take i).length with h' | h'
      · exact h'
      · rw [List.getElem?_eq_none h'] at this; simp at this
    rw [List.length_take] at hlt
    omega
  · intro j hj
    rw [List.mem_filter, List.mem_map] at hj
    obtain ⟨⟨k, _, rfl⟩, _⟩ := hj
    omega

/-- The output has one label per score. -/
theorem C14_length (probs : List ℚ) : (predictionLabels probs).length = probs.length := by
  unfold predictionLabels
  dsimp only
  split
  · simp
  · simp [assignAt_length]

/-- The label of every item: above one half 1, below one half 0; a tied item gets 0 if it is the only
one or among the first `ties / 2` tied items (in order of position), and 1 otherwise. -/
theorem C14_label (probs : List ℚ) (i : Nat) (hi : i < probs.length) :
    (predictionLabels probs)[i]? = some
      (if probs[i] > 1 / 2 then 1
       else if probs[i] < 1 / 2 then 0
       else if ties probs ≤ 1 then 0
       else if tiesBefore probs i < ties probs / 2 then 0 else 1) := by
  have hl := npWhere_length probs
  have hbase : (probs.map (fun p => if p > 1 / 2 then (1 : Int) else 0))[i]?
      = some (if probs[i] > 1 / 2 then 1 else 0) := by
    rw [List.getElem?_map, List.getElem?_eq_getElem hi]; rfl
  have hmem : i ∈ npWhere (probs.map (fun p => decide (p = 1 / 2))) ↔ probs[i] = 1 / 2 := by
    rw [mem_npWhere, List.getElem?_map, List.getElem?_eq_getElem hi]; simp
  unfold predictionLabels
  dsimp only
  by_cases ht : ties probs ≤ 1
  · rw [hl, if_pos ht, hbase, if_pos ht]
    rcases lt_trichotomy probs[i] (1 / 2) with h | h | h
    · rw [if_neg (not_lt.2 h.le), if_neg (not_lt.2 h.le), if_pos h]
    · simp [h]
    · rw [if_pos h, if_pos h]
  · rw [hl, if_neg ht, if_neg ht]
    rw [assignAt_get _ _ _ _ (by rw [assignAt_length]; simpa using hi),
      assignAt_get _ _ _ _ (by simpa using hi), hbase]
    by_cases heq : probs[i] = 1 / 2
    · have hi' : i < (probs.map (fun p => decide (p = 1 / 2))).length := by simpa using hi
      have hcount : ((probs.map (fun p => decide (p = 1 / 2))).take i).countP id = tiesBefore probs i := by
        unfold tiesBefore
        rw [← List.map_take, List.countP_map]; rfl
      obtain ⟨post, hsplit, hlt, hgt⟩ := npWhere_split _ i hi' (by simpa using heq)
      rw [hcount] at hsplit hlt
      generalize hw : npWhere (probs.map (fun p => decide (p = 1 / 2))) = W at *
      have hTB : tiesBefore probs i < W.length := by
        rw [hl]
        unfold tiesBefore ties
        have hs : probs = probs.take i ++ probs[i] :: probs.drop (i + 1) := by
          rw [List.getElem_cons_drop, List.take_append_drop]
        conv_rhs => rw [hs]
        rw [List.countP_append, List.countP_cons, if_pos (by simpa using heq)]
        omega
      have hpre : (W.take (tiesBefore probs i)).length = tiesBefore probs i := by
        rw [List.length_take]; omega
      simp only [heq, gt_iff_lt, lt_irrefl, if_false]
      by_cases hh : tiesBefore probs i < ties probs / 2
      · have hin : i ∈ W.take (ties probs / 2) := by
          rw [hsplit, List.take_append, hpre]
          apply List.mem_append_right
          rw [show ties probs / 2 - tiesBefore probs i
            = (ties probs / 2 - tiesBefore probs i - 1) + 1 by omega, List.take_succ_cons]
          simp
        have hnot : i ∉ W.drop (ties probs / 2) := by
          rw [hsplit, List.drop_append, hpre, List.drop_eq_nil_of_le (by rw [hpre]; omega)]
          rw [show ties probs / 2 - tiesBefore probs i
            = (ties probs / 2 - tiesBefore probs i - 1) + 1 by omega, List.drop_succ_cons]
          simp only [List.nil_append]
          intro h
          exact absurd (hgt i (List.mem_of_mem_drop h)) (lt_irrefl _)
        rw [if_neg hnot, if_pos hin, if_pos hh]
      · have hin : i ∈ W.drop (ties probs / 2) := by
          rw [hsplit, List.drop_append]
          apply List.mem_append_right
          rw [hpre, show ties probs / 2 - tiesBefore probs i = 0 by omega]
          simp
        rw [if_pos hin, if_neg hh]
    · have hn : i ∉ npWhere (probs.map (fun p => decide (p = 1 / 2))) := fun h => heq (hmem.1 h)
      rw [if_neg (fun h => hn (List.mem_of_mem_drop h)), if_neg (fun h => hn (List.mem_of_mem_take h))]
      rcases lt_trichotomy probs[i] (1 / 2) with h | h | h
      · rw [if_neg (not_lt.2 h.le), if_neg (not_lt.2 h.le), if_pos h]
      · exact absurd h heq
      · rw [if_pos h, if_pos h]

/-- Labels are 0 or 1 and a score different from one half alone determines its label. -/
theorem C14_strict (probs : List ℚ) (i : Nat) (hi : i < probs.length) :
    (probs[i] > 1 / 2 → (predictionLabels probs)[i]? = some 1) ∧
    (probs[i] < 1 / 2 → (predictionLabels probs)[i]? = some 0) ∧
    ((predictionLabels probs)[i]? = some 0 ∨ (predictionLabels probs)[i]? = some 1) := by
  rw [C14_label probs i hi]
  refine ⟨fun h => by rw [if_pos h], fun h => by rw [if_neg (not_lt.2 h.le), if_pos h], ?_⟩
  split
  · simp
  · split
    · simp
    · split
      · simp
      · split <;> simp

example : predictionLabels [1 / 2, 1 / 4, 1 / 2, 3 / 4, 1 / 2] = [0, 0, 1, 1, 1] := by decide +kernel
example : predictionLabels [1 / 2, 1] = [0, 1] := by decide +kernel

end Verif

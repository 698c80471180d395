import Verif.Lemmas.Noise

/-!
# C16 Edited-nearest-neighbour style filters return sub-datasets and respect the protected class
-/

namespace Verif

/-- The labels of the listed neighbours of item `i`, the first entry (normally the item itself) left out. -/
def NeighborLabels (indices : List (List Nat)) (y : List Int) (i : Nat) (ls : List Int) : Prop :=
  ∃ row, indices[i]? = some row ∧ List.Forall₂ (fun j l => y[j]? = some l) (row.drop 1) ls

/-- The mode of the labels of the listed neighbours of item `i` is `m`. -/
def NeighborMode (indices : List (List Nat)) (y : List Int) (i : Nat) (m : Int) : Prop :=
  ∃ ls, NeighborLabels indices y i ls ∧ IsMode m ls

theorem NeighborMode.unique {indices : List (List Nat)} {y : List Int} {i : Nat} {m m' : Int}
    (h : NeighborMode indices y i m) (h' : NeighborMode indices y i m') : m = m' := by
  obtain ⟨ls, ⟨row, hr, hf⟩, hm⟩ := h
  obtain ⟨ls', ⟨row', hr', hf'⟩, hm'⟩ := h'
  rw [hr] at hr'
  injection hr' with hr'
  subst hr'
  have : ls = ls' := by
    clear hm hm' hr
    generalize row.drop 1 = l at hf hf'
    induction hf generalizing ls' with
    | nil => cases hf'; rfl
    | cons a _ ih =>
      cases hf' with
      | cons b hf' =>
        rw [a] at b
        injection b with b
        rw [b, ih _ hf']
  subst this
  exact hm.unique hm'

theorem neighborMode_ok {indices : List (List Nat)} {y : List Int} {k n : Nat} (hk : 2 ≤ k)
    (hl : indices.length = n) (hy : y.length = n) (ht : TableOK indices k n) {i : Nat} (hi : i < n) :
    ∃ m, neighborMode indices y i = .ok m ∧ NeighborMode indices y i m := by
  have hi' : i < indices.length := by omega
  obtain ⟨hlen, hb⟩ := ht _ (List.getElem_mem hi')
  obtain ⟨ls, hls⟩ := takeRows_ok_of_lt (X := y) (idx := indices[i].drop 1) (by
    intro j hj
    rw [hy]; exact hb j (List.mem_of_mem_drop hj))
  have hne : ls ≠ [] := by
    intro h
    have := takeRows_length hls
    rw [h, List.length_drop] at this
    simp at this
    omega
  obtain ⟨m, hm, hmode⟩ := pyMode_isMode hne
  refine ⟨m, ?_, ls, ⟨_, List.getElem?_eq_getElem hi', takeRows_forall hls⟩, hmode⟩
  unfold neighborMode
  rw [getRow_lt hi', ok_bind, hls, ok_bind, hm]

/-- Which class the `remove` argument of the edited nearest neighbours covers. -/
def EnnCovers (r : EnnRemove) (minLabel majLabel l : Int) : Prop :=
  match r with
  | .both => True
  | .min => l = minLabel
  | .maj => l = majLabel

theorem applies_iff (r : EnnRemove) (s : Stats) (l : Int) :
    r.applies s l = true ↔ EnnCovers r s.minLabel s.majLabel l := by
  cases r <;> simp [EnnRemove.applies, EnnCovers]

/-- Generic: a loop over all positions collecting positions. -/
theorem mem_parts {n : Nat} {f : Nat → Res (List Nat)} {parts : List (List Nat)}
    (h : (List.range n).mapM f = .ok parts) (j : Nat) :
    j ∈ parts.flatten ↔ ∃ i < n, ∃ out, f i = .ok out ∧ j ∈ out := by
  rw [List.mem_flatten]
  constructor
  · rintro ⟨out, ho, hj⟩
    obtain ⟨i, hi, hf⟩ := mapM_ok_mem h ho
    exact ⟨i, List.mem_range.1 hi, out, hf, hj⟩
  · rintro ⟨i, hi, out, hf, hj⟩
    have : (List.range n)[i]? = some i := by simp [hi]
    obtain ⟨b, hb, hfb⟩ := mapM_ok_get h this
    rw [hf] at hfb
    injection hfb with hfb
    subst hfb
    exact ⟨_, List.mem_of_getElem? hb, hj⟩

/-- Edited nearest neighbours removes exactly the items of the configured classes whose label differs
from the mode of their three listed neighbours; everything else stays, in order, with its label. -/
theorem C16_enn {r : EnnRemove} {knn : Nat → List Row → List (List Nat)} (hknn : KnnOK knn)
    {X : List Row} {y : List Int} (hxy : X.length = y.length) (h4 : 4 ≤ X.length) {s : Stats}
    (hs : classLabelStatistics y = .ok s) :
    ∃ X' y' K, ennRemove r knn X y = .ok (X', y') ∧ SubData X y X' y' K ∧
      ∀ i, Removed X K i ↔ ∃ l m, y[i]? = some l ∧ NeighborMode (knn 4 X) y i m ∧ l ≠ m ∧
        EnnCovers r s.minLabel s.majLabel l := by
  obtain ⟨hlen, htab⟩ := hknn 4 X h4
  have hstep : ∀ i ∈ List.range X.length, ∃ out, (do
      let l ← getRow y i
      let m ← neighborMode (knn 4 X) y i
      pure (if ¬ l = m ∧ r.applies s l = true then [i] else []) : Res (List Nat)) = .ok out ∧
      ∀ j, j ∈ out ↔ j = i ∧ ∃ l m, y[i]? = some l ∧ NeighborMode (knn 4 X) y i m ∧ l ≠ m ∧
        EnnCovers r s.minLabel s.majLabel l := by
    intro i hi
    have hi' := List.mem_range.1 hi
    obtain ⟨m, hm, hmode⟩ := neighborMode_ok (by omega) hlen hxy.symm htab hi'
    rw [getRow_lt (by omega), ok_bind, hm, ok_bind]
    refine ⟨_, rfl, fun j => ?_⟩
    have hyi : y[i]? = some (y[i]'(by omega)) := List.getElem?_eq_getElem _
    by_cases hc : ¬ y[i]'(by omega) = m ∧ r.applies s (y[i]'(by omega)) = true
    · rw [if_pos hc, List.mem_singleton]
      constructor
      · rintro rfl
        exact ⟨rfl, _, m, hyi, hmode, hc.1, (applies_iff _ _ _).1 hc.2⟩
      · exact fun h => h.1
    · rw [if_neg hc]
      simp only [List.not_mem_nil, false_iff, not_and]
      rintro _ ⟨l, m', e1, e2, e3, e4⟩
      rw [hyi] at e1
      injection e1 with e1
      subst e1
      rw [hmode.unique e2] at hc
      exact hc ⟨e3, (applies_iff _ _ _).2 e4⟩
  obtain ⟨parts, hparts⟩ := mapM_exists_ok (fun a ha => (hstep a ha).imp (fun _ h => h.1))
  refine ⟨_, _, _, ?_, npDelete_subData hxy parts.flatten, fun i => ?_⟩
  · unfold ennRemove kneighbors ennToRemove
    rw [hs, ok_bind, if_neg (by omega), if_pos h4, ok_bind, hparts]
    rfl
  · rw [removed_kept, mem_parts hparts]
    constructor
    · rintro ⟨_, j, hj, out, hout, hi⟩
      obtain ⟨out', h1, h2⟩ := hstep j (List.mem_range.2 hj)
      rw [hout] at h1
      injection h1 with h1
      subst h1
      obtain ⟨rfl, h⟩ := (h2 i).1 hi
      exact h
    · rintro ⟨l, m, e1, rest⟩
      have hi : i < X.length := by
        rw [hxy]
        rcases Nat.lt_or_ge i y.length with h | h
        · exact h
        · rw [List.getElem?_eq_none h] at e1; simp at e1
      obtain ⟨out', h1, h2⟩ := hstep i (List.mem_range.2 hi)
      exact ⟨hi, i, hi, out', h1, (h2 i).2 ⟨rfl, l, m, e1, rest⟩⟩

/-- The protected class is untouched: with `remove='maj'` every minority item is kept. -/
theorem C16_enn_protects {knn : Nat → List Row → List (List Nat)} (hknn : KnnOK knn)
    {X : List Row} {y : List Int} (hxy : X.length = y.length) (h4 : 4 ≤ X.length) {a b : Int}
    (hab : IsMinority y a b) :
    (∃ X' y' K, ennRemove .maj knn X y = .ok (X', y') ∧ SubData X y X' y' K ∧
      ∀ i, y[i]? = some a → i ∈ K) ∧
    (∃ X' y' K, ennRemove .min knn X y = .ok (X', y') ∧ SubData X y X' y' K ∧
      ∀ i, y[i]? = some b → i ∈ K) := by
  obtain ⟨s, hs, hmin, hmaj⟩ := stats_of_isMinority hab
  have hne : a ≠ b := by rw [← hmin, ← hmaj]; exact (stats_min_mem hs).2.2
  constructor
  · obtain ⟨X', y', K, h1, h2, h3⟩ := C16_enn (r := .maj) hknn hxy h4 hs
    refine ⟨X', y', K, h1, h2, fun i hi => by_contra fun hK => ?_⟩
    have hlt : i < X.length := by
      rw [hxy]
      rcases Nat.lt_or_ge i y.length with h | h
      · exact h
      · rw [List.getElem?_eq_none h] at hi; simp at hi
    obtain ⟨l, m, e1, _, _, e4⟩ := (h3 i).1 ⟨hlt, hK⟩
    rw [hi] at e1
    injection e1 with e1
    simp only [EnnCovers, hmaj] at e4
    exact hne (e1.trans e4)
  · obtain ⟨X', y', K, h1, h2, h3⟩ := C16_enn (r := .min) hknn hxy h4 hs
    refine ⟨X', y', K, h1, h2, fun i hi => by_contra fun hK => ?_⟩
    have hlt : i < X.length := by
      rw [hxy]
      rcases Nat.lt_or_ge i y.length with h | h
      · exact h
      · rw [List.getElem?_eq_none h] at hi; simp at hi
    obtain ⟨l, m, e1, _, _, e4⟩ := (h3 i).1 ⟨hlt, hK⟩
    rw [hi] at e1
    injection e1 with e1
    simp only [EnnCovers, hmin] at e4
    exact hne (e1.trans e4).symm

/-- Fewer than four items: returned unchanged. -/
theorem C16_enn_small (r : EnnRemove) (knn : Nat → List Row → List (List Nat)) {X : List Row} {y : List Int}
    (h : X.length < 4) {s : Stats} (hs : classLabelStatistics y = .ok s) :
    ennRemove r knn X y = .ok (X, y) := by
  unfold ennRemove
  rw [hs, ok_bind, if_pos h]
  rfl

/-- The neighbourhood cleaning rule removes exactly: the majority items whose three neighbours have the
minority label as mode, and the majority neighbours of those minority items whose neighbours have
the majority label as mode. -/
theorem C16_ncr {knn : Nat → List Row → List (List Nat)} (hknn : KnnOK knn)
    {X : List Row} {y : List Int} (hxy : X.length = y.length) (h4 : 4 ≤ X.length) {s : Stats}
    (hs : classLabelStatistics y = .ok s) :
    ∃ X' y' K, ncrRemove knn X y = .ok (X', y') ∧ SubData X y X' y' K ∧
      ∀ i, Removed X K i ↔ y[i]? = some s.majLabel ∧
        (NeighborMode (knn 4 X) y i s.minLabel ∨
         ∃ j row, y[j]? = some s.minLabel ∧ NeighborMode (knn 4 X) y j s.majLabel ∧
           (knn 4 X)[j]? = some row ∧ i ∈ row.drop 1) := by
  obtain ⟨hlen, htab⟩ := hknn 4 X h4
  have hne := (stats_min_mem hs).2.2
  have hstep : ∀ i ∈ List.range X.length, ∃ out, (do
      let l ← getRow y i
      let m ← neighborMode (knn 4 X) y i
      if l = s.majLabel ∧ m = s.minLabel then pure [i]
      else if l = s.minLabel ∧ m = s.majLabel then
        let row ← getRow (knn 4 X) i
        let sel ← (row.drop 1).mapM (fun j => do
          let lj ← getRow y j
          pure (if lj = s.majLabel then [j] else []))
        pure sel.flatten
      else pure [] : Res (List Nat)) = .ok out ∧
      ∀ j, j ∈ out ↔ y[j]? = some s.majLabel ∧
        ((j = i ∧ NeighborMode (knn 4 X) y i s.minLabel) ∨
         ∃ row, y[i]? = some s.minLabel ∧ NeighborMode (knn 4 X) y i s.majLabel ∧
           (knn 4 X)[i]? = some row ∧ j ∈ row.drop 1) := by
    intro i hi
    have hi' := List.mem_range.1 hi
    obtain ⟨m, hm, hmode⟩ := neighborMode_ok (by omega) hlen hxy.symm htab hi'
    have hyi : y[i]? = some (y[i]'(by omega)) := List.getElem?_eq_getElem _
    have hri : (knn 4 X)[i]? = some ((knn 4 X)[i]'(by omega)) := List.getElem?_eq_getElem _
    rw [getRow_lt (by omega), ok_bind, hm, ok_bind]
    by_cases hc1 : y[i]'(by omega) = s.majLabel ∧ m = s.minLabel
    · rw [if_pos hc1]
      refine ⟨_, rfl, fun j => ?_⟩
      rw [List.mem_singleton]
      constructor
      · rintro rfl
        exact ⟨by rw [hyi, hc1.1], Or.inl ⟨rfl, by rw [← hc1.2]; exact hmode⟩⟩
      · rintro ⟨_, ⟨rfl, _⟩ | ⟨row, e1, _⟩⟩
        · rfl
        · rw [hyi, hc1.1] at e1
          injection e1 with e1
          exact absurd e1.symm hne
    · rw [if_neg hc1]
      by_cases hc2 : y[i]'(by omega) = s.minLabel ∧ m = s.majLabel
      · rw [if_pos hc2, getRow_lt (by omega), ok_bind]
        obtain ⟨_, hb⟩ := htab _ (List.getElem_mem (by omega : i < (knn 4 X).length))
        rw [mapM_ok_of (g := fun j => if y[j]? = some s.majLabel then [j] else []) (by
          intro j hj
          have hjlt : j < y.length := by rw [← hxy]; exact hb j (List.mem_of_mem_drop hj)
          rw [getRow_lt hjlt, ok_bind, List.getElem?_eq_getElem hjlt]
          simp [pure, Except.pure])]
        refine ⟨_, rfl, fun j => ?_⟩
        simp only [List.mem_flatten, List.mem_map, exists_exists_and_eq_and]
        constructor
        · rintro ⟨k, hk, hj⟩
          by_cases hyk : y[k]? = some s.majLabel
          · rw [if_pos hyk, List.mem_singleton] at hj
            subst hj
            exact ⟨hyk, Or.inr ⟨_, by rw [hyi, hc2.1], by rw [← hc2.2]; exact hmode, hri, hk⟩⟩
          · rw [if_neg hyk] at hj; simp at hj
        · rintro ⟨e0, ⟨rfl, _⟩ | ⟨row, e1, _, e3, e4⟩⟩
          · rw [hyi, hc2.1] at e0
            injection e0 with e0
            exact absurd e0 hne
          · rw [hri] at e3
            injection e3 with e3
            subst e3
            exact ⟨j, e4, by rw [if_pos e0]; simp⟩
      · rw [if_neg hc2]
        refine ⟨_, rfl, fun j => ?_⟩
        simp only [List.not_mem_nil, false_iff, not_and]
        rintro e0 (⟨rfl, e1⟩ | ⟨row, e1, e2, _⟩)
        · rw [hyi] at e0
          injection e0 with e0
          exact hc1 ⟨e0, hmode.unique e1⟩
        · rw [hyi] at e1
          injection e1 with e1
          exact hc2 ⟨e1, hmode.unique e2⟩
  obtain ⟨parts, hparts⟩ := mapM_exists_ok (fun a ha => (hstep a ha).imp (fun _ h => h.1))
  refine ⟨_, _, _, ?_, npDelete_subData hxy parts.flatten, fun i => ?_⟩
  · unfold ncrRemove kneighbors ncrToRemove
    rw [hs, ok_bind, if_pos h4, ok_bind, hparts]
    rfl
  · rw [removed_kept, mem_parts hparts]
    constructor
    · rintro ⟨_, j, hj, out, hout, hi⟩
      obtain ⟨out', h1, h2⟩ := hstep j (List.mem_range.2 hj)
      rw [hout] at h1
      injection h1 with h1
      subst h1
      obtain ⟨h0, h⟩ := (h2 i).1 hi
      refine ⟨h0, ?_⟩
      rcases h with ⟨rfl, h⟩ | ⟨row, h⟩
      · exact Or.inl h
      · exact Or.inr ⟨j, row, h⟩
    · rintro ⟨e0, h⟩
      have hlt : ∀ {i : Nat} {l : Int}, y[i]? = some l → i < X.length := by
        intro i l e
        rw [hxy]
        rcases Nat.lt_or_ge i y.length with h | h
        · exact h
        · rw [List.getElem?_eq_none h] at e; simp at e
      refine ⟨hlt e0, ?_⟩
      rcases h with h | ⟨j, row, h⟩
      · obtain ⟨out', h1, h2⟩ := hstep i (List.mem_range.2 (hlt e0))
        exact ⟨i, hlt e0, out', h1, (h2 i).2 ⟨e0, Or.inl ⟨rfl, h⟩⟩⟩
      · obtain ⟨out', h1, h2⟩ := hstep j (List.mem_range.2 (hlt h.1))
        exact ⟨j, hlt h.1, out', h1, (h2 i).2 ⟨e0, Or.inr ⟨row, h⟩⟩⟩

/-- In particular only majority items are removed. -/
theorem C16_ncr_keeps_minority {knn : Nat → List Row → List (List Nat)} (hknn : KnnOK knn)
    {X : List Row} {y : List Int} (hxy : X.length = y.length) (h4 : 4 ≤ X.length) {a b : Int}
    (hab : IsMinority y a b) :
    ∃ X' y' K, ncrRemove knn X y = .ok (X', y') ∧ SubData X y X' y' K ∧
      ∀ i, Removed X K i → y[i]? = some b := by
  obtain ⟨s, hs, hmin, hmaj⟩ := stats_of_isMinority hab
  obtain ⟨X', y', K, h1, h2, h3⟩ := C16_ncr hknn hxy h4 hs
  exact ⟨X', y', K, h1, h2, fun i hi => by rw [← hmaj]; exact ((h3 i).1 hi).1⟩

/-- The cleaning rule has no size guard: fewer than four items raise `ValueError`. -/
theorem C16_ncr_small (knn : Nat → List Row → List (List Nat)) {X : List Row} {y : List Int}
    (h : X.length < 4) {s : Stats} (hs : classLabelStatistics y = .ok s) :
    ncrRemove knn X y = .error .valueError := by
  unfold ncrRemove kneighbors
  rw [hs, ok_bind, if_neg (by omega)]
  rfl

example : ennRemove .both bruteKnn [[0], [1], [2], [3], [10], [11], [12], [13], [14]] [0, 1, 0, 0, 1, 1, 0, 1, 1]
    = .ok ([[0], [2], [3], [10], [11], [13], [14]], [0, 0, 0, 1, 1, 1, 1]) := by decide +kernel
example : ncrRemove bruteKnn [[0], [1], [2], [3], [10], [11], [12], [13], [14]] [0, 1, 0, 0, 1, 1, 0, 1, 0]
    = .ok ([[1], [10], [11], [13]], [1, 1, 1, 1]) := by decide +kernel
example : IsMinority [0, 1, 0, 0, 1, 1, 0, 1, 0] 1 0 := by
  refine ⟨by decide, by decide, by decide, ?_⟩
  left; decide

end Verif

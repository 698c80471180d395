import Verif.Lemmas.Under

/-!
# C42 Oversampling driven undersampling keeps the majority rows close to the synthetic ones

The mode called `farthest` keeps the closest majority rows; an unknown mode removes nothing.
-/

namespace Verif

/-- Contract of `np.argsort`: a permutation of the positions along which the values do not decrease. -/
def ArgsortOK (argsort : List ℚ → List Nat) : Prop :=
  ∀ l, (argsort l).Perm (List.range l.length) ∧
    (argsort l).Pairwise (fun i j => l.getD i 0 ≤ l.getD j 0)

/-- Contract of `choice` with probabilities and without replacement: different positions of non-zero
probability. -/
def ChoicePOK (choiceP : List ℚ → Nat → List Nat) : Prop :=
  ∀ p size, size ≤ p.countP (fun q => decide (q ≠ 0)) →
    (choiceP p size).length = size ∧ (choiceP p size).Nodup ∧
    ∀ i ∈ choiceP p size, ∃ q, p[i]? = some q ∧ q ≠ 0

/-- `D` lists, for each row of `M`, the distance to the closest row of `N`. -/
def ClosestDistances (dist : Row → Row → ℚ) (M N : List Row) (D : List ℚ) : Prop :=
  List.Forall₂ (fun m d => (∃ r ∈ N, d = dist m r) ∧ ∀ r ∈ N, d ≤ dist m r) M D

theorem distToNew_spec {dist : Row → Row → ℚ} {N M : List Row} {D : List ℚ} (h : distToNew dist N M = .ok D) :
    ClosestDistances dist M N D := by
  have := mapM_ok_iff.1 h
  refine this.imp (fun m d hd => ?_)
  obtain ⟨h1, h2⟩ := npMin_spec hd
  obtain ⟨r, hr, e⟩ := List.mem_map.1 h1
  exact ⟨⟨r, hr, e.symm⟩, fun r hr => h2 _ (List.mem_map.2 ⟨r, hr, rfl⟩)⟩

theorem distToNew_total {dist : Row → Row → ℚ} {N M : List Row} (hN : N ≠ []) :
    ∃ D, distToNew dist N M = .ok D :=
  mapM_exists_ok (fun m _ => npMin_exists (by simpa using hN))

/-- The rows kept in mode `farthest` are `n_min` majority rows (all of them if there are fewer) such that no
row left out is closer to the synthetic rows than a row kept: the closest ones. -/
theorem C42_farthest_keeps_closest {argsort : List ℚ → List Nat} (hargs : ArgsortOK argsort)
    (choiceP : List ℚ → Nat → List Nat) (dist : Row → Row → ℚ)
    {over : List Row → List Int → Res (List Row)} {X new : List Row} {y : List Int}
    (hxy : X.length = y.length) (h01 : ∀ l ∈ y, l = 0 ∨ l = 1) (h1 : (1 : Int) ∈ y)
    (hover : over X y = .ok (X ++ new)) (hnew : new ≠ []) :
    ∃ (D : List ℚ) (positions : List Nat) (kept : List Row),
      odusSample .farthest over dist argsort choiceP X y =
        .ok (kept ++ classRows X y 1, List.replicate kept.length 0 ++ List.replicate (y.count 1) 1) ∧
      ClosestDistances dist (classRows X y 0) new D ∧
      positions.Nodup ∧ List.Forall₂ (fun i r => (classRows X y 0)[i]? = some r) positions kept ∧
      kept.length = min (y.count 1) (y.count 0) ∧
      ∀ i ∈ positions, ∀ j < (classRows X y 0).length, j ∉ positions → D.getD i 0 ≤ D.getD j 0 := by
  obtain ⟨D, hD⟩ := distToNew_total (dist := dist) (M := classRows X y 0) hnew
  have hspec := distToNew_spec hD
  have hDl : (classRows X y 0).length = D.length := hspec.length_eq
  have hlen := classRows_length (α := Row) hxy
  obtain ⟨hp, hs⟩ := hargs D
  obtain ⟨sorted, hk⟩ := takeRows_ok_of_lt (X := classRows X y 0) (idx := argsort D) (by
    intro i hi
    rw [hDl]; exact List.mem_range.1 (hp.mem_iff.1 hi))
  have hsl := takeRows_length hk
  rw [hp.length_eq, List.length_range, ← hDl, hlen] at hsl
  refine ⟨D, (argsort D).take (y.count 1), sorted.take (y.count 1), ?_, hspec, ?_, ?_, ?_, ?_⟩
  · unfold odusSample
    rw [binCounts2_ok.2 ⟨h01, h1, rfl, rfl⟩, ok_bind]
    dsimp only
    rw [hover, ok_bind, List.drop_left, selectLabel_eq_classRows, selectLabel_eq_classRows, hD, ok_bind]
    unfold odusMajority
    dsimp only
    rw [hk, ok_bind, pure_bind]
    simp only [stackMajMin, hlen]
    rfl
  · exact ((hp.nodup_iff).2 List.nodup_range).sublist (List.take_sublist _ _)
  · exact List.forall₂_take _ (takeRows_forall hk)
  · rw [List.length_take, hsl]
  · intro i hi j hj hjn
    have hj' : j ∈ argsort D := hp.mem_iff.2 (List.mem_range.2 (by omega))
    rw [← List.take_append_drop (y.count 1) (argsort D)] at hj' hs
    rw [List.pairwise_append] at hs
    rcases List.mem_append.1 hj' with h | h
    · exact absurd h hjn
    · exact hs.2.2 i hi j h

/-- In mode `random` exactly `n_min` different majority rows are kept, and none of them is at the maximal
distance from the synthetic rows: the farthest majority rows are always removed. -/
theorem C42_random_removes_farthest {choiceP : List ℚ → Nat → List Nat} (hch : ChoicePOK choiceP)
    (argsort : List ℚ → List Nat) (dist : Row → Row → ℚ)
    {over : List Row → List Int → Res (List Row)} {X new : List Row} {y : List Int}
    (hxy : X.length = y.length) (h01 : ∀ l ∈ y, l = 0 ∨ l = 1) (h1 : (1 : Int) ∈ y)
    (hover : over X y = .ok (X ++ new)) {X' : List Row} {y' : List Int}
    (h : odusSample .random over dist argsort choiceP X y = .ok (X', y')) :
    ∃ (D : List ℚ) (positions : List Nat) (kept : List Row),
      X' = kept ++ classRows X y 1 ∧
      y' = List.replicate (y.count 1) 0 ++ List.replicate (y.count 1) 1 ∧
      ClosestDistances dist (classRows X y 0) new D ∧
      positions.Nodup ∧ List.Forall₂ (fun i r => (classRows X y 0)[i]? = some r) positions kept ∧
      kept.length = y.count 1 ∧
      ∀ i ∈ positions, ∃ j < (classRows X y 0).length, D.getD i 0 < D.getD j 0 := by
  have hlen := classRows_length (α := Row) hxy
  unfold odusSample at h
  rw [binCounts2_ok.2 ⟨h01, h1, rfl, rfl⟩, ok_bind] at h
  dsimp only at h
  rw [hover, ok_bind, List.drop_left, selectLabel_eq_classRows, selectLabel_eq_classRows] at h
  obtain ⟨D, hD, h⟩ := bind_ok.1 h
  obtain ⟨kept, hk, h⟩ := bind_ok.1 h
  have hspec := distToNew_spec hD
  have hDl : (classRows X y 0).length = D.length := hspec.length_eq
  unfold odusMajority at hk
  dsimp only at hk
  obtain ⟨p, hp, hk⟩ := bind_ok.1 hk
  obtain ⟨mask, hm, hk⟩ := bind_ok.1 hk
  unfold npChoiceP at hm
  split at hm
  · cases hm
  · rename_i hcount
    injection hm with hm
    subst hm
    obtain ⟨hl, hnd, hb⟩ := hch p (y.count 1) (by omega)
    have hkl := takeRows_length hk
    rw [hl] at hkl
    have h := pure_ok.1 h
    unfold stackMajMin at h
    injection h with e1 e2
    refine ⟨D, _, kept, e1.symm, ?_, hspec, hnd, takeRows_forall hk, hkl, ?_⟩
    · rw [← e2, hlen, hkl]
    · intro i hi
      obtain ⟨q, hq, hq0⟩ := hb i hi
      unfold inverseDistanceProbs at hp
      obtain ⟨lo, hlo, hp⟩ := bind_ok.1 hp
      obtain ⟨hi', hhi, hp⟩ := bind_ok.1 hp
      split at hp
      · cases hp
      · rename_i hne
        have hp : _ = p := Except.ok.inj hp
        subst hp
        rw [List.getElem?_map, List.getElem?_map] at hq
        cases hDi : D[i]? with
        | none => rw [hDi] at hq; simp at hq
        | some d =>
          rw [hDi] at hq
          simp only [Option.map_some, Option.some.injEq] at hq
          obtain ⟨hmem, hmax⟩ := npMax_spec hhi
          obtain ⟨j, hj, hjv⟩ := List.getElem_of_mem hmem
          refine ⟨j, by omega, ?_⟩
          have hdle := hmax d (List.mem_of_getElem? hDi)
          have : d ≠ hi' := by
            rintro rfl
            apply hq0
            rw [← hq, div_self hne, sub_self, zero_div]
          have e1 : D.getD i 0 = d := by rw [List.getD_eq_getElem?_getD, hDi]; rfl
          have e2 : D.getD j 0 = hi' := by
            rw [List.getD_eq_getElem?_getD, List.getElem?_eq_getElem hj, hjv]; rfl
          rw [e1, e2]
          exact lt_of_le_of_ne hdle this

/-- In mode `random`, if all majority rows are equally far from the synthetic rows the call raises
`ValueError` although the data is perfectly valid. -/
theorem C42_random_equidistant_raises {choiceP : List ℚ → Nat → List Nat}
    (argsort : List ℚ → List Nat) (dist : Row → Row → ℚ)
    {over : List Row → List Int → Res (List Row)} {X new : List Row} {y : List Int}
    (h01 : ∀ l ∈ y, l = 0 ∨ l = 1) (h1 : (1 : Int) ∈ y)
    (hover : over X y = .ok (X ++ new)) (hnew : new ≠ []) {c : ℚ} {D : List ℚ}
    (hD : ClosestDistances dist (classRows X y 0) new D) (hc : ∀ d ∈ D, d = c) :
    odusSample .random over dist argsort choiceP X y = .error .valueError := by
  unfold odusSample
  rw [binCounts2_ok.2 ⟨h01, h1, rfl, rfl⟩, ok_bind]
  dsimp only
  rw [hover, ok_bind, List.drop_left, selectLabel_eq_classRows, selectLabel_eq_classRows]
  obtain ⟨D', hD'⟩ := distToNew_total (dist := dist) (M := classRows X y 0) hnew
  have hspec := distToNew_spec hD'
  have : D' = D := by
    clear hc hD'
    unfold ClosestDistances at hD hspec
    generalize classRows X y 0 = M at hD hspec
    induction hspec generalizing D with
    | nil => cases hD; rfl
    | cons a _ ih =>
      cases hD with
      | cons b hD =>
        rw [ih hD]
        obtain ⟨⟨r, hr, e⟩, hle⟩ := a
        obtain ⟨⟨r', hr', e'⟩, hle'⟩ := b
        congr 1
        exact le_antisymm (e' ▸ hle r' hr') (e ▸ hle' r hr)
  subst this
  rw [hD', ok_bind]
  unfold odusMajority inverseDistanceProbs
  dsimp only
  cases hlo : npMin D' with
  | error e =>
    cases D' with
    | nil => injection hlo with hlo; subst hlo; rfl
    | cons a l => cases hlo
  | ok lo =>
    rw [ok_bind]
    obtain ⟨hm, _⟩ := npMin_spec hlo
    obtain ⟨hi, hhi⟩ := npMax_exists (List.ne_nil_of_mem hm)
    rw [hhi, ok_bind, if_pos (by rw [hc _ hm, hc _ (npMax_spec hhi).1, sub_self])]
    rfl

/-- A mode that is neither `random` nor `farthest` removes nothing: all majority rows are returned. -/
theorem C42_unknown_mode_keeps_all {choiceP : List ℚ → Nat → List Nat}
    (argsort : List ℚ → List Nat) (dist : Row → Row → ℚ)
    {over : List Row → List Int → Res (List Row)} {X new : List Row} {y : List Int}
    (hxy : X.length = y.length) (h01 : ∀ l ∈ y, l = 0 ∨ l = 1) (h1 : (1 : Int) ∈ y)
    (hover : over X y = .ok (X ++ new)) (hnew : new ≠ []) :
    odusSample .other over dist argsort choiceP X y =
      .ok (classRows X y 0 ++ classRows X y 1,
        List.replicate (y.count 0) 0 ++ List.replicate (y.count 1) 1) := by
  have hlen := classRows_length (α := Row) hxy
  unfold odusSample
  rw [binCounts2_ok.2 ⟨h01, h1, rfl, rfl⟩, ok_bind]
  dsimp only
  obtain ⟨D, hD⟩ := distToNew_total (dist := dist) (M := classRows X y 0) hnew
  rw [hover, ok_bind, List.drop_left, selectLabel_eq_classRows, selectLabel_eq_classRows, hD, ok_bind]
  unfold odusMajority
  simp only [pure_bind, stackMajMin, hlen]
  rfl

/-- If the oversampler adds nothing while there are majority rows, the call raises `ValueError` (minimum over an
empty axis). -/
theorem C42_nothing_generated_raises {mode : UnderMode} {choiceP : List ℚ → Nat → List Nat}
    (argsort : List ℚ → List Nat) (dist : Row → Row → ℚ)
    {over : List Row → List Int → Res (List Row)} {X : List Row} {y : List Int}
    (hxy : X.length = y.length) (h01 : ∀ l ∈ y, l = 0 ∨ l = 1) (h0 : (0 : Int) ∈ y) (h1 : (1 : Int) ∈ y)
    (hover : over X y = .ok X) :
    odusSample mode over dist argsort choiceP X y = .error .valueError := by
  unfold odusSample
  rw [binCounts2_ok.2 ⟨h01, h1, rfl, rfl⟩, ok_bind]
  dsimp only
  rw [hover, ok_bind, selectLabel_eq_classRows, selectLabel_eq_classRows]
  have hne := classRows_ne_nil hxy h0
  cases hr : classRows X y 0 with
  | nil => exact absurd hr hne
  | cons m M =>
    simp [distToNew, npMin, List.mapM_cons, bind, Except.bind]

/-- Distance on the line. -/
def absDist (a b : Row) : ℚ := |a.getD 0 0 - b.getD 0 0|

/-- Insertion sort of positions by value. -/
def argsortIns (l : List ℚ) : List Nat :=
  (List.range l.length).foldr (fun i acc =>
    acc.takeWhile (fun j => decide (l.getD j 0 < l.getD i 0)) ++ i ::
      acc.dropWhile (fun j => decide (l.getD j 0 < l.getD i 0))) []

example : odusSample .farthest (fun X _ => .ok (X ++ [[0]])) absDist argsortIns (fun _ _ => [])
    [[10], [1], [5], [20], [2]] [0, 0, 0, 1, 1] = .ok ([[1], [5], [20], [2]], [0, 0, 1, 1]) := by
  decide +kernel
example : odusSample .random (fun X _ => .ok (X ++ [[0]])) absDist argsortIns (fun _ _ => [1, 2])
    [[10], [1], [5], [20], [2]] [0, 0, 0, 1, 1] = .ok ([[1], [5], [20], [2]], [0, 0, 1, 1]) := by
  decide +kernel

end Verif

import Verif.Props.C01
import Verif.Model.Cleaning
import Verif.Props.C14
import Verif.Props.C15
import Verif.Props.C16
import Verif.Props.C34
import Verif.Props.C45

/-!
# C38: oversamplers that relabel or remove rows
-/

namespace Verif

/-! ## Helpers -/

theorem majorityAmong_ok {y : List Int} {maj : Int} {nb : List Nat} (h : ∀ j ∈ nb, j < y.length) :
    majorityAmong y maj nb = .ok (nb.filter (fun j => decide (y[j]? = some maj))) := by
  obtain ⟨ls, hls⟩ := takeRows_ok_of_lt h
  unfold majorityAmong
  rw [hls, ok_bind]
  have hf := takeRows_forall hls
  clear hls h
  show Except.ok _ = Except.ok _
  congr 1
  induction hf with
  | nil => rfl
  | @cons i l is ls hi _ ih =>
    rw [List.zip_cons_cons, List.filter_cons, List.filter_cons, hi]
    by_cases hl : l = maj
    · simp [hl, ih]
    · simp [hl, ih]

theorem npUnique_single_iff {y : List Int} {a b : Int} (hab : ∀ l ∈ y, l = a ∨ l = b) (ha : a ∈ y) (hne : a ≠ b) :
    (npUnique y).length < 2 ↔ b ∉ y := by
  constructor
  · intro h hb
    have h1 := mem_npUnique.2 ha
    have h2 := mem_npUnique.2 hb
    match hu : npUnique y with
    | [] => rw [hu] at h1; simp at h1
    | [x] => rw [hu] at h1 h2; simp at h1 h2; exact hne (h1.trans h2.symm)
    | x :: z :: r => rw [hu] at h; simp at h
  · intro hb
    have hall : ∀ l ∈ npUnique y, l = a := by
      intro l hl
      have := mem_npUnique.1 hl
      rcases hab l this with h | h
      · exact h
      · subst h; exact absurd this hb
    have hs := npUnique_sorted y
    match hu : npUnique y with
    | [] => simp
    | [x] => simp
    | x :: z :: r =>
      rw [hu] at hall hs
      have h1 := hall x (by simp)
      have h2 := hall z (by simp)
      have := (List.pairwise_cons.1 hs).1 z (by simp)
      omega

theorem isMinority_ne {y : List Int} {a b : Int} (h : IsMinority y a b) : a ≠ b := by
  rintro rfl
  have := h.2.2.2
  omega

/-! ## SPY -/

/-- Majority row `i` is listed among the neighbours of a minority row that has few majority neighbours. -/
def SpyRelabels (ind : List (List Nat)) (y : List Int) (b : Int) (bound : ℚ) (i : Nat) : Prop :=
  y[i]? = some b ∧ ∃ row ∈ ind, i ∈ row.drop 1 ∧
    ((row.drop 1).countP (fun j => decide (y[j]? = some b)) : ℚ) < bound

/-- SPY adds and removes no row; the labels that change are exactly those of the majority rows listed for a minority row whose
number of majority neighbours is below the threshold, and they become minority labels. -/
theorem C38_spy {threshold : ℚ} {nNeighbors d : Nat} {knn : Nat → List Row → List Row → List (List Nat)} (hknn : KnnQueryOK knn)
    {X : List Row} {y : List Int} {a b : Int} (hwf : WF d X y) (hmin : IsMinority y a b) :
    ∃ y', sample defaultChecks d (spyAlg threshold nNeighbors knn) X y = .ok (X, y') ∧ y'.length = y.length ∧
      (y.count a ≤ 2 → y' = y) ∧
      (2 < y.count a → ∀ i, i < y.length →
        let k := min X.length (nNeighbors + 1)
        (SpyRelabels (knn k X (classRows X y a)) y b (threshold * k) i → y'[i]? = some a) ∧
        (¬ SpyRelabels (knn k X (classRows X y a)) y b (threshold * k) i → y'[i]? = y[i]?)) := by
  obtain ⟨s, hs, rfl, rfl⟩ := stats_of_isMinority hmin
  rw [sample_default hs]
  by_cases h2 : y.count s.minLabel ≤ 2
  · rw [if_pos h2]
    exact ⟨y, rfl, rfl, fun _ => rfl, fun h => by omega⟩
  rw [if_neg h2]
  unfold spyAlg
  rw [selectLabel_eq_classRows]
  set k := min X.length (nNeighbors + 1) with hk
  set ind := knn k X (classRows X y s.minLabel) with hind
  obtain ⟨_, htab⟩ := hknn k X (classRows X y s.minLabel) (by omega)
  have hstep : ∀ row ∈ ind, spyFlips threshold k y s.majLabel row =
      .ok (if (((row.drop 1).filter (fun j => decide (y[j]? = some s.majLabel))).length : ℚ) < threshold * k
        then (row.drop 1).filter (fun j => decide (y[j]? = some s.majLabel)) else []) := by
    intro row hrow
    unfold spyFlips
    rw [majorityAmong_ok (by intro j hj; rw [← hwf.1]; exact (htab row hrow).2 j (List.mem_of_mem_drop hj)), ok_bind]
    rfl
  dsimp only
  rw [mapM_ok_of hstep, ok_bind]
  refine ⟨_, rfl, assignAt_length _ _ _, fun h => absurd h h2, ?_⟩
  intro _ i hi
  have hiff : i ∈ (ind.map (fun row => if (((row.drop 1).filter (fun j => decide (y[j]? = some s.majLabel))).length : ℚ)
        < threshold * k then (row.drop 1).filter (fun j => decide (y[j]? = some s.majLabel)) else [])).flatten ↔
      SpyRelabels ind y s.majLabel (threshold * k) i := by
    rw [List.mem_flatten]
    unfold SpyRelabels
    constructor
    · rintro ⟨l, hl, hil⟩
      rw [List.mem_map] at hl
      obtain ⟨row, hrow, rfl⟩ := hl
      split at hil
      · rename_i hlt
        rw [List.mem_filter] at hil
        refine ⟨by simpa using hil.2, row, hrow, hil.1, ?_⟩
        rw [List.countP_eq_length_filter]; exact hlt
      · simp at hil
    · rintro ⟨hb, row, hrow, hir, hlt⟩
      rw [List.countP_eq_length_filter] at hlt
      refine ⟨_, List.mem_map.2 ⟨row, hrow, rfl⟩, ?_⟩
      rw [if_pos hlt, List.mem_filter]
      exact ⟨hir, by simpa using hb⟩
  constructor
  · intro h
    rw [assignAt_get _ _ _ _ hi, if_pos (hiff.2 h)]
  · intro h
    rw [assignAt_get _ _ _ _ hi, if_neg (fun hh => h (hiff.1 hh))]

/-! ## Stefanowski -/

/-- Row `i` is safe: its label is the mode of the labels of its listed neighbours. -/
def SafeAt (T : List (List Nat)) (y : List Int) (i : Nat) : Prop := ∃ l, y[i]? = some l ∧ NeighborMode T y i l

/-- An unsafe majority row listed for an unsafe minority row. -/
def StefRelabels (strategy : StefStrategy) (T : List (List Nat)) (y : List Int) (a b : Int) (i : Nat) : Prop :=
  strategy = .weakAmpRelabel ∧ y[i]? = some b ∧ ¬ SafeAt T y i ∧
    ∃ (p : Nat) (row : List Nat), y[p]? = some a ∧ ¬ SafeAt T y p ∧ T[p]? = some row ∧ i ∈ row.drop 1

open Classical in
/-- The number of rows listed for `i` in `N` that are of the majority and safe (according to `T`). -/
noncomputable def safeMajorityCount (T N : List (List Nat)) (y : List Int) (b : Int) (i : Nat) : Nat :=
  ((N.getD i []).drop 1).countP (fun j => decide (y[j]? = some b ∧ SafeAt T y j))

open Classical in
/-- The safe (or unsafe) rows of the minority, each repeated as many times as it has safe majority neighbours in `N`. -/
noncomputable def copiesOfMinority (T N : List (List Nat)) (X : List Row) (y : List Int) (a b : Int) (safe : Prop) : List Row :=
  ((List.range X.length).filter (fun i => decide (y[i]? = some a ∧ (SafeAt T y i ↔ safe)))).flatMap
    (fun i => List.replicate (safeMajorityCount T N y b i) (X.getD i []))

/-- The new rows of the three strategies. -/
def StefNew (strategy : StefStrategy) (T T5 : List (List Nat)) (X : List Row) (y : List Int) (a b : Int) (new : List Row) :
    Prop :=
  match strategy with
  | .strongAmp => ∃ (first : List Int) (m : Int), IsMode m first ∧
      (∀ l ∈ first, ∃ (i j : Nat) (row : List Nat), y[i]? = some a ∧ ¬ SafeAt T y i ∧ T5[i]? = some row ∧ row[1]? = some j ∧
        y[j]? = some l) ∧
      new = copiesOfMinority T T X y a b True ++ copiesOfMinority T (if m = a then T else T5) X y a b False
  | _ => new = copiesOfMinority T T X y a b False

theorem safeFlags_ok {T : List (List Nat)} {y : List Int} {k : Nat} (hk : 2 ≤ k) (hl : T.length = y.length)
    (ht : TableOK T k y.length) :
    ∃ safe, safeFlags T y = .ok safe ∧ ∀ i, i < y.length → (safe.getD i false = true ↔ SafeAt T y i) := by
  have hstep : ∀ i ∈ List.range y.length, ∃ v : Bool, (do
      let m ← neighborMode T y i
      let l ← getRow y i
      pure (decide (m = l)) : Res Bool) = .ok v ∧ (v = true ↔ SafeAt T y i) := by
    intro i hi
    have hi' := List.mem_range.1 hi
    obtain ⟨m, hm, hmode⟩ := neighborMode_ok hk hl rfl ht hi'
    rw [hm, ok_bind, getRow_lt hi', ok_bind]
    refine ⟨_, rfl, ?_⟩
    rw [decide_eq_true_iff]
    constructor
    · intro h
      exact ⟨m, by rw [List.getElem?_eq_getElem hi', h], hmode⟩
    · rintro ⟨l, hl, hlm⟩
      rw [List.getElem?_eq_getElem hi'] at hl
      injection hl with hl
      rw [hl]; exact hmode.unique hlm
  obtain ⟨safe, hsafe⟩ := mapM_exists_ok (fun a ha => (hstep a ha).imp (fun _ h => h.1))
  refine ⟨safe, hsafe, ?_⟩
  intro i hi
  have hr : (List.range y.length)[i]? = some i := by simp [hi]
  obtain ⟨v, hv, hf⟩ := mapM_ok_get hsafe hr
  obtain ⟨v', h1, h2⟩ := hstep i (List.mem_range.2 hi)
  rw [hf] at h1
  injection h1 with h1
  subst h1
  rw [List.getD_eq_getElem?_getD, hv]
  exact h2

open Classical in
theorem copiesOf_ok {T N : List (List Nat)} {y : List Int} {k : Nat} (hl : N.length = y.length)
    (ht : TableOK N k y.length) {safe : List Bool} (hs : ∀ i, i < y.length → (safe.getD i false = true ↔ SafeAt T y i))
    {b : Int} {i : Nat} (hi : i < y.length) :
    copiesOf N y safe b i = .ok (safeMajorityCount T N y b i) := by
  have hi' : i < N.length := by omega
  have hb : ∀ j ∈ N[i].drop 1, j < y.length := fun j hj => (ht _ (List.getElem_mem hi')).2 j (List.mem_of_mem_drop hj)
  unfold copiesOf
  rw [getRow_lt hi', ok_bind, majorityAmong_ok hb, ok_bind]
  show Except.ok _ = Except.ok _
  congr 1
  unfold safeMajorityCount
  rw [List.getD_eq_getElem?_getD, List.getElem?_eq_getElem hi', Option.getD_some, List.countP_eq_length_filter,
    List.filter_filter]
  congr 1
  apply List.filter_congr
  intro j hj
  rw [Bool.eq_iff_iff, Bool.and_eq_true, decide_eq_true_iff, decide_eq_true_iff, hs j (hb j hj), and_comm]

open Classical in
theorem createMultiples_ok {T N : List (List Nat)} {X : List Row} {y : List Int} {k : Nat} (hxy : X.length = y.length)
    (hl : N.length = y.length) (ht : TableOK N k y.length) {safe : List Bool}
    (hs : ∀ i, i < y.length → (safe.getD i false = true ↔ SafeAt T y i)) {a b : Int} {q : Prop} {f : Nat → Bool}
    (hf : ∀ i, i < y.length → (f i = true ↔ (SafeAt T y i ↔ q))) :
    createMultiples X N y safe b ((labelPositions y a).filter f) = .ok (copiesOfMinority T N X y a b q) := by
  unfold createMultiples
  rw [mapM_ok_of (g := fun i => List.replicate (safeMajorityCount T N y b i) (X.getD i []))]
  · rw [ok_bind]
    show Except.ok _ = Except.ok _
    congr 1
    unfold copiesOfMinority
    rw [← List.flatMap_def, hxy]
    congr 1
    unfold labelPositions
    rw [List.filter_filter]
    apply List.filter_congr
    intro i hi
    rw [Bool.eq_iff_iff, Bool.and_eq_true, decide_eq_true_iff, decide_eq_true_iff, hf i (List.mem_range.1 hi), and_comm]
  · intro i hi
    have hy := mem_labelPositions.1 (List.mem_filter.1 hi).1
    have hiy := (List.getElem?_eq_some_iff.1 hy).1
    rw [getRow_lt (by omega), ok_bind, copiesOf_ok hl ht hs hiy, ok_bind]
    rw [List.getD_eq_getElem?_getD, List.getElem?_eq_getElem (by omega)]
    rfl

theorem relabelled_ok {T : List (List Nat)} {y : List Int} {k : Nat} (hl : T.length = y.length)
    (ht : TableOK T k y.length) {safe : List Bool} (hs : ∀ i, i < y.length → (safe.getD i false = true ↔ SafeAt T y i))
    (s : Stats) :
    ∃ ind, relabelled T y safe s = .ok ind ∧
      ∀ i, i ∈ ind ↔ StefRelabels .weakAmpRelabel T y s.minLabel s.majLabel i := by
  have hneg : ∀ i, i < y.length → ((! safe.getD i false) = true ↔ ¬ SafeAt T y i) := by
    intro i hi
    rw [← hs i hi]; cases safe.getD i false <;> simp
  have hstep : ∀ p ∈ (labelPositions y s.minLabel).filter (fun i => ! safe.getD i false), ∃ out, (do
      let row ← getRow T p
      let m ← majorityAmong y s.majLabel (row.drop 1)
      pure (m.filter (fun j => ! safe.getD j false)) : Res (List Nat)) = .ok out ∧
      ∀ i, i ∈ out ↔ (y[i]? = some s.majLabel ∧ ¬ SafeAt T y i ∧ ∃ row, T[p]? = some row ∧ i ∈ row.drop 1) := by
    intro p hp
    have hy := mem_labelPositions.1 (List.mem_filter.1 hp).1
    have hpy := (List.getElem?_eq_some_iff.1 hy).1
    have hpt : p < T.length := by omega
    have hb : ∀ j ∈ T[p].drop 1, j < y.length := fun j hj => (ht _ (List.getElem_mem hpt)).2 j (List.mem_of_mem_drop hj)
    rw [getRow_lt hpt, ok_bind, majorityAmong_ok hb, ok_bind]
    refine ⟨_, rfl, ?_⟩
    intro i
    rw [List.mem_filter, List.mem_filter]
    constructor
    · rintro ⟨⟨h1, h2⟩, h3⟩
      exact ⟨by simpa using h2, (hneg i (hb i h1)).1 h3, _, List.getElem?_eq_getElem hpt, h1⟩
    · rintro ⟨h1, h2, row, hrow, h3⟩
      rw [List.getElem?_eq_getElem hpt] at hrow
      injection hrow with hrow
      subst hrow
      exact ⟨⟨h3, by simpa using h1⟩, (hneg i (hb i h3)).2 h2⟩
  obtain ⟨parts, hparts⟩ := mapM_exists_ok (fun a ha => (hstep a ha).imp (fun _ h => h.1))
  refine ⟨parts.flatten, ?_, ?_⟩
  · unfold relabelled
    rw [hparts]; rfl
  · intro i
    rw [List.mem_flatten]
    constructor
    · rintro ⟨out, ho, hi⟩
      obtain ⟨p, hp, hf⟩ := mapM_ok_mem hparts ho
      obtain ⟨out', h1, h2⟩ := hstep p hp
      rw [hf] at h1
      injection h1 with h1
      subst h1
      obtain ⟨e1, e2, row, e3, e4⟩ := (h2 i).1 hi
      have hy := mem_labelPositions.1 (List.mem_filter.1 hp).1
      exact ⟨rfl, e1, e2, p, row, hy, (hneg p (List.getElem?_eq_some_iff.1 hy).1).1 (List.mem_filter.1 hp).2, e3, e4⟩
    · rintro ⟨_, e1, e2, p, row, hy, hn, e3, e4⟩
      have hp : p ∈ (labelPositions y s.minLabel).filter (fun i => ! safe.getD i false) :=
        List.mem_filter.2 ⟨mem_labelPositions.2 hy, (hneg p (List.getElem?_eq_some_iff.1 hy).1).2 hn⟩
      obtain ⟨t, ht', hpt⟩ := List.getElem_of_mem hp
      obtain ⟨out, ho, hf⟩ := mapM_ok_get hparts (i := t) (a := p) (by rw [List.getElem?_eq_getElem ht', hpt])
      obtain ⟨out', h1, h2⟩ := hstep p hp
      rw [hf] at h1
      injection h1 with h1
      subst h1
      exact ⟨_, List.mem_of_getElem? ho, (h2 i).2 ⟨e1, e2, row, e3, e4⟩⟩

theorem strongCorrect_ok {T T5 : List (List Nat)} {y : List Int} {k : Nat} (hk : 2 ≤ k) (hl : T5.length = y.length)
    (ht : TableOK T5 k y.length) {a : Int} {pos : List Nat} (hne : pos ≠ []) (hpos : ∀ i ∈ pos, y[i]? = some a ∧ ¬ SafeAt T y i) :
    ∃ (first : List Int) (m : Int), IsMode m first ∧
      (∀ l ∈ first, ∃ (i j : Nat) (row : List Nat), y[i]? = some a ∧ ¬ SafeAt T y i ∧ T5[i]? = some row ∧ row[1]? = some j ∧
        y[j]? = some l) ∧
      strongCorrect T5 y a pos = .ok (decide (m = a)) := by
  have hstep : ∀ i ∈ pos, ∃ l, (do
      let row ← getRow T5 i
      let j ← getRow row 1
      getRow y j : Res Int) = .ok l ∧ ∃ (j : Nat) (row : List Nat), T5[i]? = some row ∧ row[1]? = some j ∧ y[j]? = some l := by
    intro i hi
    have hiy := (List.getElem?_eq_some_iff.1 (hpos i hi).1).1
    have hit : i < T5.length := by omega
    obtain ⟨h1, h2⟩ := ht _ (List.getElem_mem hit)
    have h3 : 1 < T5[i].length := by omega
    have h4 := h2 _ (List.getElem_mem h3)
    rw [getRow_lt hit, ok_bind, getRow_lt h3, ok_bind, getRow_lt h4]
    exact ⟨_, rfl, _, _, List.getElem?_eq_getElem hit, List.getElem?_eq_getElem h3, List.getElem?_eq_getElem h4⟩
  obtain ⟨first, hfirst⟩ := mapM_exists_ok (fun a ha => (hstep a ha).imp (fun _ h => h.1))
  have hfne : first ≠ [] := by
    intro h
    have := mapM_ok_length hfirst
    rw [h] at this
    exact hne (List.length_eq_zero_iff.1 this.symm)
  obtain ⟨m, hm, hmode⟩ := pyMode_isMode hfne
  refine ⟨first, m, hmode, ?_, ?_⟩
  · intro l hl
    obtain ⟨i, hi, hf⟩ := mapM_ok_mem hfirst hl
    obtain ⟨l', h1, j, row, e1, e2, e3⟩ := hstep i hi
    rw [hf] at h1
    injection h1 with h1
    subst h1
    exact ⟨i, j, row, (hpos i hi).1, (hpos i hi).2, e1, e2, e3⟩
  · unfold strongCorrect
    rw [if_neg hne, hfirst, ok_bind, hm]; rfl

theorem sample_stefanowski {d : Nat} {alg : Stats → List Row → List Int → Res (List Row × List Int)} {X : List Row}
    {y : List Int} {s : Stats} (hs : classLabelStatistics y = .ok s) :
    sample stefanowskiChecks d alg X y = if y.count s.minLabel ≤ 6 then .ok (X, y) else alg s X y := by
  obtain ⟨hm, hM, _⟩ := stats_min_mem hs
  unfold sample
  rw [hs, ok_bind, stats_count hs hm]
  by_cases h : y.count s.minLabel ≤ 6
  · rw [if_pos h, if_pos]
    · rfl
    · have : (y.count s.minLabel : ℚ) ≤ 6 := by exact_mod_cast h
      simp [stefanowskiChecks, checksFire, this]
  · rw [if_neg h, if_neg]
    have : ¬ (y.count s.minLabel : ℚ) ≤ 6 := by exact_mod_cast h
    simp [stefanowskiChecks, checksFire, this]

/-- What Stefanowski's method returns: unsafe majority rows are removed, unless they are relabelled; nothing else is removed or
relabelled; copies of minority rows are appended; if no majority row would be left, the input is returned. -/
def StefResult (strategy : StefStrategy) (T T5 : List (List Nat)) (X : List Row) (y : List Int) (a b : Int) (X' : List Row)
    (y' : List Int) : Prop :=
  ∃ (y1 : List Int) (Xk : List Row) (yk : List Int) (K : List Nat) (new : List Row),
    (∀ i l, y[i]? = some l → (StefRelabels strategy T y a b i → y1[i]? = some a) ∧
      (¬ StefRelabels strategy T y a b i → y1[i]? = some l)) ∧
    SubData X y1 Xk yk K ∧
    (∀ i, Removed X K i ↔ y[i]? = some b ∧ ¬ SafeAt T y i ∧ ¬ StefRelabels strategy T y a b i) ∧
    StefNew strategy T T5 X y a b new ∧
    (if b ∈ yk then X' = Xk ++ new ∧ y' = yk ++ List.replicate new.length a else X' = X ∧ y' = y)

theorem C38_stefanowski {strategy : StefStrategy} {d : Nat} {knn : Nat → List Row → List (List Nat)} (hknn : KnnOK knn)
    {X : List Row} {y : List Int} {a b : Int} (hwf : WF d X y) (hmin : IsMinority y a b)
    (hstrong : strategy = .strongAmp → ∃ p : Nat, y[p]? = some a ∧ ¬ SafeAt (knn 4 X) y p) :
    ∃ X' y', sample stefanowskiChecks d (stefanowskiAlg strategy knn) X y = .ok (X', y') ∧
      (y.count a ≤ 6 → X' = X ∧ y' = y) ∧
      (6 < y.count a → StefResult strategy (knn 4 X) (knn 6 X) X y a b X' y') := by
  obtain ⟨s, hs, rfl, rfl⟩ := stats_of_isMinority hmin
  rw [sample_stefanowski hs]
  by_cases h6 : y.count s.minLabel ≤ 6
  · rw [if_pos h6]
    exact ⟨X, y, rfl, fun _ => ⟨rfl, rfl⟩, fun h => by omega⟩
  rw [if_neg h6]
  have hxy := hwf.1
  have hXl : 7 ≤ X.length := by rw [hwf.1]; exact le_trans (by omega) (List.count_le_length (a := s.minLabel))
  have hm4 : min 4 X.length = 4 := by omega
  have hm6 : min 6 X.length = 6 := by omega
  obtain ⟨hl4, ht4⟩ := hknn 4 X (by omega)
  obtain ⟨hl6, ht6⟩ := hknn 6 X (by omega)
  rw [hwf.1] at hl4 ht4 hl6 ht6
  unfold stefanowskiAlg kneighbors
  rw [hm4, hm6, if_pos (by omega), if_pos (by omega), ok_bind, ok_bind]
  generalize knn 4 X = T at *
  generalize knn 6 X = T5 at *
  obtain ⟨safe, hsafe, hsf⟩ := safeFlags_ok (by omega) hl4 ht4
  rw [hsafe, ok_bind]
  have hneg : ∀ i, i < y.length → ((! safe.getD i false) = true ↔ ¬ SafeAt T y i) := by
    intro i hi
    rw [← hsf i hi]; cases safe.getD i false <;> simp
  have hweak : createMultiples X T y safe s.majLabel ((labelPositions y s.minLabel).filter (fun i => ! safe.getD i false))
      = .ok (copiesOfMinority T T X y s.minLabel s.majLabel False) :=
    createMultiples_ok hwf.1 hl4 ht4 hsf (fun i hi => by rw [hneg i hi]; simp)
  -- the new rows
  have hnew : ∃ new, strategy.samples X T T5 y safe s = .ok new ∧ StefNew strategy T T5 X y s.minLabel s.majLabel new := by
    cases strategy with
    | weakAmp => exact ⟨_, hweak, rfl⟩
    | weakAmpRelabel => exact ⟨_, hweak, rfl⟩
    | strongAmp =>
      obtain ⟨p, hp, hpn⟩ := hstrong rfl
      have hpy := (List.getElem?_eq_some_iff.1 hp).1
      have hmem : p ∈ (labelPositions y s.minLabel).filter (fun i => ! safe.getD i false) :=
        List.mem_filter.2 ⟨mem_labelPositions.2 hp, (hneg p hpy).2 hpn⟩
      obtain ⟨first, m, h1, h2, h3⟩ := strongCorrect_ok (T := T) (a := s.minLabel) (k := 6) (by omega) hl6 ht6
        (List.ne_nil_of_mem hmem) (by
          intro i hi
          have hy := mem_labelPositions.1 (List.mem_filter.1 hi).1
          exact ⟨hy, (hneg i (List.getElem?_eq_some_iff.1 hy).1).1 (List.mem_filter.1 hi).2⟩)
      refine ⟨_, ?_, first, m, h1, h2, rfl⟩
      show strongAmp X T T5 y safe s = _
      unfold strongAmp
      rw [createMultiples_ok (q := True) hwf.1 hl4 ht4 hsf (fun i hi => by rw [hsf i hi]; simp), ok_bind]
      dsimp only
      rw [h3, ok_bind]
      by_cases hma : m = s.minLabel
      · simp only [hma, decide_true, if_true]
        rw [hweak]; rfl
      · simp only [hma, decide_false, if_false]
        rw [if_neg (by simp), createMultiples_ok (q := False) hwf.1 hl6 ht6 hsf (fun i hi => by rw [hneg i hi]; simp)]; rfl
  obtain ⟨new, hnew, hspec⟩ := hnew
  dsimp only
  rw [hnew, ok_bind]
  have hind : ∃ ind : List Nat, strategy.flips T y safe s = .ok ind ∧ ∀ i, i ∈ ind ↔ StefRelabels strategy T y s.minLabel s.majLabel i := by
    cases strategy with
    | weakAmp => exact ⟨[], rfl, fun i => by simp [StefRelabels]⟩
    | strongAmp => exact ⟨[], rfl, fun i => by simp [StefRelabels]⟩
    | weakAmpRelabel => exact relabelled_ok hl4 ht4 hsf s
  obtain ⟨ind, hind, hiff⟩ := hind
  rw [hind, ok_bind]
  set y1 := assignAt y ind s.minLabel with hy1
  have hy1l : y1.length = y.length := assignAt_length _ _ _
  set rem := ((labelPositions y s.majLabel).filter (fun i => ! safe.getD i false)).filter (fun i => ! ind.contains i) with hrem
  have hsub : SubData X y1 (npDelete X rem) (npDelete y1 rem) (kept X.length rem) :=
    npDelete_subData (by rw [hy1l, hwf.1]) rem
  have hget : ∀ i l, y[i]? = some l → (StefRelabels strategy T y s.minLabel s.majLabel i → y1[i]? = some s.minLabel) ∧
      (¬ StefRelabels strategy T y s.minLabel s.majLabel i → y1[i]? = some l) := by
    intro i l hl
    have hi := (List.getElem?_eq_some_iff.1 hl).1
    refine ⟨fun h => ?_, fun h => ?_⟩
    · rw [hy1, assignAt_get _ _ _ _ hi, if_pos ((hiff i).2 h)]
    · rw [hy1, assignAt_get _ _ _ _ hi, if_neg (fun hh => h ((hiff i).1 hh)), hl]
  have hremiff : ∀ i, i ∈ rem ↔ y[i]? = some s.majLabel ∧ ¬ SafeAt T y i ∧
      ¬ StefRelabels strategy T y s.minLabel s.majLabel i := by
    intro i
    rw [hrem, List.mem_filter, List.mem_filter, mem_labelPositions, ← hiff i]
    constructor
    · rintro ⟨⟨h1, h2⟩, h3⟩
      exact ⟨h1, (hneg i (List.getElem?_eq_some_iff.1 h1).1).1 h2, by simpa using h3⟩
    · rintro ⟨h1, h2, h3⟩
      exact ⟨⟨h1, (hneg i (List.getElem?_eq_some_iff.1 h1).1).2 h2⟩, by simpa using h3⟩
  have hremoved : ∀ i, Removed X (kept X.length rem) i ↔ y[i]? = some s.majLabel ∧ ¬ SafeAt T y i ∧
      ¬ StefRelabels strategy T y s.minLabel s.majLabel i := by
    intro i
    rw [removed_kept, ← hremiff i]
    refine ⟨fun h => h.2, fun h => ⟨?_, h⟩⟩
    rw [hwf.1]
    exact (List.getElem?_eq_some_iff.1 ((hremiff i).1 h).1).1
  -- the labels that are left
  have hlab : ∀ l ∈ npDelete y1 rem, l = s.minLabel ∨ l = s.majLabel := by
    intro l hl
    obtain ⟨i, hi, hyl⟩ := forall₂_mem_right hsub.2.2 hl
    obtain ⟨h1, _⟩ := mem_kept.1 hi
    obtain ⟨l', hl'⟩ : ∃ l', y[i]? = some l' := ⟨_, List.getElem?_eq_getElem (by omega)⟩
    by_cases hr : StefRelabels strategy T y s.minLabel s.majLabel i
    · rw [(hget i l' hl').1 hr] at hyl
      injection hyl with hyl
      exact Or.inl hyl.symm
    · rw [(hget i l' hl').2 hr] at hyl
      injection hyl with hyl
      rw [← hyl]
      exact hmin.2.2.1 l' (List.mem_of_getElem? hl')
  have hamem : s.minLabel ∈ npDelete y1 rem := by
    obtain ⟨i, hi, hya⟩ := List.getElem_of_mem hmin.1
    have hyi : y[i]? = some s.minLabel := by rw [List.getElem?_eq_getElem hi, hya]
    have hk : i ∈ kept X.length rem := by
      rw [mem_kept]
      refine ⟨by omega, fun h => ?_⟩
      rw [hremiff, hyi] at h
      injection h.1 with h
      exact isMinority_ne hmin h
    obtain ⟨l, hl, hyl⟩ := forall₂_mem_left hsub.2.2 hk
    have : y1[i]? = some s.minLabel := by
      by_cases hr : StefRelabels strategy T y s.minLabel s.majLabel i
      · exact (hget i _ hyi).1 hr
      · exact (hget i _ hyi).2 hr
    rw [this] at hyl
    injection hyl with hyl
    rw [hyl]; exact hl
  have huniq := npUnique_single_iff hlab hamem (isMinority_ne hmin)
  by_cases hb : s.majLabel ∈ npDelete y1 rem
  · rw [if_neg (by rw [huniq]; simpa using hb)]
    refine ⟨_, _, rfl, fun h => absurd h h6, fun _ => ?_⟩
    refine ⟨y1, _, _, _, new, hget, hsub, hremoved, hspec, ?_⟩
    rw [if_pos hb]; exact ⟨rfl, rfl⟩
  · rw [if_pos (huniq.2 hb)]
    refine ⟨X, y, rfl, fun h => absurd h h6, fun _ => ?_⟩
    refine ⟨y1, _, _, _, new, hget, hsub, hremoved, hspec, ?_⟩
    rw [if_neg hb]; exact ⟨rfl, rfl⟩

/-- With the strategy `strong_amp`, a data set all of whose minority rows are safe is not returned: the call raises. -/
theorem C38_strong_amp_raises {d : Nat} {knn : Nat → List Row → List (List Nat)} (hknn : KnnOK knn)
    {X : List Row} {y : List Int} {a b : Int} (hwf : WF d X y) (hmin : IsMinority y a b) (h7 : 6 < y.count a)
    (hsafe : ∀ p : Nat, y[p]? = some a → SafeAt (knn 4 X) y p) :
    sample stefanowskiChecks d (stefanowskiAlg .strongAmp knn) X y = .error .indexError := by
  obtain ⟨s, hs, rfl, rfl⟩ := stats_of_isMinority hmin
  rw [sample_stefanowski hs, if_neg (by omega)]
  have hxy := hwf.1
  have hXl : 7 ≤ X.length := by rw [hwf.1]; exact le_trans (by omega) (List.count_le_length (a := s.minLabel))
  have hm4 : min 4 X.length = 4 := by omega
  have hm6 : min 6 X.length = 6 := by omega
  obtain ⟨hl4, ht4⟩ := hknn 4 X (by omega)
  rw [hwf.1] at hl4 ht4
  unfold stefanowskiAlg kneighbors
  rw [hm4, hm6, if_pos (by omega), if_pos (by omega), ok_bind, ok_bind]
  generalize knn 4 X = T at *
  obtain ⟨safe, hsf0, hsf⟩ := safeFlags_ok (by omega) hl4 ht4
  rw [hsf0, ok_bind]
  dsimp only
  unfold StefStrategy.samples strongAmp
  dsimp only
  rw [createMultiples_ok (q := True) hwf.1 hl4 ht4 hsf (fun i hi => by rw [hsf i hi]; simp), ok_bind]
  have hnil : (labelPositions y s.minLabel).filter (fun i => ! safe.getD i false) = [] := by
    rw [List.filter_eq_nil_iff]
    intro i hi
    have hy := mem_labelPositions.1 hi
    have := (hsf i (List.getElem?_eq_some_iff.1 hy).1).2 (hsafe i hy)
    rw [this]; simp
  rw [hnil]
  rfl

/-! ## SMOTE followed by a filter -/

theorem stats_of_two {y : List Int} {a b : Int} (ha : a ∈ y) (hb : b ∈ y) (hl : ∀ l ∈ y, l = a ∨ l = b) (hne : a ≠ b) :
    ∃ s, classLabelStatistics y = .ok s := by
  rcases Nat.lt_trichotomy (y.count a) (y.count b) with h | h | h
  · obtain ⟨s, hs, _⟩ := stats_of_isMinority (y := y) (a := a) (b := b) ⟨ha, hb, hl, Or.inl h⟩
    exact ⟨s, hs⟩
  · rcases lt_or_gt_of_ne hne with h' | h'
    · obtain ⟨s, hs, _⟩ := stats_of_isMinority (y := y) (a := b) (b := a) ⟨hb, ha, fun l h => (hl l h).symm, Or.inr ⟨h.symm, h'⟩⟩
      exact ⟨s, hs⟩
    · obtain ⟨s, hs, _⟩ := stats_of_isMinority (y := y) (a := a) (b := b) ⟨ha, hb, hl, Or.inr ⟨h, h'⟩⟩
      exact ⟨s, hs⟩
  · obtain ⟨s, hs, _⟩ := stats_of_isMinority (y := y) (a := b) (b := a) ⟨hb, ha, fun l h => (hl l h).symm, Or.inl h⟩
    exact ⟨s, hs⟩

/-- The data set after the SMOTE step of the two combined methods: the requested number of rows in the hull of the minority is
appended. -/
def SmoteStep (d : Nat) (X : List Row) (y : List Int) (a : Int) (n : Nat) (Xs : List Row) (ys : List Int) : Prop :=
  ∃ new, Xs = X ++ new ∧ ys = y ++ List.replicate n a ∧ new.length = n ∧ ∀ x ∈ new, InHull d (classRows X y a) x

theorem smoteStep_of {par : SmoteParams} {vol : List Row → ℚ} {dr : Draws} {d : Nat} {knn : Nat → List Row → List (List Nat)}
    {X Xs : List Row} {y ys : List Int} (hwf : WF d X y) (hk : KnnOK knn) (hdr : dr.OK) (hg : par.ss.gaussian = .none) {s : Stats}
    (hs : classLabelStatistics y = .ok s) (h2 : 2 < y.count s.minLabel)
    (h : smoteSample par vol dr d knn X y = .ok (Xs, ys)) :
    SmoteStep d X y s.minLabel (requested par.proportion (y.count s.majLabel) (y.count s.minLabel)) Xs ys := by
  obtain ⟨gen, h3, h4, h5, h6⟩ := (smote_sound hwf hk hdr hs h).2 h2
  rw [hg] at h4
  refine ⟨gen, h4, by rw [h5, h3], h3, ?_⟩
  intro x hx
  rw [← selectLabel_eq_classRows]
  exact generatedFrom_inHull (h6 x hx) (fun _ h => h) (fun _ h => h)

theorem smoteStep_two {d n : Nat} {X Xs : List Row} {y ys : List Int} {a b : Int} (hwf : WF d X y) (hmin : IsMinority y a b)
    (h2 : 2 < y.count a) (h : SmoteStep d X y a n Xs ys) :
    Xs.length = ys.length ∧ 4 ≤ Xs.length ∧ (∃ s, classLabelStatistics ys = .ok s) ∧ ∀ l ∈ ys, l = a ∨ l = b := by
  obtain ⟨new, rfl, rfl, hn, _⟩ := h
  have hl : ∀ l ∈ y ++ List.replicate n a, l = a ∨ l = b := by
    intro l hl
    rcases List.mem_append.1 hl with hl | hl
    · exact hmin.2.2.1 l hl
    · exact Or.inl (List.eq_of_mem_replicate hl)
  have hcount : y.count a + y.count b ≤ y.length := by
    have := isMinority_ne hmin
    have h1 := List.countP_eq_length_filter (p := fun l => l == a) (l := y)
    have hlen := List.length_eq_countP_add_countP (fun l => l == a) (l := y)
    have hle : y.count b ≤ y.countP (fun l => decide ¬ ((l == a) = true)) := by
      unfold List.count
      apply List.countP_mono_left
      intro l _ hlb
      simp only [beq_iff_eq] at hlb
      subst hlb
      simpa using Ne.symm this
    unfold List.count at *
    omega
  have hle := hmin.2.2.2
  refine ⟨by simp [hwf.1, hn], ?_, ?_, hl⟩
  · rw [List.length_append, hwf.1]; omega
  · exact stats_of_two (List.mem_append_left _ hmin.1) (List.mem_append_left _ hmin.2.1) hl (isMinority_ne hmin)

/-- SMOTE_ENN: the rows that stay after the filter are exactly those whose label is the mode of their three listed neighbours,
original and new ones alike. The filtered data set is returned if both classes are left and the minority is not the larger one;
otherwise the input. -/
theorem C38_smote_enn {par : SmoteParams} {vol : List Row → ℚ} {dr : Draws} {d : Nat} {knn : Nat → List Row → List (List Nat)}
    {X X' : List Row} {y y' : List Int} {a b : Int} (hwf : WF d X y) (hk : KnnOK knn) (hdr : dr.OK)
    (hg : par.ss.gaussian = .none) (hmin : IsMinority y a b)
    (h : sample defaultChecks d (smoteEnnAlg par vol dr d knn) X y = .ok (X', y')) :
    (y.count a ≤ 2 → X' = X ∧ y' = y) ∧
    (2 < y.count a → ∃ Xs ys Xk yk K, SmoteStep d X y a (requested par.proportion (y.count b) (y.count a)) Xs ys ∧
      SubData Xs ys Xk yk K ∧
      (∀ i, Removed Xs K i ↔ ∃ l m, ys[i]? = some l ∧ NeighborMode (knn 4 Xs) ys i m ∧ l ≠ m) ∧
      (if a ∈ yk ∧ yk.count a ≤ yk.count b then X' = Xk ∧ y' = yk else X' = X ∧ y' = y)) := by
  obtain ⟨s, hs, rfl, rfl⟩ := stats_of_isMinority hmin
  rw [sample_default hs] at h
  by_cases h2 : y.count s.minLabel ≤ 2
  · rw [if_pos h2] at h
    injection h with h
    obtain ⟨rfl, rfl⟩ := Prod.mk.inj h
    exact ⟨fun _ => ⟨rfl, rfl⟩, fun h => by omega⟩
  rw [if_neg h2] at h
  refine ⟨fun h => absurd h h2, fun _ => ?_⟩
  unfold smoteEnnAlg at h
  rw [bind_ok] at h
  obtain ⟨⟨Xs, ys⟩, hsm, h⟩ := h
  have hstep := smoteStep_of hwf hk hdr hg hs (by omega) hsm
  obtain ⟨hl, h4, ⟨s', hs'⟩, htwo⟩ := smoteStep_two hwf hmin (by omega) hstep
  obtain ⟨Xk, yk, K, hrun, hsub, hrem⟩ := C16_enn (r := .both) hk hl h4 hs'
  rw [hrun, ok_bind] at h
  refine ⟨Xs, ys, Xk, yk, K, hstep, hsub, ?_, ?_⟩
  · intro i
    rw [hrem i]
    constructor
    · rintro ⟨l, m, e1, e2, e3, _⟩; exact ⟨l, m, e1, e2, e3⟩
    · rintro ⟨l, m, e1, e2, e3⟩; exact ⟨l, m, e1, e2, e3, trivial⟩
  · have hlk : ∀ l ∈ yk, l = s.minLabel ∨ l = s.majLabel := by
      intro l hl'
      obtain ⟨i, _, hi⟩ := forall₂_mem_right hsub.2.2 hl'
      exact htwo l (List.mem_of_getElem? hi)
    by_cases hc : s.minLabel ∈ yk ∧ yk.count s.minLabel ≤ yk.count s.majLabel
    · have hb : s.majLabel ∈ yk := by
        rw [← List.one_le_count_iff]
        exact le_trans (List.one_le_count_iff.2 hc.1) hc.2
      rw [if_neg (by
        rintro (h' | h')
        · exact absurd hc.2 (by simpa using h')
        · exact (npUnique_single_iff hlk hc.1 (isMinority_ne hmin)).1 h' hb)] at h
      injection h with h
      obtain ⟨rfl, rfl⟩ := Prod.mk.inj h
      rw [if_pos hc]; exact ⟨rfl, rfl⟩
    · rw [if_pos (by
        by_cases ha : s.minLabel ∈ yk
        · left
          by_contra h'
          exact hc ⟨ha, by simpa using h'⟩
        · right
          by_cases hb : s.majLabel ∈ yk
          · exact (npUnique_single_iff (fun l h => (hlk l h).symm) hb (isMinority_ne hmin).symm).2 ha
          · have : yk = [] := by
              rw [List.eq_nil_iff_forall_not_mem]
              intro l hl'
              rcases hlk l hl' with e | e <;> rw [e] at hl'
              · exact ha hl'
              · exact hb hl'
            show (npUnique yk).length < 2; rw [this]; decide)] at h
      injection h with h
      obtain ⟨rfl, rfl⟩ := Prod.mk.inj h
      rw [if_neg hc]; exact ⟨rfl, rfl⟩

/-- SMOTE_TomekLinks: exactly the ends of Tomek links are removed after SMOTE; the input is returned only if nothing is left. -/
theorem C38_smote_tomek {par : SmoteParams} {vol : List Row → ℚ} {dr : Draws} {d : Nat} {knn : Nat → List Row → List (List Nat)}
    {X X' : List Row} {y y' : List Int} {a b : Int} (hwf : WF d X y) (hk : KnnOK knn) (hdr : dr.OK)
    (hg : par.ss.gaussian = .none) (hmin : IsMinority y a b)
    (h : sample defaultChecks d (smoteTomekAlg par vol dr d knn) X y = .ok (X', y')) :
    (y.count a ≤ 2 → X' = X ∧ y' = y) ∧
    (2 < y.count a → ∃ Xs ys Xk yk K, SmoteStep d X y a (requested par.proportion (y.count b) (y.count a)) Xs ys ∧
      SubData Xs ys Xk yk K ∧ (∀ i, Removed Xs K i ↔ ∃ j, IsTomekLink (knn 2 Xs) ys i j) ∧
      (if Xk = [] then X' = X ∧ y' = y else X' = Xk ∧ y' = yk)) := by
  obtain ⟨s, hs, rfl, rfl⟩ := stats_of_isMinority hmin
  rw [sample_default hs] at h
  by_cases h2 : y.count s.minLabel ≤ 2
  · rw [if_pos h2] at h
    injection h with h
    obtain ⟨rfl, rfl⟩ := Prod.mk.inj h
    exact ⟨fun _ => ⟨rfl, rfl⟩, fun h => by omega⟩
  rw [if_neg h2] at h
  refine ⟨fun h => absurd h h2, fun _ => ?_⟩
  unfold smoteTomekAlg at h
  rw [bind_ok] at h
  obtain ⟨⟨Xs, ys⟩, hsm, h⟩ := h
  have hstep := smoteStep_of hwf hk hdr hg hs (by omega) hsm
  obtain ⟨hl, h4, ⟨s', hs'⟩, _⟩ := smoteStep_two hwf hmin (by omega) hstep
  obtain ⟨Xk, yk, K, hrun, hsub, hrem⟩ := C15_remove_both hk hl (by omega) hs'
  rw [hrun, ok_bind] at h
  refine ⟨Xs, ys, Xk, yk, K, hstep, hsub, hrem, ?_⟩
  by_cases hc : Xk = []
  · rw [if_pos hc]
    rw [if_pos (by rw [hc]; rfl)] at h
    injection h with h
    obtain ⟨rfl, rfl⟩ := Prod.mk.inj h
    exact ⟨rfl, rfl⟩
  · rw [if_neg hc]
    rw [if_neg (fun h => hc (List.length_eq_zero_iff.1 h))] at h
    injection h with h
    obtain ⟨rfl, rfl⟩ := Prod.mk.inj h
    exact ⟨rfl, rfl⟩

/-- SMOTE_ENN never fails: neither the oversampling nor the filter after it raises. -/
theorem C38_smote_enn_total {par : SmoteParams} {vol : List Row → ℚ} {dr : Draws} {d : Nat}
    {knn : Nat → List Row → List (List Nat)} {X : List Row} {y : List Int} {a b : Int} (hwf : WF d X y) (hk : KnnOK knn)
    (hdr : dr.OK) (hpos : ∀ i j, 0 < dr.simplexU i j) (hg : par.ss.gaussian = .none) (hmin : IsMinority y a b)
    (hd : 1 ≤ par.ss.nDim)
    (hmode : par.ss.simplexSampling = .random ∨ par.ss.simplexSampling = .deterministic ∨
      (par.ss.simplexSampling = .volume ∧ ∀ vs, 0 < vol vs))
    (hwi : par.ss.within = .random ∨ (par.ss.within = .deterministic ∧ par.ss.nDim ≤ 2)) :
    ∃ r, sample defaultChecks d (smoteEnnAlg par vol dr d knn) X y = .ok r := by
  obtain ⟨⟨Xs, ys⟩, hsm⟩ := C01_smote_total (vol := vol) hwf hk hdr hpos hmin hd hmode hwi
  obtain ⟨s, hs, rfl, rfl⟩ := stats_of_isMinority hmin
  rw [sample_default hs]
  by_cases h2 : y.count s.minLabel ≤ 2
  · rw [if_pos h2]
    exact ⟨_, rfl⟩
  rw [if_neg h2]
  have hstep := smoteStep_of hwf hk hdr hg hs (by omega) hsm
  obtain ⟨hl, h4, ⟨s', hs'⟩, _⟩ := smoteStep_two hwf hmin (by omega) hstep
  obtain ⟨Xk, yk, K, hrun, _, _⟩ := C16_enn (r := .both) hk hl h4 hs'
  unfold smoteEnnAlg
  rw [hsm, ok_bind]
  dsimp only
  rw [hrun, ok_bind]
  split <;> exact ⟨_, rfl⟩

/-- SMOTE_TomekLinks never fails. -/
theorem C38_smote_tomek_total {par : SmoteParams} {vol : List Row → ℚ} {dr : Draws} {d : Nat}
    {knn : Nat → List Row → List (List Nat)} {X : List Row} {y : List Int} {a b : Int} (hwf : WF d X y) (hk : KnnOK knn)
    (hdr : dr.OK) (hpos : ∀ i j, 0 < dr.simplexU i j) (hg : par.ss.gaussian = .none) (hmin : IsMinority y a b)
    (hd : 1 ≤ par.ss.nDim)
    (hmode : par.ss.simplexSampling = .random ∨ par.ss.simplexSampling = .deterministic ∨
      (par.ss.simplexSampling = .volume ∧ ∀ vs, 0 < vol vs))
    (hwi : par.ss.within = .random ∨ (par.ss.within = .deterministic ∧ par.ss.nDim ≤ 2)) :
    ∃ r, sample defaultChecks d (smoteTomekAlg par vol dr d knn) X y = .ok r := by
  obtain ⟨⟨Xs, ys⟩, hsm⟩ := C01_smote_total (vol := vol) hwf hk hdr hpos hmin hd hmode hwi
  obtain ⟨s, hs, rfl, rfl⟩ := stats_of_isMinority hmin
  rw [sample_default hs]
  by_cases h2 : y.count s.minLabel ≤ 2
  · rw [if_pos h2]
    exact ⟨_, rfl⟩
  rw [if_neg h2]
  have hstep := smoteStep_of hwf hk hdr hg hs (by omega) hsm
  obtain ⟨hl, h4, ⟨s', hs'⟩, _⟩ := smoteStep_two hwf hmin (by omega) hstep
  obtain ⟨Xk, yk, K, hrun, _, _⟩ := C15_remove_both hk hl (by omega) hs'
  unfold smoteTomekAlg
  rw [hsm, ok_bind]
  dsimp only
  rw [hrun, ok_bind]
  split <;> exact ⟨_, rfl⟩

example : (∃ r, sample defaultChecks 2 (smoteEnnAlg exPar (fun _ => 1) exDraws 2 exKnn) exX exY = .ok r) ∧
    ∃ r, sample defaultChecks 2 (smoteTomekAlg exPar (fun _ => 1) exDraws 2 exKnn) exX exY = .ok r := by
  have hp : ∀ i j, 0 < exDraws.simplexU i j := fun i j => by simp only [exDraws]; positivity
  exact ⟨C38_smote_enn_total (by decide) exKnn_ok exDraws_ok hp rfl exY_min (by decide) (Or.inl rfl) (Or.inl rfl),
    C38_smote_tomek_total (by decide) exKnn_ok exDraws_ok hp rfl exY_min (by decide) (Or.inl rfl) (Or.inl rfl)⟩

/-- Data for the next theorem: every minority row forms a Tomek link with a majority row. -/
def c38X : List Row := [[0], [10], [20], [1], [11], [21], [30]]
def c38Y : List Int := [1, 1, 1, 0, 0, 0, 0]

/-- SMOTE_TomekLinks can return a data set that has no minority row at all. -/
theorem C38_tomek_may_lose_the_minority :
    sample defaultChecks 1 (smoteTomekAlg { exPar with proportion := 0 } (fun _ => 1) exDraws 1 bruteKnn) c38X c38Y
      = .ok ([[30]], [0]) := by decide +kernel

/-! ## Gazzah -/

/-- Gazzah: unless nothing is generated, the output consists of the majority rows that are not far away, followed by points
strictly between a minority row and the minority mean. The minority rows themselves are not part of it. -/
theorem C38_gazzah {proportion : ℚ} {far : List Row → List Nat} {d : Nat} {X : List Row} {y : List Int} {a b : Int}
    (hwf : WF d X y) (hmin : IsMinority y a b) :
    ∃ X' y', sample defaultChecks d (gazzahAlg proportion far d) X y = .ok (X', y') ∧
      (if y.count a ≤ 2 ∨ requested proportion (y.count b) (y.count a) = 0 then X' = X ∧ y' = y
       else ∃ keptMaj new mean K, X' = keptMaj ++ new ∧
        y' = List.replicate keptMaj.length b ++ List.replicate new.length a ∧
        List.Forall₂ (fun i r => (classRows X y b)[i]? = some r) K keptMaj ∧ K.Sublist (List.range (classRows X y b).length) ∧
        (∀ i, i ∈ K ↔ i < (classRows X y b).length ∧ i ∉ far (classRows X y b)) ∧
        IsMean d (classRows X y a) mean ∧ new ≠ [] ∧ ∀ x ∈ new, ∃ p ∈ classRows X y a, OpenSegment d p mean x) := by
  obtain ⟨new, mean, hrun, hmean, hopen, hcount⟩ := C45_star (proportion := proportion) hwf hmin
  obtain ⟨s, hs, rfl, rfl⟩ := stats_of_isMinority hmin
  rw [sample_default hs]
  by_cases h2 : y.count s.minLabel ≤ 2
  · rw [if_pos h2]
    exact ⟨X, y, rfl, by rw [if_pos (Or.inl h2)]; exact ⟨rfl, rfl⟩⟩
  rw [if_neg h2]
  unfold gazzahAlg
  rw [hrun, ok_bind]
  dsimp only
  rw [List.drop_left]
  by_cases h0 : requested proportion (y.count s.majLabel) (y.count s.minLabel) = 0
  · rw [if_pos (Or.inr h0)] at hcount
    rw [hcount]
    exact ⟨X, y, rfl, by rw [if_pos (Or.inr h0)]; exact ⟨rfl, rfl⟩⟩
  · have hcond : ¬ (y.count s.minLabel ≤ 2 ∨ requested proportion (y.count s.majLabel) (y.count s.minLabel) = 0) := by
      push Not; exact ⟨by omega, h0⟩
    rw [if_neg hcond] at hcount
    obtain ⟨k, hk, hshare, _⟩ := hcount
    have hpos : 0 < new.length := by
      rw [hk]
      exact Nat.mul_pos (by omega) (by omega)
    rw [if_neg (by omega), selectLabel_eq_classRows]
    refine ⟨_, _, rfl, ?_⟩
    rw [if_neg hcond]
    refine ⟨npDelete (classRows X y s.majLabel) (far (classRows X y s.majLabel)), new, mean,
      kept _ (far (classRows X y s.majLabel)), rfl, rfl, npDelete_forall _ _, List.filter_sublist, ?_, hmean,
      List.ne_nil_of_length_pos hpos, hopen⟩
    intro i
    rw [mem_kept]

/-- For example, no minority row of this data set is in the output. -/
theorem C38_gazzah_drops_the_minority :
    (match sample defaultChecks 2 (gazzahAlg 1 (fun _ => [0]) 2) c45X c45Y with
     | .ok r => (classRows c45X c45Y 1).all (fun p => ! r.1.contains p)
     | .error _ => false) = true := by decide +kernel

/-! ## Non-vacuity -/

/-- SPY relabels row 3, a majority row between minority rows. -/
example : WF 1 [[0], [1], [2], [3], [4], [9], [10], [11], [12], [13]] [1, 1, 1, 0, 1, 0, 0, 0, 0, 0] ∧
    IsMinority [1, 1, 1, 0, 1, 0, 0, 0, 0, 0] 1 0 ∧ KnnQueryOK bruteQuery ∧
    sample defaultChecks 1 (spyAlg (1/2) 3 bruteQuery) [[0], [1], [2], [3], [4], [9], [10], [11], [12], [13]]
      [1, 1, 1, 0, 1, 0, 0, 0, 0, 0] = .ok ([[0], [1], [2], [3], [4], [9], [10], [11], [12], [13]],
      [1, 1, 1, 1, 1, 0, 0, 0, 0, 0]) := by
  refine ⟨⟨by decide, by decide +kernel⟩, ⟨by decide, by decide, by decide, Or.inl (by decide)⟩, bruteQuery_ok, by decide +kernel⟩

/-- Stefanowski's data: seven minority rows, the last of them among majority rows, one majority row among the minority. -/
def stX : List Row := [[0], [1], [2], [3], [4], [5], [52], [6], [50], [51], [53], [54], [55], [56], [57]]
def stY : List Int := [1, 1, 1, 1, 1, 1, 1, 0, 0, 0, 0, 0, 0, 0, 0]

example : WF 1 stX stY ∧ IsMinority stY 1 0 ∧ 6 < stY.count 1 ∧ KnnOK bruteKnn ∧
    sample stefanowskiChecks 1 (stefanowskiAlg .weakAmp bruteKnn) stX stY =
      .ok ([[0], [1], [2], [3], [4], [5], [52], [50], [51], [53], [54], [55], [56], [57], [52], [52], [52]],
        [1, 1, 1, 1, 1, 1, 1, 0, 0, 0, 0, 0, 0, 0, 1, 1, 1]) := by
  refine ⟨⟨by decide, by decide +kernel⟩, ⟨by decide, by decide, by decide, Or.inl (by decide)⟩, by decide, bruteKnn_ok,
    by decide +kernel⟩

/-- Without the isolated minority row, `strong_amp` raises. -/
example : sample stefanowskiChecks 1 (stefanowskiAlg .strongAmp bruteKnn)
    [[0], [1], [2], [3], [4], [5], [6], [50], [51], [53], [54], [55], [56], [57]] [1, 1, 1, 1, 1, 1, 1, 0, 0, 0, 0, 0, 0, 0]
      = .error .indexError := by decide +kernel

example : (match sample stefanowskiChecks 1 (stefanowskiAlg .strongAmp bruteKnn) stX stY with
    | .ok r => decide (r.1.drop 14 = [[52], [52], [52], [52], [52]])
    | .error _ => false) = true := by decide +kernel

/-- SMOTE_ENN on separated classes keeps all rows. -/
example : WF 2 exX exY ∧ IsMinority exY 1 0 ∧ KnnOK bruteKnn ∧ exDraws.OK ∧
    (match sample defaultChecks 2 (smoteEnnAlg exPar (fun _ => 1) exDraws 2 bruteKnn) exX exY with
     | .ok r => decide (r.1.length = 10)
     | .error _ => false) = true := by
  refine ⟨⟨by decide, by decide +kernel⟩, exY_min, bruteKnn_ok, exDraws_ok, by decide +kernel⟩

end Verif

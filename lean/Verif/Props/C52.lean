import Verif.Model.Regions
import Verif.Props.C48
import Verif.Model.Distances
import Mathlib.Data.List.Sort

/-!
# C52: ISMOTE replaces majority rows by minority rows
-/

namespace Verif

/-! ## Specification -/

/-- The distances returned for all fitted rows: for every query those to the fitted rows, in some order. -/
def AllDistancesOK (dist : Row → Row → ℚ) (knnDist : Nat → List Row → List Row → List (List ℚ)) : Prop :=
  ∀ F Q, List.Forall₂ (fun q row => row.Perm (F.map (dist q))) Q (knnDist F.length F Q)

/-- How many rows ISMOTE removes and adds: half of the difference of the class sizes, rounded up. -/
def ismoteN (nMaj nMin : Nat) : Nat := (nMaj - nMin + 1) / 2

/-- `x` is a convex combination of a minority row and of rows of the reduced data set `V`, whose first `m` rows are majority
rows: these stand at the third or a later place of the list of its nearest rows, and their weights are bounded. -/
def IsmoteGenerated (par : IsmoteParams) (knn : Nat → List Row → List Row → List (List Nat)) (d m : Nat) (V A : List Row)
    (x : Row) : Prop :=
  ∃ (j : Nat) (base : Row) (row vs : List Nat) (nbrs : List Row) (w0 : ℚ) (wr : List ℚ), A[j]? = some base ∧
    (knn (min V.length (par.nNeighbors + 1)) V A)[j]? = some row ∧ (∀ v ∈ vs, v ∈ row.drop 2) ∧
    List.Forall₂ (fun v r => V[v]? = some r) vs nbrs ∧ IsConvexComb d (w0 :: wr) (base :: nbrs) x ∧
    List.Forall₂ (fun v c => c ≤ if v < m then 1 - par.minorityWeight else par.minorityWeight) vs wr

/-! ## Helpers -/

theorem perm_of_indices {α : Type} {l rows : List α} {idx : List Nat} (hp : idx.Perm (List.range l.length))
    (hf : List.Forall₂ (fun i r => l[i]? = some r) idx rows) : rows.Perm l := by
  cases l with
  | nil =>
    have : idx = [] := by simpa using hp
    subst this
    cases hf
    exact List.Perm.refl _
  | cons a l =>
    have h1 : rows = idx.map (fun i => (a :: l).getD i a) := by
      clear hp
      induction hf with
      | nil => rfl
      | cons hi _ ih =>
        rw [List.map_cons, ← ih, List.getD_eq_getElem?_getD, hi]
        rfl
    have h2 : (List.range (a :: l).length).map (fun i => (a :: l).getD i a) = a :: l := by
      apply List.ext_getElem
      · simp
      · intro i h1 h2
        simp only [List.getElem_map, List.getElem_range]
        rw [List.getD_eq_getElem?_getD, List.getElem?_eq_getElem h2]; rfl
    rw [h1]
    conv_rhs => rw [← h2]
    exact hp.map _

theorem ismoteOrder_perm (means : List ℚ) : (ismoteOrder means).Perm (List.range means.length) :=
  List.perm_insertionSort _ _

theorem ismoteOrder_sorted (means : List ℚ) :
    (ismoteOrder means).Pairwise (fun i j => means.getD j 0 ≤ means.getD i 0) := by
  unfold ismoteOrder
  have : Std.Total (fun i j : Nat => means.getD j 0 ≤ means.getD i 0) := ⟨fun i j => le_total _ _⟩
  have : IsTrans Nat (fun i j : Nat => means.getD j 0 ≤ means.getD i 0) := ⟨fun i j k h1 h2 => le_trans h2 h1⟩
  exact List.pairwise_insertionSort _ _

theorem meanQ_perm {dist : Row → Row → ℚ} {F : List Row} {q : Row} {row : List ℚ} (h : row.Perm (F.map (dist q))) :
    meanQ row = (F.map (dist q)).sum / (F.length : ℚ) := by
  unfold meanQ
  rw [h.sum_eq, h.length_eq, List.length_map]

/-- The rows kept and the rows removed. -/
theorem ismote_split {dist : Row → Row → ℚ} {knnDist : Nat → List Row → List Row → List (List ℚ)}
    (hkd : AllDistancesOK dist knnDist) {A B : List Row} (hA : A ≠ []) (n : Nat) (hn : n ≤ B.length) :
    ∃ kept removed : List Row, takeRows B ((ismoteOrder ((knnDist A.length A B).map meanQ)).drop n) = .ok kept ∧
      (kept ++ removed).Perm B ∧ removed.length = n ∧
      ∀ r ∈ removed, ∀ q ∈ kept, (A.map (dist q)).sum ≤ (A.map (dist r)).sum := by
  have hf := hkd A B
  set means := (knnDist A.length A B).map meanQ with hmeans
  have hml : means.length = B.length := by rw [hmeans, List.length_map, hf.length_eq]
  have hperm := ismoteOrder_perm means
  have hlt : ∀ i ∈ ismoteOrder means, i < B.length := by
    intro i hi
    have := hperm.mem_iff.1 hi
    rw [List.mem_range] at this
    omega
  obtain ⟨kept, hkept⟩ := takeRows_ok_of_lt (X := B) (idx := (ismoteOrder means).drop n)
    (fun i hi => hlt i (List.mem_of_mem_drop hi))
  obtain ⟨removed, hrem⟩ := takeRows_ok_of_lt (X := B) (idx := (ismoteOrder means).take n)
    (fun i hi => hlt i (List.mem_of_mem_take hi))
  have hfk := takeRows_forall hkept
  have hfr := takeRows_forall hrem
  refine ⟨kept, removed, hkept, ?_, ?_, ?_⟩
  · refine (List.perm_append_comm).trans (perm_of_indices (idx := ismoteOrder means) (by rw [← hml]; exact hperm) ?_)
    have := List.rel_append (R := fun (i : Nat) (r : Row) => B[i]? = some r) hfr hfk
    dsimp only at this
    rwa [List.take_append_drop] at this
  · rw [takeRows_length hrem, List.length_take, hperm.length_eq, List.length_range]
    omega
  · intro r hr q hq
    obtain ⟨i, hi, hir⟩ := forall2_mem_right hfr hr
    obtain ⟨j, hj, hjq⟩ := forall2_mem_right hfk hq
    have hs := ismoteOrder_sorted means
    rw [← List.take_append_drop n (ismoteOrder means), List.pairwise_append] at hs
    have hle := hs.2.2 i hi j hj
    have hmean : ∀ (k : Nat) (r : Row), B[k]? = some r → means.getD k 0 = (A.map (dist r)).sum / (A.length : ℚ) := by
      intro k r hk
      rw [List.forall₂_iff_get] at hf
      obtain ⟨hkB, rfl⟩ := List.getElem?_eq_some_iff.1 hk
      have hkD : k < (knnDist A.length A B).length := by rw [← hf.1]; exact hkB
      have := hf.2 k hkB hkD
      rw [List.getD_eq_getElem?_getD, List.getElem?_eq_getElem (by rw [hml]; exact hkB), Option.getD_some]
      simp only [hmeans, List.getElem_map]
      exact meanQ_perm this
    rw [hmean i r hir, hmean j q hjq] at hle
    have hpos : (0 : ℚ) < A.length := by
      have := List.length_pos_iff.2 hA
      exact_mod_cast this
    exact (div_le_div_iff_of_pos_right hpos).1 hle

/-! ## The oversampler -/

/-- **ISMOTE**: with more than two minority rows and unequal classes, half of the difference of the class sizes is removed from
the majority, starting with the rows farthest from the minority, and as many minority rows are added; every minority row stays.
-/
theorem C52_ismote {par : IsmoteParams} {vol : List Row → ℚ} {dr : Draws} {d : Nat}
    {knn : Nat → List Row → List Row → List (List Nat)} {dist : Row → Row → ℚ}
    {knnDist : Nat → List Row → List Row → List (List ℚ)} {X X' : List Row} {y y' : List Int} {a b : Int} (hwf : WF d X y)
    (hk : KnnQueryOK knn) (hkd : AllDistancesOK dist knnDist) (hdr : dr.OK) (hmin : IsMinority y a b)
    (hg : par.ss.gaussian = .none) (hvol : ∀ vs, 0 ≤ vol vs) (hmw : 0 ≤ par.minorityWeight ∧ par.minorityWeight ≤ 1)
    (h3 : 2 < y.count a) (hlt : y.count a < y.count b)
    (h : sample defaultChecks d (ismoteAlg par vol dr d knn knnDist) X y = .ok (X', y')) :
    ∃ kept removed new : List Row, (kept ++ removed).Perm (classRows X y b) ∧
      removed.length = ismoteN (y.count b) (y.count a) ∧ new.length = ismoteN (y.count b) (y.count a) ∧
      (∀ r ∈ removed, ∀ q ∈ kept, ((classRows X y a).map (dist q)).sum ≤ ((classRows X y a).map (dist r)).sum) ∧
      X' = kept ++ classRows X y a ++ new ∧
      y' = List.replicate kept.length b ++ List.replicate (y.count a) a ++ List.replicate new.length a ∧
      ∀ x ∈ new, IsmoteGenerated par knn d kept.length (kept ++ classRows X y a) (classRows X y a) x := by
  obtain ⟨s, hs, rfl, rfl⟩ := stats_of_isMinority hmin
  obtain ⟨hm, hM, hne⟩ := stats_min_mem hs
  rw [sample_default hs, if_neg (by omega)] at h
  unfold ismoteAlg at h
  have hxy := hwf.1
  have hla := selectLabel_length hxy s.minLabel
  have hlb := selectLabel_length hxy s.majLabel
  rw [selectLabel_eq_classRows] at hla hlb
  simp only [selectLabel_eq_classRows] at h
  have hAd : ∀ r ∈ classRows X y s.minLabel, r.length = d := by
    intro r hr
    rw [← selectLabel_eq_classRows] at hr
    exact hwf.2 r (selectLabel_mem hr)
  have hBd : ∀ r ∈ classRows X y s.majLabel, r.length = d := by
    intro r hr
    rw [← selectLabel_eq_classRows] at hr
    exact hwf.2 r (selectLabel_mem hr)
  set A := classRows X y s.minLabel with hA
  set B := classRows X y s.majLabel with hB
  have hAne : A ≠ [] := by intro h0; rw [h0] at hla; simp at hla; omega
  rw [hla, hlb] at h
  have hnd : (y.count s.majLabel - y.count s.minLabel + 1) / 2 = ismoteN (y.count s.majLabel) (y.count s.minLabel) := rfl
  have hn1 : ismoteN (y.count s.majLabel) (y.count s.minLabel) ≤ B.length := by unfold ismoteN; omega
  have hn0 : ismoteN (y.count s.majLabel) (y.count s.minLabel) ≠ 0 := by unfold ismoteN; omega
  rw [hnd] at h
  set n := ismoteN (y.count s.majLabel) (y.count s.minLabel) with hn
  obtain ⟨kept, removed, hkept, hperm, hrl, hfar⟩ := ismote_split hkd (A := A) (B := B) hAne n hn1
  rw [if_neg hn0] at h
  rw [← hla, hkept, ok_bind, bind_ok] at h
  obtain ⟨out, hout, h⟩ := h
  simp only [pure_ok] at h
  have hkeptd : ∀ r ∈ kept, r.length = d := fun r hr => hBd r (hperm.mem_iff.1 (List.mem_append_left _ hr))
  have hVd : ∀ r ∈ kept ++ A, r.length = d := by
    intro r hr
    rcases List.mem_append.1 hr with h | h
    · exact hkeptd r h
    · exact hAd r h
  obtain ⟨hk1, hk1t⟩ := hk (min (kept ++ A).length (par.nNeighbors + 1)) (kept ++ A) A (by omega)
  have hvwm : ∀ ws : List ℚ, some ((List.replicate kept.length s.majLabel ++ List.replicate A.length s.minLabel).map
        (fun l => if l = s.minLabel then par.minorityWeight else 1 - par.minorityWeight)) = some ws →
      ∀ (i : Nat) (c : ℚ), ws[i]? = some c → c = if i < kept.length then 1 - par.minorityWeight else par.minorityWeight := by
    intro ws hws i c hc
    injection hws with hws
    subst hws
    rw [List.getElem?_map, List.getElem?_append, List.length_replicate] at hc
    by_cases hi : i < kept.length
    · rw [if_pos hi, List.getElem?_replicate, if_pos hi] at hc
      simp only [Option.map_some, Option.some.injEq] at hc
      rw [if_pos hi, ← hc, if_neg (fun h => hne h.symm)]
    · rw [if_neg hi, List.getElem?_replicate] at hc
      split at hc
      · simp only [Option.map_some, Option.some.injEq, if_true] at hc
        rw [if_neg hi, ← hc]
      · simp at hc
  obtain ⟨g1, g2⟩ := sampleSimplex_weighted
    (cap := fun i => if i < kept.length then 1 - par.minorityWeight else par.minorityWeight) hAd
    (by intro V hV; injection hV with hV; subst hV; exact hVd)
    (by
      intro ws hws c hc
      obtain ⟨i, hi⟩ := List.mem_iff_getElem?.1 hc
      rw [hvwm ws hws i c hi]
      split
      · exact ⟨by linarith [hmw.2], by linarith [hmw.1]⟩
      · exact hmw)
    (by intro hV; cases hV) hdr (by rw [List.length_map, hk1]) hg (by intro w hw; cases hw) (by intro w hw; cases hw) hvol
    ⟨by
      rintro (h | h)
      · cases h
      · simp [sortedPairs] at h,
     by
      intro ws hws i c hc
      rw [hvwm ws hws i c hc]⟩ hout
  unfold withSamples at h
  obtain ⟨rfl, rfl⟩ := Prod.mk.inj h
  refine ⟨kept, removed, out, hperm, hrl, g1, hfar, rfl, by rw [hla], ?_⟩
  intro x hx
  obtain ⟨j, ps, vs, hsel, base, nbrs, w0, wr, hbase, hnb, hcx, hcp⟩ := g2 x hx
  obtain ⟨row, hrow, hv⟩ := selected_dropped hsel
  exact ⟨j, base, row, vs, nbrs, w0, wr, hbase, hrow, hv, hnb, hcx, hcp⟩

/-- The size of the data set does not change (rows of further classes aside), and the two classes end up with the same size,
or the former minority with one row more. -/
theorem C52_balanced {par : IsmoteParams} {vol : List Row → ℚ} {dr : Draws} {d : Nat}
    {knn : Nat → List Row → List Row → List (List Nat)} {dist : Row → Row → ℚ}
    {knnDist : Nat → List Row → List Row → List (List ℚ)} {X X' : List Row} {y y' : List Int} {a b : Int} (hwf : WF d X y)
    (hk : KnnQueryOK knn) (hkd : AllDistancesOK dist knnDist) (hdr : dr.OK) (hmin : IsMinority y a b)
    (hg : par.ss.gaussian = .none) (hvol : ∀ vs, 0 ≤ vol vs) (hmw : 0 ≤ par.minorityWeight ∧ par.minorityWeight ≤ 1)
    (h3 : 2 < y.count a) (hlt : y.count a < y.count b)
    (h : sample defaultChecks d (ismoteAlg par vol dr d knn knnDist) X y = .ok (X', y')) :
    X'.length = y.count a + y.count b ∧ y'.length = X'.length ∧ y'.count b ≤ y'.count a ∧ y'.count a ≤ y'.count b + 1 ∧
      y'.count a + y'.count b = y'.length := by
  obtain ⟨kept, removed, new, h1, h2, h4, _, rfl, rfl, _⟩ := C52_ismote hwf hk hkd hdr hmin hg hvol hmw h3 hlt h
  have hab : a ≠ b := by rintro rfl; omega
  have hla := selectLabel_length hwf.1 a
  have hlb := selectLabel_length hwf.1 b
  rw [selectLabel_eq_classRows] at hla hlb
  have hp := h1.length_eq
  rw [List.length_append, hlb, h2] at hp
  rw [List.count_append, List.count_append, List.count_append, List.count_append]
  simp only [List.length_append, List.count_replicate, List.length_replicate, hla, h4]
  have e1 : (b == a) = false := by simpa using fun h => hab h.symm
  have e2 : (a == b) = false := by simpa using hab
  simp only [e1, e2, beq_self_eq_true, if_true, Bool.false_eq_true, if_false]
  unfold ismoteN at *
  exact ⟨by omega, trivial, by omega, by omega, by omega⟩

/-- With `n_neighbors = 1` nothing is interpolated: every new row is a copy of a minority row. -/
theorem C52_copies {par : IsmoteParams} {knn : Nat → List Row → List Row → List (List Nat)} (hk : KnnQueryOK knn) {d m : Nat}
    {V A : List Row} (hA : ∀ r ∈ A, r.length = d) (h1 : par.nNeighbors = 1) {x : Row}
    (h : IsmoteGenerated par knn d m V A x) : x ∈ A := by
  obtain ⟨j, base, row, vs, nbrs, w0, wr, hb, hrow, hin, hnb, hcx, _⟩ := h
  have hrl := ((hk _ V A (by omega : min V.length (par.nNeighbors + 1) ≤ V.length)).2 row (List.mem_of_getElem? hrow)).1
  have hd2 : row.drop 2 = [] := List.length_eq_zero_iff.1 (by rw [List.length_drop, hrl, h1]; omega)
  have hnil : vs = [] := by
    cases vs with
    | nil => rfl
    | cons v vs => have := hin v (by simp); rw [hd2] at this; simp at this
  subst hnil
  cases hnb
  have hbA := List.mem_of_getElem? hb
  obtain ⟨c1, c2, c3, c4, c5⟩ := hcx
  have hwr : wr = [] := by simpa using c1
  subst hwr
  simp at c3
  have : x = base := by
    apply row_ext c4 (hA _ hbA)
    intro k hk
    rw [c5 k hk, c3]; simp
  rw [this]
  exact hbA

/-- With few minority rows, or equal classes, the input is returned. -/
theorem C52_unchanged {par : IsmoteParams} {vol : List Row → ℚ} {dr : Draws} {d : Nat}
    {knn : Nat → List Row → List Row → List (List Nat)} {knnDist : Nat → List Row → List Row → List (List ℚ)}
    {X : List Row} {y : List Int} {a b : Int} (hwf : WF d X y) (hmin : IsMinority y a b)
    (h : y.count a ≤ 2 ∨ y.count a = y.count b) :
    sample defaultChecks d (ismoteAlg par vol dr d knn knnDist) X y = .ok (X, y) := by
  obtain ⟨s, hs, rfl, rfl⟩ := stats_of_isMinority hmin
  rw [sample_default hs]
  by_cases h2 : y.count s.minLabel ≤ 2
  · rw [if_pos h2]
  · rw [if_neg h2]
    have hla := selectLabel_length hwf.1 s.minLabel
    have hlb := selectLabel_length hwf.1 s.majLabel
    unfold ismoteAlg
    dsimp only
    rw [if_pos (by rw [hla, hlb]; omega)]
    rfl

/-- ISMOTE never raises on a two-class data set. -/
theorem C52_total {par : IsmoteParams} {vol : List Row → ℚ} {dr : Draws} {d : Nat}
    {knn : Nat → List Row → List Row → List (List Nat)} {dist : Row → Row → ℚ}
    {knnDist : Nat → List Row → List Row → List (List ℚ)} {X : List Row} {y : List Int} {a b : Int} (hwf : WF d X y)
    (hk : KnnQueryOK knn) (hkd : AllDistancesOK dist knnDist) (hdr : dr.OK) (hu : ∀ i j, 0 < dr.simplexU i j)
    (hmin : IsMinority y a b) (hkn : 1 ≤ par.nNeighbors) (hd : 1 ≤ par.ss.nDim)
    (hmode : par.ss.simplexSampling = .random ∨ par.ss.simplexSampling = .deterministic ∨
      (par.ss.simplexSampling = .volume ∧ ∀ vs, 0 < vol vs))
    (hwi : par.ss.within = .random ∨ (par.ss.within = .deterministic ∧ par.ss.nDim ≤ 2)) :
    ∃ r, sample defaultChecks d (ismoteAlg par vol dr d knn knnDist) X y = .ok r := by
  obtain ⟨s, hs, rfl, rfl⟩ := stats_of_isMinority hmin
  obtain ⟨hm, hM, hne⟩ := stats_min_mem hs
  rw [sample_default hs]
  by_cases h2 : y.count s.minLabel ≤ 2
  · rw [if_pos h2]; exact ⟨_, rfl⟩
  rw [if_neg h2]
  unfold ismoteAlg
  have hxy := hwf.1
  have hla := selectLabel_length hxy s.minLabel
  have hlb := selectLabel_length hxy s.majLabel
  rw [selectLabel_eq_classRows] at hla hlb
  simp only [selectLabel_eq_classRows]
  set A := classRows X y s.minLabel with hA
  set B := classRows X y s.majLabel with hB
  have hAne : A ≠ [] := by intro h0; rw [h0] at hla; simp at hla; omega
  by_cases hn0 : (B.length - A.length + 1) / 2 = 0
  · rw [if_pos hn0]; exact ⟨_, rfl⟩
  rw [if_neg hn0]
  obtain ⟨kept, removed, hkept, hperm, hrl, _⟩ := ismote_split hkd (A := A) (B := B) hAne ((B.length - A.length + 1) / 2)
    (by omega)
  rw [hkept, ok_bind]
  obtain ⟨hk1, hk1t⟩ := hk (min (kept ++ A).length (par.nNeighbors + 1)) (kept ++ A) A (by omega)
  have hVl : (kept ++ A).length = kept.length + A.length := List.length_append
  obtain ⟨out, hout⟩ := sampleSimplex_ok (ss := par.ss) (vol := vol) (dr := dr) (d := d) (X := A)
    (indices := (knn (min (kept ++ A).length (par.nNeighbors + 1)) (kept ++ A) A).map (fun row => row.drop 1))
    (k := min (kept ++ A).length (par.nNeighbors + 1) - 1) (n := (B.length - A.length + 1) / 2)
    (a := { Xv := some (kept ++ A), vertexWeights := some ((List.replicate kept.length s.majLabel ++
        List.replicate A.length s.minLabel).map
        (fun l => if l = s.minLabel then par.minorityWeight else 1 - par.minorityWeight)) })
    (tableOK_drop hk1t) (by rw [List.length_map, hk1])
    (by intro he; have := congrArg List.length he; rw [List.length_map, hk1] at this; simp at this; exact hAne this)
    (by omega) hd rfl
    (by
      intro ws hws
      injection hws with hws
      subst hws
      simp [List.length_append])
    (by intro hV; cases hV) hmode hdr.choice hu
    (by
      rcases hwi with h | ⟨h, h'⟩
      · exact .inl h
      · exact .inr ⟨h, by omega⟩)
  rw [hout]; exact ⟨_, rfl⟩

/-! ## Concrete cases -/

/-- Distances by brute force. -/
def bruteAllDist (k : Nat) (F Q : List Row) : List (List ℚ) :=
  Q.map (fun q => ((F.map (fun f => sumSquares (Row.sub q f))).insertionSort (· ≤ ·)).take k)

theorem bruteAllDist_ok : AllDistancesOK (fun q f => sumSquares (Row.sub q f)) bruteAllDist := by
  intro F Q
  unfold bruteAllDist
  rw [List.forall₂_map_right_iff, List.forall₂_same]
  intro q _
  rw [List.take_of_length_le (by rw [List.length_insertionSort, List.length_map])]
  exact List.perm_insertionSort _ _

def ismX : List Row := [[0], [1], [2], [3], [10], [4], [12], [13], [14]]
def ismY : List Int := [1, 1, 1, 0, 0, 0, 0, 0, 0]
def ismPar (w : ℚ) : IsmoteParams := { nNeighbors := 3, minorityWeight := w, ss := exPar.ss }

/-- Hypotheses met: the two farthest rows (at 14 and 13) are gone, four rows of the old majority remain. -/
example : WF 1 ismX ismY ∧ IsMinority ismY 1 0 ∧ 2 < ismY.count 1 ∧ ismY.count 1 < ismY.count 0 ∧ KnnQueryOK bruteQuery ∧
    AllDistancesOK (fun q f => sumSquares (Row.sub q f)) bruteAllDist ∧ ismoteN 6 3 = 2 ∧
    (match sample defaultChecks 1 (ismoteAlg (ismPar (1/2)) (fun _ => 1) exDraws 1 bruteQuery bruteAllDist) ismX ismY with
     | .ok r => decide (r.1.take 7 = [[12], [10], [4], [3], [0], [1], [2]] ∧ r.2 = [0, 0, 0, 0, 1, 1, 1, 1, 1] ∧ r.1.length = 9)
     | .error _ => false) = true := by
  refine ⟨⟨by decide, by decide +kernel⟩, ⟨by decide, by decide, by decide, Or.inl (by decide)⟩, by decide, by decide,
    bruteQuery_ok, bruteAllDist_ok, by decide, by decide +kernel⟩

/-- `minority_weight` is only checked to be non-negative. With a weight above one the new rows need not lie between rows of the
data set. -/
theorem C52_weight_above_one : ∃ (par : IsmoteParams) (X X' : List Row) (y y' : List Int) (dr : Draws),
    par.minorityWeight = 4 ∧ WF 1 X y ∧ IsMinority y 1 0 ∧ dr.OK ∧
    sample defaultChecks 1 (ismoteAlg par (fun _ => 1) dr 1 bruteQuery bruteAllDist) X y = .ok (X', y') ∧
    (∀ r ∈ X, ∀ q ∈ r, 4 ≤ q) ∧ ∃ r ∈ X', ∃ q ∈ r, q < 4 := by
  refine ⟨ismPar 4, [[5], [6], [7], [8], [10], [4], [12], [13], [14]],
    [[12], [10], [8], [4], [5], [6], [7], [18 / 5], [18 / 5]], ismY, [0, 0, 0, 0, 1, 1, 1, 1, 1], exDraws, rfl,
    ⟨by decide, by decide +kernel⟩, ⟨by decide, by decide, by decide, Or.inl (by decide)⟩, exDraws_ok, by decide +kernel,
    by decide +kernel, by decide +kernel⟩

end Verif

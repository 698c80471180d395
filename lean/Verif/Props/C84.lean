import Verif.Model.Isomap
import Verif.Props.C01
import Verif.Props.C38

/-!
# C84: ISOMAP_Hybrid

`C84_isomap` says what is returned. `C84_labels` and `C84_tie` show two dependencies on the label values: without a label 0 the cleaned
data set is never used, and after balancing it is the class with the smaller label that is cleaned.
-/

namespace Verif

/-- The rows the neighbourhood cleaning rule removes when `a` is the class to be protected: rows of class `b` among whose neighbours
`a` is the mode, and the neighbours of class `b` of rows of class `a` among whose neighbours `b` is the mode. -/
def CleanedAway (T : List (List Nat)) (ys : List Int) (a b : Int) (i : Nat) : Prop :=
  ys[i]? = some b ∧ (NeighborMode T ys i a ∨
    ∃ j row, ys[j]? = some a ∧ NeighborMode T ys j b ∧ T[j]? = some row ∧ i ∈ row.drop 1)

theorem forall₂_getElem_eq_map {y y' : List Int} {K : List Nat} (h : List.Forall₂ (fun i l => y[i]? = some l) K y') :
    y' = K.map (fun i => y.getD i 0) := by
  induction h with
  | nil => rfl
  | cons h _ ih =>
    rw [List.map_cons, ← ih]
    congr 1
    rw [List.getD_eq_getElem?_getD, h]
    rfl

theorem eq_map_range_getD (y : List Int) : y = (List.range y.length).map (fun i => y.getD i 0) := by
  apply List.ext_getElem
  · simp
  · intro i h1 h2
    rw [List.getElem_map, List.getElem_range, List.getD_eq_getElem?_getD, List.getElem?_eq_getElem h1]
    rfl

theorem SubData.sublist_labels {α : Type} {X X' : List α} {y y' : List Int} {K : List Nat} (h : SubData X y X' y' K)
    (hl : X.length = y.length) : y'.Sublist y := by
  rw [forall₂_getElem_eq_map h.2.2, eq_map_range_getD y]
  have hK := h.1
  rw [hl] at hK
  have := hK.map (fun i => y.getD i 0)
  rw [← eq_map_range_getD y] at this ⊢
  exact this

theorem SubData.count_eq {α : Type} {X X' : List α} {y y' : List Int} {K : List Nat} (h : SubData X y X' y' K)
    (hl : X.length = y.length) {l : Int} (hk : ∀ i, y[i]? = some l → i ∈ K) : y'.count l = y.count l := by
  apply le_antisymm ((h.sublist_labels hl).count_le l)
  have e1 : y.count l = ((List.range y.length).filter (fun i => y.getD i 0 == l)).length := by
    conv_lhs => rw [eq_map_range_getD y]
    unfold List.count
    rw [List.countP_map, List.countP_eq_length_filter]
    rfl
  have e2 : y'.count l = (K.filter (fun i => y.getD i 0 == l)).length := by
    rw [forall₂_getElem_eq_map h.2.2]
    unfold List.count
    rw [List.countP_map, List.countP_eq_length_filter]
    rfl
  rw [e1, e2]
  apply List.Subperm.length_le
  apply List.subperm_of_subset (List.Nodup.filter _ List.nodup_range)
  intro i hi
  rw [List.mem_filter] at hi ⊢
  have hlt := List.mem_range.1 hi.1
  refine ⟨hk i ?_, hi.2⟩
  have h3 : y.getD i 0 = l := by simpa using hi.2
  rw [List.getD_eq_getElem?_getD, List.getElem?_eq_getElem hlt] at h3
  rw [List.getElem?_eq_getElem hlt]
  exact congrArg some h3

/-- **ISOMAP_Hybrid.** The embedded rows are oversampled by SMOTE and cleaned; `a'` and `b'` are the smaller and the larger class after
SMOTE. The cleaned data set is returned if the sum of its labels and the number of its labels 0 are both greater than two, otherwise the
data set before cleaning. -/
theorem C84_isomap {par : SmoteParams} {embed : List Row → List Row} {vol : List Row → ℚ} {dr : Draws} {d c : Nat}
    {knn : Nat → List Row → List (List Nat)} {X : List Row} {y : List Int} {a b : Int} (hemb : WF c (embed X) y)
    (hk : KnnOK knn) (hdr : dr.OK) (hpos : ∀ i j, 0 < dr.simplexU i j) (hg : par.ss.gaussian = .none) (hmin : IsMinority y a b)
    (h2 : 2 < y.count a) (hd : 1 ≤ par.ss.nDim)
    (hmode : par.ss.simplexSampling = .random ∨ par.ss.simplexSampling = .deterministic ∨
      (par.ss.simplexSampling = .volume ∧ ∀ vs, 0 < vol vs))
    (hwi : par.ss.within = .random ∨ (par.ss.within = .deterministic ∧ par.ss.nDim ≤ 2)) :
    ∃ Xs ys Xk yk K a' b' X' y', sample defaultChecks d (isomapAlg par embed vol dr c knn) X y = .ok (X', y') ∧
      SmoteStep c (embed X) y a (requested par.proportion (y.count b) (y.count a)) Xs ys ∧ IsMinority ys a' b' ∧
      SubData Xs ys Xk yk K ∧ (∀ i, Removed Xs K i ↔ CleanedAway (knn 4 Xs) ys a' b' i) ∧
      (yk.sum ≤ 2 ∨ yk.count 0 ≤ 2 → X' = Xs ∧ y' = ys) ∧ (2 < yk.sum → 2 < yk.count 0 → X' = Xk ∧ y' = yk) := by
  have hne := isMinority_ne hmin
  obtain ⟨⟨Xs, ys⟩, hsm⟩ := C01_smote_total (par := par) (vol := vol) hemb hk hdr hpos hmin hd hmode hwi
  obtain ⟨s, hs, rfl, rfl⟩ := stats_of_isMinority hmin
  have hstep := smoteStep_of hemb hk hdr hg hs h2 hsm
  obtain ⟨hl, h4, ⟨s', hs'⟩, htwo⟩ := smoteStep_two hemb hmin h2 hstep
  obtain ⟨Xk, yk, K, hrun, hsub, hrem⟩ := C16_ncr hk hl h4 hs'
  have hmin' : IsMinority ys s'.minLabel s'.majLabel := by
    have hin : s.minLabel ∈ ys ∧ s.majLabel ∈ ys := by
      obtain ⟨new, _, rfl, _⟩ := hstep
      exact ⟨List.mem_append_left _ hmin.1, List.mem_append_left _ hmin.2.1⟩
    have key : ∀ u v, IsMinority ys u v → IsMinority ys s'.minLabel s'.majLabel := by
      intro u v huv
      obtain ⟨s'', e, e1, e2⟩ := stats_of_isMinority huv
      rw [hs'] at e
      injection e with e
      rw [e, e1, e2]
      exact huv
    rcases Nat.lt_trichotomy (ys.count s.minLabel) (ys.count s.majLabel) with h | h | h
    · exact key _ _ ⟨hin.1, hin.2, htwo, Or.inl h⟩
    · rcases lt_or_gt_of_ne hne with h' | h'
      · exact key _ _ ⟨hin.2, hin.1, fun l h => (htwo l h).symm, Or.inr ⟨h.symm, h'⟩⟩
      · exact key _ _ ⟨hin.1, hin.2, htwo, Or.inr ⟨h, h'⟩⟩
    · exact key _ _ ⟨hin.2, hin.1, fun l h => (htwo l h).symm, Or.inl h⟩
  have hcall : sample defaultChecks d (isomapAlg par embed vol dr c knn) X y =
      if yk.sum ≤ 2 ∨ yk.count 0 ≤ 2 then .ok (Xs, ys) else .ok (Xk, yk) := by
    rw [sample_default hs, if_neg (by omega)]
    unfold isomapAlg
    simp only
    rw [hsm, ok_bind, hrun, ok_bind]
    split <;> rfl
  by_cases hc : yk.sum ≤ 2 ∨ yk.count 0 ≤ 2
  · rw [if_pos hc] at hcall
    exact ⟨Xs, ys, Xk, yk, K, _, _, Xs, ys, hcall, hstep, hmin', hsub, hrem, fun _ => ⟨rfl, rfl⟩, fun h5 h6 => by
      rcases hc with hc | hc <;> omega⟩
  · rw [if_neg hc] at hcall
    exact ⟨Xs, ys, Xk, yk, K, _, _, Xk, yk, hcall, hstep, hmin', hsub, hrem, fun h => absurd h hc, fun _ _ => ⟨rfl, rfl⟩⟩

/-- With fewer than three minority rows the rows come back as they are: not embedded. -/
theorem C84_too_few {par : SmoteParams} {embed : List Row → List Row} {vol : List Row → ℚ} {dr : Draws} {d c : Nat}
    {knn : Nat → List Row → List (List Nat)} {X : List Row} {y : List Int} {a b : Int} (hmin : IsMinority y a b) (h2 : y.count a ≤ 2) :
    sample defaultChecks d (isomapAlg par embed vol dr c knn) X y = .ok (X, y) := by
  obtain ⟨s, hs, rfl, rfl⟩ := stats_of_isMinority hmin
  rw [sample_default hs, if_pos h2]

/-- **Without a label 0 nothing is cleaned**: the result is that of SMOTE on the embedded rows. -/
theorem C84_labels {par : SmoteParams} {embed : List Row → List Row} {vol : List Row → ℚ} {dr : Draws} {d c : Nat}
    {knn : Nat → List Row → List (List Nat)} {X : List Row} {y : List Int} {a b : Int} (hemb : WF c (embed X) y)
    (hk : KnnOK knn) (hdr : dr.OK) (hpos : ∀ i j, 0 < dr.simplexU i j) (hg : par.ss.gaussian = .none) (hmin : IsMinority y a b)
    (h2 : 2 < y.count a) (hd : 1 ≤ par.ss.nDim)
    (hmode : par.ss.simplexSampling = .random ∨ par.ss.simplexSampling = .deterministic ∨
      (par.ss.simplexSampling = .volume ∧ ∀ vs, 0 < vol vs))
    (hwi : par.ss.within = .random ∨ (par.ss.within = .deterministic ∧ par.ss.nDim ≤ 2)) (ha : a ≠ 0) (hb : b ≠ 0) :
    ∃ X' y', sample defaultChecks d (isomapAlg par embed vol dr c knn) X y = .ok (X', y') ∧
      SmoteStep c (embed X) y a (requested par.proportion (y.count b) (y.count a)) X' y' := by
  obtain ⟨Xs, ys, Xk, yk, K, a', b', X', y', h1, h3, h4, h5, _, h6, _⟩ :=
    C84_isomap (d := d) hemb hk hdr hpos hg hmin h2 hd hmode hwi
  obtain ⟨_, _, _, htwo⟩ := smoteStep_two hemb hmin h2 h3
  have h0 : yk.count 0 = 0 := by
    rw [List.count_eq_zero]
    intro h
    obtain ⟨i, _, hi⟩ := forall₂_mem_right h5.2.2 h
    rcases htwo 0 (List.mem_of_getElem? hi) with e | e
    · exact ha e.symm
    · exact hb e.symm
  obtain ⟨rfl, rfl⟩ := h6 (Or.inr (by omega))
  exact ⟨_, _, h1, h3⟩

/-- **After balancing the class with the smaller label is cleaned.** If SMOTE makes the classes equal and the minority label is the
smaller one, only minority rows (original and new) are removed. -/
theorem C84_tie {par : SmoteParams} {embed : List Row → List Row} {vol : List Row → ℚ} {dr : Draws} {d c : Nat}
    {knn : Nat → List Row → List (List Nat)} {X : List Row} {y : List Int} {a b : Int} (hemb : WF c (embed X) y)
    (hk : KnnOK knn) (hdr : dr.OK) (hpos : ∀ i j, 0 < dr.simplexU i j) (hg : par.ss.gaussian = .none) (hmin : IsMinority y a b)
    (h2 : 2 < y.count a) (hd : 1 ≤ par.ss.nDim)
    (hmode : par.ss.simplexSampling = .random ∨ par.ss.simplexSampling = .deterministic ∨
      (par.ss.simplexSampling = .volume ∧ ∀ vs, 0 < vol vs))
    (hwi : par.ss.within = .random ∨ (par.ss.within = .deterministic ∧ par.ss.nDim ≤ 2)) (hp : par.proportion = 1) (hab : a < b) :
    ∃ X' y', sample defaultChecks d (isomapAlg par embed vol dr c knn) X y = .ok (X', y') ∧
      y'.count b = y.count b ∧ y'.count a ≤ y.count b := by
  obtain ⟨Xs, ys, Xk, yk, K, a', b', X', y', h1, h3, h4, h5, hrem, h6, h7⟩ :=
    C84_isomap (d := d) hemb hk hdr hpos hg hmin h2 hd hmode hwi
  have hle : y.count a ≤ y.count b := by have := hmin.2.2.2; omega
  have hreq : requested par.proportion (y.count b) (y.count a) = y.count b - y.count a := by
    unfold requested
    rw [hp, mul_one, ← Nat.cast_sub hle, Int.floor_natCast, Int.toNat_natCast]
  obtain ⟨new, eX, eY, hn, _⟩ := h3
  rw [hreq] at eY
  have hne := isMinority_ne hmin
  have ca : ys.count a = y.count b := by
    rw [eY, List.count_append, List.count_replicate_self]; omega
  have cb : ys.count b = y.count b := by
    rw [eY, List.count_append, List.count_replicate, if_neg (by simpa using hne)]; rfl
  have htwo : ∀ l ∈ ys, l = a ∨ l = b := by
    rw [eY]
    intro l hl
    rcases List.mem_append.1 hl with hl | hl
    · exact hmin.2.2.1 l hl
    · exact Or.inl (List.eq_of_mem_replicate hl)
  -- the class that counts as the larger one is `a`
  have hb' : b' = a := by
    rcases htwo b' h4.2.1 with e | e
    · exact e
    · have hne' := isMinority_ne h4
      rcases htwo a' h4.1 with e' | e'
      · exfalso
        rcases h4.2.2.2 with h | h
        · rw [e, e', ca, cb] at h; omega
        · rw [e, e'] at h; omega
      · exact absurd (e'.trans e.symm) hne'
  have hlen : Xs.length = ys.length := by
    rw [eX, eY, List.length_append, List.length_append, List.length_replicate, hemb.1, hn, hreq]
  by_cases hc : yk.sum ≤ 2 ∨ yk.count 0 ≤ 2
  · obtain ⟨rfl, rfl⟩ := h6 hc
    exact ⟨_, _, h1, cb, ca.le⟩
  · obtain ⟨rfl, rfl⟩ := h7 (by omega) (by omega)
    refine ⟨_, _, h1, ?_, ?_⟩
    · rw [← cb]
      refine h5.count_eq hlen ?_
      intro i hi
      by_contra hK
      have := ((hrem i).1 ⟨by rw [hlen]; exact (List.getElem?_eq_some_iff.1 hi).1, hK⟩).1
      rw [hi, hb'] at this
      injection this with this
      exact hne this.symm
    · rw [← ca]
      exact (h5.sublist_labels hlen).count_le a

/-! ## Examples -/

/-- Three rows of class 0 among the rows of class 1. -/
def isX : List Row := [[0], [1], [10], [11], [12], [2], [30], [31], [32], [33]]
def isY : List Int := [0, 0, 0, 1, 1, 0, 1, 1, 1, 1]

/-- **The minority class is cleaned**: with labels 0 (minority) and 1, the minority row 10 and a new row are removed after balancing,
no majority row. -/
theorem C84_minority_removed :
    smoteSample exPar (fun _ => 1) exDraws 1 bruteKnn isX isY = .ok (isX ++ [[34 / 5], [34 / 5]], isY ++ [0, 0]) ∧
    sample defaultChecks 1 (isomapAlg exPar (fun X => X) (fun _ => 1) exDraws 1 bruteKnn) isX isY =
      .ok ([[0], [1], [11], [12], [2], [30], [31], [32], [33], [34 / 5]], [0, 0, 1, 1, 0, 1, 1, 1, 1, 0]) := by
  decide +kernel

example : WF 1 isX isY ∧ IsMinority isY 0 1 ∧ exDraws.OK ∧ (∀ i j, 0 < exDraws.simplexU i j) ∧ KnnOK bruteKnn ∧ exPar.ss.gaussian = .none ∧
    2 < isY.count 0 ∧ 1 ≤ exPar.ss.nDim ∧ exPar.ss.simplexSampling = .random ∧ exPar.ss.within = .random ∧ exPar.proportion = 1 :=
  ⟨⟨by decide, by decide +kernel⟩, ⟨by decide, by decide, by decide, Or.inl (by decide)⟩, exDraws_ok, fun i j => by simp only [exDraws]; positivity,
    bruteKnn_ok, rfl, by decide, by decide, rfl, rfl, rfl⟩

end Verif

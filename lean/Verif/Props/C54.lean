import Verif.Model.Regions
import Verif.Props.C45
import Verif.Props.C48
import Verif.Lemmas.Hull
import Verif.Lemmas.SamplerTotal
import Verif.Lemmas.SimplexAlg

/-!
# C54: distance_SMOTE samples between a minority row and the mean of its neighbours
-/

namespace Verif

/-! ## Specification -/

/-- `x` is a point of the closed segment between `p` and `q`. -/
def OnSegment (d : Nat) (p q x : Row) : Prop :=
  x.length = d ∧ ∃ t : ℚ, 0 ≤ t ∧ t ≤ 1 ∧ ∀ k, k < d → x.getD k 0 = (1 - t) * p.getD k 0 + t * q.getD k 0

/-- `m` is the mean of the rows which the list `row` of nearest rows of a row names after its first entry. -/
def IsNeighborMean (d : Nat) (A : List Row) (row : List Nat) (m : Row) : Prop :=
  ∃ nb : List Row, nb ≠ [] ∧ List.Forall₂ (fun i r => A[i]? = some r) (row.drop 1) nb ∧ IsMean d nb m

/-- What distance_SMOTE generates: for a minority row `p` with the list `row` of its nearest minority rows, a convex combination
of the mean of the neighbours of `p`, of `p` itself and of the first `n_dim - 2` neighbours. -/
def DistanceGenerated (par : NbParams) (knn : Nat → List Row → List Row → List (List Nat)) (d : Nat) (A : List Row)
    (x : Row) : Prop :=
  ∃ (j : Nat) (p m : Row) (row : List Nat) (others : List Row) (w : List ℚ), A[j]? = some p ∧
    (knn (min A.length (par.nNeighbors + 1)) A A)[j]? = some row ∧ IsNeighborMean d A row m ∧
    (∀ q ∈ others, q = p ∨ ∃ i ∈ (row.take (par.ss.nDim - 1)).drop 1, A[i]? = some q) ∧ IsConvexComb d w (m :: others) x

/-! ## Helpers -/

theorem isMean_inHull {d : Nat} {nb : List Row} {m : Row} (hne : nb ≠ []) (h : IsMean d nb m) : InHull d nb m := by
  have hp : (0 : ℚ) < nb.length := by exact_mod_cast List.length_pos_iff.2 hne
  refine ⟨nb, List.replicate nb.length (1 / (nb.length : ℚ)), fun v hv => hv, by simp, ?_, ?_, h.1, ?_⟩
  · intro c hc
    rw [List.eq_of_mem_replicate hc]
    positivity
  · rw [List.sum_replicate, nsmul_eq_mul]
    field_simp
  · intro k hk
    rw [wsum_replicate, ← h.2 k hk]
    field_simp

theorem neighborMean_ok {d : Nat} {A : List Row} {row : List Nat} {m : Row} (hA : ∀ r ∈ A, r.length = d)
    (h : neighborMean d A row = .ok m) : IsNeighborMean d A row m := by
  unfold neighborMean at h
  obtain ⟨rows, hr, h⟩ := bind_ok.1 h
  by_cases h0 : rows.length = 0
  · rw [if_pos h0] at h; cases h
  · rw [if_neg h0] at h
    have h := pure_ok.1 h
    subst h
    have hf := takeRows_forall hr
    have hne : rows ≠ [] := fun h => h0 (by rw [h]; rfl)
    refine ⟨rows, hne, hf, meanRow_isMean hne ?_⟩
    intro r hr
    obtain ⟨i, _, hi⟩ := forall2_mem_right hf hr
    exact hA r (List.mem_of_getElem? hi)

theorem neighborMean_total {d : Nat} {A : List Row} {row : List Nat} (h : ∀ i ∈ row, i < A.length) (h2 : 2 ≤ row.length) :
    ∃ m, neighborMean d A row = .ok m := by
  obtain ⟨rows, hr⟩ := takeRows_ok_of_lt (X := A) (idx := row.drop 1) (fun i hi => h i (List.mem_of_mem_drop hi))
  unfold neighborMean
  rw [hr, ok_bind, if_neg]
  · exact ⟨_, rfl⟩
  · rw [takeRows_length hr, List.length_drop]; omega

theorem distanceTable_get {nDim : Nat} {ind : List (List Nat)} {j : Nat} {r : List Nat}
    (h : (distanceTable nDim ind)[j]? = some r) :
    ∃ row, ind[j]? = some row ∧ r = j :: j :: (row.take (nDim - 1)).drop 1 := by
  unfold distanceTable at h
  rw [List.getElem?_map, List.getElem?_zipIdx] at h
  cases hi : ind[j]? with
  | none => rw [hi] at h; simp at h
  | some row =>
    rw [hi] at h
    simp only [Option.map_some, Option.some.injEq, Nat.zero_add] at h
    exact ⟨row, rfl, h.symm⟩

/-- A convex combination of a row and of copies of another row is on the segment between them. -/
theorem convex_two {d : Nat} {m p x : Row} {others : List Row} {w : List ℚ} (ho : ∀ q ∈ others, q = p)
    (h : IsConvexComb d w (m :: others) x) : OnSegment d p m x := by
  obtain ⟨h1, h2, h3, h4, h5⟩ := h
  cases w with
  | nil => simp at h1
  | cons c w =>
    have hs : ∀ (w : List ℚ) (o : List Row), w.length = o.length → (∀ q ∈ o, q = p) → ∀ k,
        (List.zipWith (fun c (r : Row) => c * r.getD k 0) w o).sum = w.sum * p.getD k 0 := by
      intro w
      induction w with
      | nil => intro o _ _ k; simp
      | cons a w ih =>
        intro o hl ho k
        cases o with
        | nil => simp at hl
        | cons q o =>
          rw [List.zipWith_cons_cons, List.sum_cons, List.sum_cons, ih o (by simpa using hl) (fun q hq => ho q (by simp [hq])),
            ho q (by simp)]
          ring
    rw [List.sum_cons] at h3
    have hn : 0 ≤ w.sum := List.sum_nonneg (fun x hx => h2 x (by simp [hx]))
    refine ⟨h4, c, h2 c (by simp), by linarith, fun k hk => ?_⟩
    rw [h5 k hk, List.zipWith_cons_cons, List.sum_cons, hs w others (by simpa using h1) ho, ← h3]
    ring

/-! ## The oversampler -/

/-- **distance_SMOTE**: the requested number of rows, each generated from a minority row, the mean of its neighbours and, for
`n_dim` above two, some of the neighbours. -/
theorem C54_distance {par : NbParams} {vol : List Row → ℚ} {dr : Draws} {d : Nat}
    {knn : Nat → List Row → List Row → List (List Nat)} {X X' : List Row} {y y' : List Int} {a b : Int} (hwf : WF d X y)
    (hk : KnnQueryOK knn) (hdr : dr.OK) (hmin : IsMinority y a b) (hg : par.ss.gaussian = .none) (h3 : 2 < y.count a)
    (h : sample defaultChecks d (distanceSmoteAlg par vol dr d knn) X y = .ok (X', y')) :
    OversampledBy X y a (requested par.proportion (y.count b) (y.count a))
      (DistanceGenerated par knn d (classRows X y a)) X' y' := by
  obtain ⟨s, hs, rfl, rfl⟩ := stats_of_isMinority hmin
  obtain ⟨hm, hM, _⟩ := stats_min_mem hs
  rw [sample_default hs, if_neg (by omega)] at h
  unfold distanceSmoteAlg at h
  rw [stats_count hs hm, stats_count hs hM, detN_eq_requested, ok_bind] at h
  have hAd : ∀ r ∈ classRows X y s.minLabel, r.length = d := by
    intro r hr; rw [← selectLabel_eq_classRows] at hr; exact mem_selectLabel_length hwf hr
  simp only [selectLabel_eq_classRows] at h
  set A := classRows X y s.minLabel with hA
  split at h
  · rename_i h0
    rw [h0]
    obtain ⟨rfl, rfl⟩ := Prod.mk.inj (pure_ok.1 h)
    exact oversampledBy_none _ _ _ _
  obtain ⟨means, hmeans, h⟩ := bind_ok.1 h
  obtain ⟨out, hout, h⟩ := bind_ok.1 h
  have h := pure_ok.1 h
  have hkl := (hk (min A.length (par.nNeighbors + 1)) A A (by omega)).1
  have hml : means.length = A.length := by rw [mapM_ok_length hmeans, hkl]
  have hget : ∀ (j : Nat) (row : List Nat) (m : Row), (knn (min A.length (par.nNeighbors + 1)) A A)[j]? = some row →
      means[j]? = some m → IsNeighborMean d A row m := by
    intro j row m hj hm
    obtain ⟨m', h1, h2⟩ := mapM_ok_get hmeans hj
    rw [h1] at hm
    injection hm with hm
    subst hm
    exact neighborMean_ok hAd h2
  obtain ⟨g1, g2⟩ := sampleSimplex_plain (fun r hr => by
      obtain ⟨row, _, hr⟩ := mapM_ok_mem hmeans hr
      obtain ⟨_, _, _, hi⟩ := neighborMean_ok hAd hr
      exact hi.1)
    (by intro V hV; injection hV with hV; subst hV; exact hAd) (by intro V hV; cases hV) (by intro hV; cases hV) hdr
    (by rw [hml]; unfold distanceTable; rw [List.length_map, List.length_zipIdx, hkl]) hg hout
  refine withSamples_oversampledBy g1 ?_ h
  intro x hx
  obtain ⟨j, m, r, nbIdx, nbrs, w, h1, h2, h3, h4, h5⟩ := g2 x hx
  obtain ⟨row, hrow, rfl⟩ := distanceTable_get h2
  have hj : j < A.length := by
    have := (List.getElem?_eq_some_iff.1 h1).1
    omega
  refine ⟨j, A[j], m, row, nbrs, w, List.getElem?_eq_getElem hj, hrow, hget j row m hrow h1, ?_, h5⟩
  intro q hq
  obtain ⟨i, hi, hiq⟩ := forall2_mem_right h4 hq
  have := h3 i hi
  rcases List.mem_cons.1 this with rfl | this
  · left
    exact (Option.some.inj ((List.getElem?_eq_getElem hj).symm.trans hiq)).symm
  rcases List.mem_cons.1 this with rfl | this
  · left
    exact (Option.some.inj ((List.getElem?_eq_getElem hj).symm.trans hiq)).symm
  · exact .inr ⟨i, this, hiq⟩

/-- With the default `n_dim = 2` every new row is on the segment between a minority row and the mean of its neighbours. -/
theorem C54_segment {par : NbParams} {knn : Nat → List Row → List Row → List (List Nat)} {d : Nat} {A : List Row} {x : Row}
    (h2 : par.ss.nDim ≤ 2) (h : DistanceGenerated par knn d A x) :
    ∃ (j : Nat) (p m : Row) (row : List Nat), A[j]? = some p ∧
      (knn (min A.length (par.nNeighbors + 1)) A A)[j]? = some row ∧ IsNeighborMean d A row m ∧ OnSegment d p m x := by
  obtain ⟨j, p, m, row, others, w, e1, e2, e3, e4, e5⟩ := h
  refine ⟨j, p, m, row, e1, e2, e3, convex_two ?_ e5⟩
  intro q hq
  rcases e4 q hq with h | ⟨i, hi, _⟩
  · exact h
  · have : ((row.take (par.ss.nDim - 1)).drop 1) = [] := by
      apply List.length_eq_zero_iff.1
      rw [List.length_drop, List.length_take]
      omega
    rw [this] at hi
    simp at hi

/-- Every new row is in the convex hull of the minority rows. -/
theorem C54_hull {par : NbParams} {knn : Nat → List Row → List Row → List (List Nat)} {d : Nat} {A : List Row} {x : Row}
    (hA : ∀ r ∈ A, r.length = d) (h : DistanceGenerated par knn d A x) : InHull d A x := by
  obtain ⟨j, p, m, row, others, w, e1, _, ⟨nb, hne, hnb, hm⟩, e4, e5⟩ := h
  refine InHull.trans ⟨m :: others, w, fun v hv => hv, e5⟩ ?_
  intro t ht
  rcases List.mem_cons.1 ht with rfl | ht
  · refine (isMean_inHull hne hm).mono ?_
    intro r hr
    obtain ⟨i, _, hi⟩ := forall2_mem_right hnb hr
    exact List.mem_of_getElem? hi
  · rcases e4 t ht with rfl | ⟨i, _, hi⟩
    · exact inHull_self (List.mem_of_getElem? e1) (hA _ (List.mem_of_getElem? e1))
    · exact inHull_self (List.mem_of_getElem? hi) (hA _ (List.mem_of_getElem? hi))

/-- distance_SMOTE never raises on a two-class data set, and no NaN arises: every minority row has a neighbour. -/
theorem C54_total {par : NbParams} {vol : List Row → ℚ} {dr : Draws} {d : Nat}
    {knn : Nat → List Row → List Row → List (List Nat)} {X : List Row} {y : List Int} {a b : Int} (hwf : WF d X y)
    (hk : KnnQueryOK knn) (hdr : dr.OK) (hu : ∀ i j, 0 < dr.simplexU i j) (hmin : IsMinority y a b)
    (hkn : 1 ≤ par.nNeighbors) (hd : 1 ≤ par.ss.nDim)
    (hmode : par.ss.simplexSampling = .random ∨ par.ss.simplexSampling = .deterministic ∨
      (par.ss.simplexSampling = .volume ∧ ∀ vs, 0 < vol vs))
    (hwi : par.ss.within = .random ∨ (par.ss.within = .deterministic ∧ par.ss.nDim ≤ 2)) :
    ∃ r, sample defaultChecks d (distanceSmoteAlg par vol dr d knn) X y = .ok r := by
  obtain ⟨s, hs, rfl, rfl⟩ := stats_of_isMinority hmin
  obtain ⟨hm, hM, _⟩ := stats_min_mem hs
  rw [sample_default hs]
  by_cases h2 : y.count s.minLabel ≤ 2
  · rw [if_pos h2]; exact ⟨_, rfl⟩
  rw [if_neg h2]
  unfold distanceSmoteAlg
  rw [stats_count hs hm, stats_count hs hM, detN_eq_requested, ok_bind]
  have hla := selectLabel_length hwf.1 s.minLabel
  simp only [selectLabel_eq_classRows] at hla ⊢
  set A := classRows X y s.minLabel with hA
  split
  · exact ⟨_, rfl⟩
  obtain ⟨hk1, hk2⟩ := hk (min A.length (par.nNeighbors + 1)) A A (by omega)
  set k := min A.length (par.nNeighbors + 1) with hkd
  have hk2' : 2 ≤ k := by omega
  obtain ⟨means, hmeans⟩ : ∃ means, (knn k A A).mapM (neighborMean d A) = .ok means :=
    mapM_exists_ok (fun row hr => neighborMean_total (hk2 row hr).2 (by rw [(hk2 row hr).1]; exact hk2'))
  rw [hmeans, ok_bind]
  have hml : means.length = A.length := by rw [mapM_ok_length hmeans, hk1]
  have htl : (distanceTable par.ss.nDim (knn k A A)).length = A.length := by
    unfold distanceTable; rw [List.length_map, List.length_zipIdx, hk1]
  have htab : TableOK (distanceTable par.ss.nDim (knn k A A)) (2 + (min k (par.ss.nDim - 1) - 1)) A.length := by
    intro r hr
    obtain ⟨j, hj⟩ := List.mem_iff_getElem?.1 hr
    have hjl := (List.getElem?_eq_some_iff.1 hj).1
    obtain ⟨row, hrow, rfl⟩ := distanceTable_get hj
    obtain ⟨r1, r2⟩ := hk2 row (List.mem_of_getElem? hrow)
    refine ⟨by simp only [List.length_cons, List.length_drop, List.length_take, r1]; omega, ?_⟩
    intro i hi
    simp only [List.mem_cons] at hi
    rcases hi with rfl | rfl | hi
    · omega
    · omega
    · exact r2 i (List.mem_of_mem_take (List.mem_of_mem_drop hi))
  obtain ⟨out, hout⟩ := sampleSimplex_ok (ss := par.ss) (vol := vol) (dr := dr) (d := d) (X := means)
    (indices := distanceTable par.ss.nDim (knn k A A)) (k := 2 + (min k (par.ss.nDim - 1) - 1))
    (n := requested par.proportion (y.count s.majLabel) (y.count s.minLabel)) (a := { Xv := some A })
    htab (by rw [htl, hml])
    (by intro he; rw [he, List.length_nil] at htl; omega)
    (by omega) hd rfl (by intro ws hws; cases hws) (by intro hV; cases hV) hmode hdr.choice hu
    (by
      rcases hwi with h | ⟨h, h'⟩
      · exact .inl h
      · exact .inr ⟨h, by omega⟩)
  rw [hout]; exact ⟨_, rfl⟩

/-! ## Concrete case -/

def dstPar : NbParams := { proportion := 1, nNeighbors := 2, ss := exPar.ss }

/-- Hypotheses met; the rows 0, 1, 2 and 6 have neighbour means 3/2, 1, 1/2 and 3/2. -/
example : WF 1 [[0], [1], [2], [6], [10], [4], [12], [13], [14]] [1, 1, 1, 1, 0, 0, 0, 0, 0] ∧
    IsMinority [1, 1, 1, 1, 0, 0, 0, 0, 0] 1 0 ∧ KnnQueryOK bruteQuery ∧ dstPar.ss.nDim ≤ 2 ∧
    (bruteQuery 3 [[0], [1], [2], [6]] [[0], [1], [2], [6]]).mapM (neighborMean 1 [[0], [1], [2], [6]]) =
      .ok [[3/2], [1], [1/2], [3/2]] ∧
    (match sample defaultChecks 1 (distanceSmoteAlg dstPar (fun _ => 1) exDraws 1 bruteQuery)
        [[0], [1], [2], [6], [10], [4], [12], [13], [14]] [1, 1, 1, 1, 0, 0, 0, 0, 0] with
     | .ok r => decide (r.1.length = 10)
     | .error _ => false) = true := by
  refine ⟨⟨by decide, by decide +kernel⟩, ⟨by decide, by decide, by decide, Or.inl (by decide)⟩, bruteQuery_ok,
    by decide, by decide +kernel, by decide +kernel⟩

end Verif

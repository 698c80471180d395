import Verif.Lemmas.Reach
import Verif.Props.C61

/-!
# C129 Exactly which rows can be generated

The random numbers are existentially quantified: a result can be returned if some draws of the generator lead to it.
-/

namespace Verif

/-- **SMOTE** with random selection and random points: the rows that can be added are exactly the lists of as many rows as requested,
each of them any point (border included) of any simplex spanned by a minority row and `n_dim - 1` of its neighbours. -/
theorem C129_smote {par : SmoteParams} {vol : List Row → ℚ} {d : Nat} {knn : Nat → List Row → List (List Nat)} {X : List Row}
    {y : List Int} {a b : Int} (hwf : WF d X y) (hk : KnnOK knn) (hmin : IsMinority y a b) (hvol : ∀ vs, 0 ≤ vol vs)
    (h3 : 2 < y.count a) (hd : 1 ≤ par.ss.nDim) (hmode : par.ss.simplexSampling = .random) (hwi : par.ss.within = .random)
    (hg : par.ss.gaussian = .none) (new : List Row) :
    let A := classRows X y a
    let k := min A.length (par.nNeighbors + 1)
    (∃ dr : Draws, dr.OK ∧ smoteSample par vol dr d knn X y = .ok (X ++ new, y ++ List.replicate new.length a)) ↔
      new.length = requested par.proportion (y.count b) (y.count a) ∧
      ∀ x ∈ new, SimplexOf d (min par.ss.nDim k) A A (knn k A) (fun _ => True) x := by
  intro A k
  obtain ⟨s, hs, rfl, rfl⟩ := stats_of_isMinority hmin
  obtain ⟨hm, hM, _⟩ := stats_min_mem hs
  have hAl : A.length = y.count s.minLabel := classRows_length hwf.1 _
  have hAd : ∀ r ∈ A, r.length = d := fun r hr => hwf.2 r (mem_of_mem_classRows hr)
  obtain ⟨k1, k2⟩ := hk k A (Nat.min_le_left _ _)
  set n := requested par.proportion (y.count s.majLabel) (y.count s.minLabel) with hn
  have heq : ∀ dr, smoteSample par vol dr d knn X y = if n = 0 then .ok (X, y) else (do
      let samples ← sampleSimplex par.ss vol dr d A (knn k A) k n {}
      return (X ++ samples, y ++ List.replicate n s.minLabel)) := by
    intro dr
    unfold smoteSample
    rw [sample_default hs, if_neg (by omega)]
    unfold smoteAlg
    rw [stats_count hs hm, stats_count hs hM, detN_eq_requested, ok_bind]
    split
    · rfl
    · dsimp only
      rw [selectLabel_eq_classRows]
  have hcase : ∀ dr, (smoteSample par vol dr d knn X y = .ok (X ++ new, y ++ List.replicate new.length s.minLabel)) ↔
      sampleSimplex par.ss vol dr d A (knn k A) k n {} = .ok new ∧ new.length = n := by
    intro dr
    rw [heq dr]
    split
    · rename_i h0
      rw [h0]
      have : sampleSimplex par.ss vol dr d A (knn k A) k 0 {} = .ok [] := by unfold sampleSimplex; rw [if_pos rfl]; rfl
      rw [this]
      constructor
      · intro h
        injection h with h
        have := congrArg (fun p : List Row × List Int => p.1) h
        simp only [List.self_eq_append_right] at this
        exact ⟨by rw [this], by rw [this]; rfl⟩
      · rintro ⟨h, _⟩
        injection h with h
        rw [← h]
        simp
    · constructor
      · intro h
        obtain ⟨out, hout, h⟩ := bind_ok.1 h
        rw [pure_ok, Prod.mk.injEq] at h
        have h1 := List.append_cancel_left h.1
        have h2 := congrArg List.length (List.append_cancel_left h.2)
        rw [List.length_replicate, List.length_replicate] at h2
        exact ⟨by rw [← h1]; exact hout, h2.symm⟩
      · rintro ⟨h, hl⟩
        rw [h, ok_bind, hl]
        rfl
  constructor
  · rintro ⟨dr, hdr, h⟩
    obtain ⟨hout, hl⟩ := (hcase dr).1 h
    refine ⟨hl, fun x hx => ?_⟩
    obtain ⟨_, g2⟩ := sampleSimplex_simplexOf hAd (by intro V hV; cases hV) rfl (by intro hV; cases hV) hdr (le_of_eq k1) hg
      (by intro w hw; cases hw) rfl hvol hout
    obtain ⟨b, base, row, nbIdx, nbrs, wt, h1, _, h3⟩ := g2 x hx
    exact ⟨b, base, row, nbIdx, nbrs, wt, h1, trivial, h3⟩
  · rintro ⟨hl, hx⟩
    obtain ⟨dr, hdr, hout⟩ := sampleSimplex_reaches (ss := par.ss) (vol := vol) (bw := none) (Xv := none) (out := new) (n := n) hAd
      (by intro V hV; cases hV) k2 (le_of_eq k1) (by apply List.length_pos_iff.1; rw [k1]; omega) (by omega) hd hmode hwi hg
      (by intro w hw; cases hw) hl (fun x h => by
        obtain ⟨b, base, row, nbIdx, nbrs, wt, h1, _, h3⟩ := hx x h
        exact ⟨b, base, row, nbIdx, nbrs, wt, h1, (by intro w hw; cases hw), h3⟩)
    exact ⟨dr, hdr, (hcase dr).2 ⟨hout, hl⟩⟩

/-- With the default dimension two: every point of the segment from a minority row to any of its neighbours, both ends included, can
be the value of all new rows. -/
theorem C129_smote_segment {par : SmoteParams} {vol : List Row → ℚ} {d : Nat} {knn : Nat → List Row → List (List Nat)} {X : List Row}
    {y : List Int} {a b : Int} (hwf : WF d X y) (hk : KnnOK knn) (hmin : IsMinority y a b) (hvol : ∀ vs, 0 ≤ vol vs)
    (h3 : 2 < y.count a) (hd : par.ss.nDim = 2) (hmode : par.ss.simplexSampling = .random) (hwi : par.ss.within = .random)
    (hg : par.ss.gaussian = .none) {i j : Nat} {p q : Row} {row : List Nat} {t : ℚ} (hp : (classRows X y a)[i]? = some p)
    (hq : (classRows X y a)[j]? = some q)
    (hrow : (knn (min (classRows X y a).length (par.nNeighbors + 1)) (classRows X y a))[i]? = some row) (hj : j ∈ row.drop 1)
    (h0 : 0 ≤ t) (h1 : t ≤ 1) :
    ∃ dr : Draws, dr.OK ∧ smoteSample par vol dr d knn X y =
      .ok (X ++ List.replicate (requested par.proportion (y.count b) (y.count a)) (Row.add p (Row.smul t (Row.sub q p))),
        y ++ List.replicate (requested par.proportion (y.count b) (y.count a)) a) := by
  have hAl : (classRows X y a).length = y.count a := classRows_length hwf.1 _
  have hAd : ∀ r ∈ classRows X y a, r.length = d := fun r hr => hwf.2 r (mem_of_mem_classRows hr)
  obtain ⟨_, k2⟩ := hk (min (classRows X y a).length (par.nNeighbors + 1)) (classRows X y a) (Nat.min_le_left _ _)
  have hrl := (k2 row (List.mem_of_getElem? hrow)).1
  have hdl := List.length_pos_of_mem hj
  rw [List.length_drop, hrl] at hdl
  have key := (C129_smote hwf hk hmin hvol h3 (by omega) hmode hwi hg
    (List.replicate (requested par.proportion (y.count b) (y.count a)) (Row.add p (Row.smul t (Row.sub q p))))).2
    ⟨by simp, fun x hx => by
      rw [List.eq_of_mem_replicate hx]
      refine ⟨i, p, row, [j], [q], [1 - t, t], hp, trivial, hrow, List.singleton_sublist.2 hj, ?_,
        List.Forall₂.cons hq List.Forall₂.nil,
        segment_convex (hAd p (List.mem_of_getElem? hp)) (hAd q (List.mem_of_getElem? hq)) h0 h1 rfl⟩
      rw [hd, List.length_singleton]
      omega⟩
  rw [List.length_replicate] at key
  exact key

theorem weightedTail_iff {ss : SSParams} {nNeighbors : Nat} {vol : List Row → ℚ} {d : Nat}
    {knn : Nat → List Row → List Row → List (List Nat)} {w : List ℚ} {X : List Row} {y : List Int} {a : Int} {n : Nat}
    (hwf : WF d X y) (hk : KnnQueryOK knn) (hvol : ∀ vs, 0 ≤ vol vs) (hA : classRows X y a ≠ []) (hd : 1 ≤ ss.nDim)
    (hmode : ss.simplexSampling = .random) (hwi : ss.within = .random) (hg : ss.gaussian = .none)
    (hwl : w.length = (classRows X y a).length) (hw0 : ∀ x ∈ w, 0 ≤ x) (hws : 0 < w.sum) (new : List Row) :
    (∃ dr : Draws, dr.OK ∧ weightedTail ss nNeighbors vol dr d knn w X y a n =
      .ok (X ++ new, y ++ List.replicate new.length a)) ↔
      new.length = n ∧ ∀ x ∈ new, SimplexOf d (min ss.nDim (min (classRows X y a).length (nNeighbors + 1))) (classRows X y a)
        (classRows X y a) (knn (min (classRows X y a).length (nNeighbors + 1)) (classRows X y a) (classRows X y a))
        (fun b => ∃ q, w[b]? = some q ∧ 0 < q) x := by
  constructor
  · rintro ⟨dr, hdr, h⟩
    obtain ⟨⟨new', e1, e2, e3, e4⟩, _⟩ := weightedTail_sound hwf hk hdr hg hvol hwl hw0 h
    rw [List.append_cancel_left e1]
    exact ⟨e3, e4⟩
  · rintro ⟨hl, hx⟩
    obtain ⟨k1, k2⟩ := hk (min (classRows X y a).length (nNeighbors + 1)) (classRows X y a) (classRows X y a) (Nat.min_le_left _ _)
    have hpos := List.length_pos_iff.2 hA
    obtain ⟨dr, hdr, hout⟩ := sampleSimplex_reaches (ss := ss) (vol := vol) (bw := some w) (Xv := none) (out := new) (n := n)
      (fun r hr => hwf.2 r (mem_of_mem_classRows hr))
      (by intro V hV; cases hV) k2 (le_of_eq k1) (by apply List.length_pos_iff.1; rw [k1]; omega) (by omega) hd hmode hwi hg
      (by intro w' hw'; injection hw' with hw'; subst hw'; exact ⟨by rw [hwl, k1], hw0, hws⟩) hl (fun x h => by
        obtain ⟨b, base, row, nbIdx, nbrs, wt, h1, h2, h3⟩ := hx x h
        exact ⟨b, base, row, nbIdx, nbrs, wt, h1, (by intro w' hw'; injection hw' with hw'; subst hw'; exact h2), h3⟩)
    refine ⟨dr, hdr, ?_⟩
    unfold weightedTail
    dsimp only
    rw [hout, ok_bind]
    rfl

/-- **MCT**: the same with the bases of positive share only. -/
theorem C129_mct {par : NbParams} {dist : Row → Row → ℚ} {vol : List Row → ℚ} {d : Nat}
    {knn : Nat → List Row → List Row → List (List Nat)} {X : List Row} {y : List Int} {a b : Int} (hwf : WF d X y)
    (hk : KnnQueryOK knn) (hmin : IsMinority y a b) (hdist : ∀ p q, 0 ≤ dist p q) (hvol : ∀ vs, 0 ≤ vol vs) (h3 : 2 < y.count a)
    (hd : 1 ≤ par.ss.nDim) (hmode : par.ss.simplexSampling = .random) (hwi : par.ss.within = .random)
    (hg : par.ss.gaussian = .none) (hn : 0 < requested par.proportion (y.count b) (y.count a)) (new : List Row) :
    let A := classRows X y a
    let k := min A.length (par.nNeighbors + 1)
    (∃ dr : Draws, dr.OK ∧ sample defaultChecks d (mctAlg par dist vol dr d knn) X y =
      .ok (X ++ new, y ++ List.replicate new.length a)) ↔
      new.length = requested par.proportion (y.count b) (y.count a) ∧
      ∃ c, c = medianRow d A ∧ IsMedianRow d A c ∧ ∀ x ∈ new, SimplexOf d (min par.ss.nDim k) A A (knn k A A)
        (fun b => ∃ q, (shares (mctSpec dist A c))[b]? = some q ∧ 0 < q) x := by
  intro A k
  have hAl : A.length = y.count a := classRows_length hwf.1 _
  have hA : A ≠ [] := List.length_pos_iff.1 (by omega)
  simp only [mct_eq hmin h3 hn, mctWeights_eq]
  rw [weightedTail_iff hwf hk hvol hA hd hmode hwi hg (by rw [shares_length, mctSpec, List.length_map])
    (shares_nonneg (mctSpec_nonneg hdist _ _)) (by
      rw [shares_sum]
      · norm_num
      · apply List.length_pos_iff.1
        rw [mctSpec, List.length_map]; exact List.length_pos_iff.2 hA) new]
  constructor
  · rintro ⟨h1, h2⟩
    exact ⟨h1, _, rfl, medianRow_isMedianRow d hA, h2⟩
  · rintro ⟨h1, c, rfl, _, h2⟩
    exact ⟨h1, h2⟩

/-- **Edge_Det_SMOTE**: the same with the bases that stand on an edge in some attribute. -/
theorem C129_edge {par : NbParams} {sqrt : ℚ → ℚ} {vol : List Row → ℚ} {d : Nat}
    {knn : Nat → List Row → List Row → List (List Nat)} {X : List Row} {y : List Int} {a b : Int} (hwf : WF d X y)
    (hk : KnnQueryOK knn) (hmin : IsMinority y a b) (hs : SqrtOK sqrt) (hvol : ∀ vs, 0 ≤ vol vs) (h3 : 2 < y.count a)
    (hd : 1 ≤ par.ss.nDim) (hmode : par.ss.simplexSampling = .random) (hwi : par.ss.within = .random)
    (hg : par.ss.gaussian = .none) (hn : 0 < requested par.proportion (y.count b) (y.count a)) (new : List Row) :
    let A := classRows X y a
    let k := min A.length (par.nNeighbors + 1)
    (∃ dr : Draws, dr.OK ∧ sample defaultChecks d (edgeDetAlg par sqrt vol dr d knn) X y =
      .ok (X ++ new, y ++ List.replicate new.length a)) ↔
      new.length = requested par.proportion (y.count b) (y.count a) ∧
      ∀ x ∈ new, SimplexOf d (min par.ss.nDim k) A A (knn k A A) (fun b => ∃ q, (edgeSpec sqrt d X y a)[b]? = some q ∧ 0 < q) x := by
  intro A k
  have hAl : A.length = y.count a := classRows_length hwf.1 _
  have hA : A ≠ [] := List.length_pos_iff.1 (by omega)
  have hp : 0 < (edgeSpec sqrt d X y a).sum := edgeSpec_sum_pos hs (by omega)
  simp only [edgeDet_eq hs hwf.1 hmin h3 hn]
  rw [weightedTail_iff hwf hk hvol hA hd hmode hwi hg (by rw [List.length_map, edgeSpec_length]; exact hAl.symm) (by
      intro x hx
      obtain ⟨q, hq, rfl⟩ := List.mem_map.1 hx
      exact div_nonneg (edgeSpec_nonneg hs q hq) hp.le) (by rw [sum_map_div, div_self hp.ne']; norm_num) new]
  have hiff : ∀ b : Nat, (∃ q, ((edgeSpec sqrt d X y a).map (fun x => x / (edgeSpec sqrt d X y a).sum))[b]? = some q ∧ 0 < q) ↔
      ∃ q, (edgeSpec sqrt d X y a)[b]? = some q ∧ 0 < q := by
    intro b
    constructor
    · rintro ⟨q, hq, hq0⟩
      rw [List.getElem?_map, Option.map_eq_some_iff] at hq
      obtain ⟨r, hr, rfl⟩ := hq
      exact ⟨r, hr, (div_pos_iff_of_pos_right hp).1 hq0⟩
    · rintro ⟨q, hq, hq0⟩
      exact ⟨_, by rw [List.getElem?_map, hq]; rfl, div_pos hq0 hp⟩
  simp only [hiff]
  rfl

/-! ## The hypotheses are met -/

example : WF 2 exX exY ∧ KnnOK exKnn ∧ IsMinority exY 1 0 ∧ 2 < exY.count 1 ∧ exPar.ss.nDim = 2 ∧
    exPar.ss.simplexSampling = .random ∧ exPar.ss.within = .random ∧ exPar.ss.gaussian = .none ∧
    0 < requested exPar.proportion (exY.count 0) (exY.count 1) ∧
    (∃ row, (exKnn (min (classRows exX exY 1).length (exPar.nNeighbors + 1)) (classRows exX exY 1))[0]? = some row ∧
      row.drop 1 ≠ []) :=
  ⟨by decide, exKnn_ok, exY_min, by decide, by decide, by decide, by decide, by decide, by decide +kernel, _, rfl, by decide⟩

end Verif

import Verif.Props.C123
import Verif.Props.C53
import Verif.Props.C56
import Verif.Props.C59
import Verif.Props.C70
import Verif.Props.C86
import Verif.Props.C90
import Verif.Props.C104
import Verif.Props.C106

/-!
# C123, continued: more oversamplers which keep linear conditions, and some which do not
-/

namespace Verif

variable {d : Nat} {X X' : List Row} {y y' : List Int} {a b : Int}

theorem keepsConditions_hull (h : ∀ r ∈ classRows X' y' a, r ∈ classRows X y a ∨ InHull d (classRows X y a) r) :
    KeepsConditions d a X y X' y' := by
  intro m c hc r hr
  rcases h r hr with h1 | h1
  · exact hc r h1
  · exact h1.meets hc

theorem getD_rows_mem {A : List Row} {l : List Nat} (h : ∀ i ∈ l, i < A.length) : ∀ r ∈ l.map (fun i => A.getD i []), r ∈ A := by
  intro r hr
  obtain ⟨i, hi, rfl⟩ := List.mem_map.1 hr
  rw [List.getD_eq_getElem?_getD, List.getElem?_eq_getElem (h i hi), Option.getD_some]
  exact List.getElem_mem _

theorem partition_lt {N : Nat} {clusters : List (List Nat)} (h : IsPartition N clusters) (j : Nat) : ∀ i ∈ clusters.getD j [], i < N := by
  intro i hi
  by_cases hj : j < clusters.length
  · rw [List.getD_eq_getElem?_getD, List.getElem?_eq_getElem hj, Option.getD_some] at hi
    exact List.mem_range.1 (h.1.mem_iff.1 (List.mem_flatten.2 ⟨_, List.getElem_mem hj, hi⟩))
  · rw [List.getD_eq_getElem?_getD, List.getElem?_eq_none (by omega)] at hi
    cases hi

/-- NT_SMOTE. -/
theorem C123_nt {par : NbParams} {vol : List Row → ℚ} {dr : Draws} {knn : Nat → List Row → List Row → List (List Nat)} (hwf : WF d X y)
    (hk : KnnQueryOK knn) (hdr : dr.OK) (hmin : IsMinority y a b) (hg : par.ss.gaussian = .none) (hvol : ∀ vs, 0 ≤ vol vs)
    (h : sample defaultChecks d (ntSmoteAlg par vol dr d knn) X y = .ok (X', y')) : KeepsConditions d a X y X' y' := by
  rcases sample_more hmin h with h3 | h3
  · exact keepsConditions_same h3
  refine (C56_nt hwf hk hdr hmin hg hvol h3 h).keeps hwf.1 ?_
  rintro x ⟨j, base, row, nbrs, w, q1, _, q3, q4⟩
  exact inHull_base (List.mem_of_getElem? q1) (forall2_getElem_mem (f := id) q3) q4

/-- CE_SMOTE. -/
theorem C123_ce {par : CeParams} {vol : List Row → ℚ} {dr : Draws} {clusterings : List Row → List (List Int)}
    {knn : Nat → List Row → List Row → List (List Nat)} (hwf : WF d X y) (hcl : (clusterings X).length = par.h) (hh : 0 < par.h)
    (hk : KnnQueryOK knn) (hdr : dr.OK) (hmin : IsMinority y a b) (hg : par.ss.gaussian = .none) (hvol : ∀ vs, 0 ≤ vol vs)
    (h : sample defaultChecks d (ceSmoteAlg par vol dr d clusterings knn) X y = .ok (X', y')) : KeepsConditions d a X y X' y' := by
  rcases sample_more hmin h with h3 | h3
  · exact keepsConditions_same h3
  have h1 := C59_ce hwf hcl hh hk hdr hmin hg hvol h3 h
  dsimp only at h1
  split at h1
  · exact keepsConditions_same h1
  · refine h1.keeps hwf.1 (fun x hx => simplexOf_inHull ?_ ?_ hx) <;>
    · intro r hr
      obtain ⟨i, hi, rfl⟩ := List.mem_map.1 hr
      rw [List.mem_filter, Bool.and_eq_true, decide_eq_true_eq, List.mem_range] at hi
      rw [← selectLabel_eq_classRows, C03_class_rows]
      exact ⟨i, by rw [List.getD_eq_getElem?_getD, List.getElem?_eq_getElem hi.1]; rfl, hi.2.1⟩

/-- SMOTE_RSB. -/
theorem C123_rsb {levels : List ℚ} {par : SmoteParams} {vol : List Row → ℚ} {dr : Draws} {knn : Nat → List Row → List (List Nat)}
    (hwf : WF d X y) (hk : KnnOK knn) (hdr : dr.OK) (hpos : ∀ i j, 0 < dr.simplexU i j) (hg : par.ss.gaussian = .none)
    (hmin : IsMinority y a b) (hd : 1 ≤ par.ss.nDim)
    (hmode : par.ss.simplexSampling = .random ∨ par.ss.simplexSampling = .deterministic ∨
      (par.ss.simplexSampling = .volume ∧ ∀ vs, 0 < vol vs))
    (hwi : par.ss.within = .random ∨ (par.ss.within = .deterministic ∧ par.ss.nDim ≤ 2)) (hlev : levels.Pairwise (· < ·))
    (h : sample defaultChecks d (rsbAlg levels par vol dr d knn) X y = .ok (X', y')) : KeepsConditions d a X y X' y' := by
  rcases sample_more hmin h with h3 | h3
  · exact keepsConditions_same h3
  obtain ⟨S, pos, _, _, q3, q4, _, q6, _⟩ := C86_rsb (levels := levels) hwf hk hdr hpos hg hmin h3 hd hmode hwi hlev
  rw [h] at q4
  injection q4 with q4
  obtain ⟨rfl, rfl⟩ := Prod.mk.inj q4
  refine keepsConditions_append hwf.1 rfl rfl (List.length_map ..) (fun x hx => q3 x (getD_rows_mem q6 x hx))

/-- ANS. -/
theorem C123_ans {par : NbParams} {vol : List Row → ℚ} {dr : Draws} {dist : Row → Row → ℚ}
    {knn : Nat → List Row → List Row → List (List Nat)} {knnDist : Nat → List Row → List Row → List (List ℚ)}
    {radius : List Row → List Row → ℚ → List (List Nat)} (hwf : WF d X y) (hk : NearestOK dist knn) (hkd : NearestDistOK dist knnDist)
    (hr : RadiusExact dist radius) (hself : ∀ p, dist p p = 0) (hnn : ∀ p q, 0 ≤ dist p q) (hdr : dr.OK) (hmin : IsMinority y a b)
    (hg : par.ss.gaussian = .none) (hd2 : 2 ≤ par.ss.nDim) (hvol : ∀ vs, 0 ≤ vol vs)
    (h : sample defaultChecks d (ansAlg par vol dr d knn knnDist radius) X y = .ok (X', y')) : KeepsConditions d a X y X' y' := by
  rcases sample_more hmin h with h3 | h3
  · exact keepsConditions_same h3
  obtain ⟨C, _, h1, h2⟩ := C53_ans hwf hk hkd hr hself hnn hdr hmin hg hd2 hvol h3 h
  by_cases hu : ∃ j, AnsUsed dist X y (classRows X y a) b C j
  · obtain ⟨e, _, q1, q2⟩ := h2 hu
    by_cases ha : AnsAlone dist X y (classRows X y a) b C e
    · exact keepsConditions_same (q1 ha)
    · refine (q2 ha).keeps hwf.1 ?_
      rintro x ⟨j, base, is, nbrs, w, p1, _, p3, _, _, _, p7⟩
      exact inHull_base (List.mem_of_getElem? p1) (forall2_getElem_mem (f := id) p3) p7
  · exact keepsConditions_same (h1 (fun j hj => hu ⟨j, hj⟩))

/-- CBSO. -/
theorem C123_cbso {par : NbParams} {cp : ℚ} {vol : List Row → ℚ} {cu : Nat → ℚ} {drs : Nat → Draws} {dist : Row → Row → ℚ}
    {knn : Nat → List Row → List Row → List (List Nat)} (hwf : WF d X y) (hk : KnnQueryOK knn) (hD : ∀ p q, dist p q = dist q p)
    (hcu : ∀ i, 0 ≤ cu i ∧ cu i < 1) (hdr : ∀ i, (drs i).OK) (hu : ∀ t i j, 0 < (drs t).simplexU i j) (hmin : IsMinority y a b)
    (hg : par.ss.gaussian = .none) (hvol : ∀ vs, 0 ≤ vol vs) (hd : 1 ≤ par.ss.nDim)
    (hwi : par.ss.within = .random ∨ (par.ss.within = .deterministic ∧ par.ss.nDim ≤ 2))
    (h : sample defaultChecks d (cbsoAlg par cp vol cu drs d dist knn) X y = .ok (X', y')) : KeepsConditions d a X y X' y' := by
  rcases sample_cases (p := par.proportion) hmin (fun s hz => by unfold cbsoAlg; simp only [hz, ok_bind, if_true]; rfl) h with
    h3 | ⟨h3, hn⟩
  · exact keepsConditions_same h3
  rcases Nat.lt_or_ge par.nNeighbors X.length with hX | hX
  · have h1 := C104_cbso (cp := cp) hwf hk hD hcu hdr hu hmin hg hvol hd hwi h3 hn hX
    dsimp only at h1
    obtain ⟨clusters, sel, new, q1, q2, q3, _, _, q6⟩ := h1
    rw [h] at q1
    injection q1 with q1
    obtain ⟨rfl, rfl⟩ := Prod.mk.inj q1
    refine keepsConditions_append hwf.1 rfl rfl q2 (fun x hx => ?_)
    obtain ⟨j, _, _, hx, _⟩ := q6.mem hx
    exact clusterSimplex_inHull (getD_rows_mem (partition_lt q3 j)) hx
  · rw [C104_too_few hmin h3 hn hX] at h
    cases h

theorem suwo_class_sub {knn : Nat → List Row → List Row → List (List Nat)} {k : Nat} (hl : X.length = y.length)
    (hlt : ∀ i ∈ suwoKept knn k X y, i < X.length) : ∀ r ∈ classRows (suwoX knn k X y) (suwoY knn k X y) a, r ∈ classRows X y a := by
  intro r hr
  rw [← selectLabel_eq_classRows, C03_class_rows] at hr ⊢
  obtain ⟨i, h1, h2⟩ := hr
  unfold suwoX at h1
  unfold suwoY at h2
  rw [List.getElem?_map, Option.map_eq_some_iff] at h1 h2
  obtain ⟨j, hj, rfl⟩ := h1
  obtain ⟨j', hj', hy⟩ := h2
  rw [hj] at hj'
  injection hj' with hj'
  subst hj'
  have hjX := hlt j (List.mem_of_getElem? hj)
  refine ⟨j, ?_, ?_⟩
  · rw [List.getD_eq_getElem?_getD, List.getElem?_eq_getElem hjX]; rfl
  · rw [List.getD_eq_getElem?_getD, List.getElem?_eq_getElem (hl ▸ hjX), Option.getD_some] at hy
    rw [List.getElem?_eq_getElem (hl ▸ hjX), hy]

/-- A_SUWO, which removes rows as well. -/
theorem C123_suwo {par : NbParams} {nClusMaj : Nat} {cThres : ℚ} {env : SuwoEnv} {vol : List Row → ℚ} {cu : Nat → ℚ}
    {drs : Nat → Draws} (hwf : WF d X y) (hd1 : 1 ≤ d)
    (hk : KnnQueryOK env.knn) (hD : ∀ p q, env.dist p q = env.dist q p) (hD0 : ∀ p q, 0 ≤ env.dist p q) (hagg : AggOK env.agg)
    (hcu : ∀ i, 0 ≤ cu i ∧ cu i < 1) (hdr : ∀ i, (drs i).OK) (hu : ∀ t i j, 0 < (drs t).simplexU i j) (hmin : IsMinority y a b)
    (hg : par.ss.gaussian = .none) (hvol : ∀ vs, 0 ≤ vol vs) (hd : 1 ≤ par.ss.nDim)
    (hwi : par.ss.within = .random ∨ (par.ss.within = .deterministic ∧ par.ss.nDim ≤ 2)) (hkn : 1 ≤ par.nNeighbors)
    (h : sample defaultChecks d (suwoAlg par nClusMaj cThres env vol cu drs d) X y = .ok (X', y')) : KeepsConditions d a X y X' y' := by
  rcases sample_cases (p := par.proportion) hmin (fun s hz => by unfold suwoAlg; simp only [hz, ok_bind, if_true]; rfl) h with
    h3 | ⟨h3, hn⟩
  · exact keepsConditions_same h3
  have h1 := C106_suwo (nClusMaj := nClusMaj) (cThres := cThres) hwf hd1 hk hD hD0 hagg hcu hdr hu hmin hg hvol hd hwi hkn h3 hn
  dsimp only at h1
  split at h1
  · rw [h] at h1
    injection h1 with h1
    exact keepsConditions_same (Prod.mk.inj h1)
  split at h1
  · rw [h] at h1
    cases h1
  obtain ⟨clusters, sel, new, q1, q2, q3, _, _, _, q6⟩ := h1
  rw [h] at q1
  injection q1 with q1
  obtain ⟨rfl, rfl⟩ := Prod.mk.inj q1
  have hsub := suwo_class_sub (knn := env.knn) (k := par.nNeighbors) (a := a) hwf.1 (fun i hi => by
    unfold suwoKept at hi
    exact List.mem_range.1 (List.mem_filter.1 hi).1)
  refine keepsConditions_hull (fun r hr => ?_)
  rw [← q2, classRows_append (by simp [suwoX, suwoY]), classRows_replicate, List.mem_append] at hr
  rcases hr with hr | hr
  · exact Or.inl (hsub r hr)
  · obtain ⟨j, _, _, hx, _⟩ := q6.mem hr
    refine Or.inr (simplexOf_inHull ?_ ?_ hx) <;>
    exact fun r hr => hsub r (getD_rows_mem (partition_lt q3 j) r hr)

/-- SYMPROD. -/
theorem C123_symprod {env : SyEnv} {par : SyParams} (hwf : WF d X y) (henv : env.OK d) (hmin : IsMinority y a b)
    (h : sample defaultChecks d (syAlg env par d) X y = .ok (X', y')) : KeepsConditions d a X y X' y' := by
  rcases sample_cases (p := par.proportion) hmin (fun s hz => by unfold syAlg; simp only [hz, ok_bind, if_true]; rfl) h with
    h3 | ⟨h3, hn⟩
  · exact keepsConditions_same h3
  obtain ⟨A, B, sc, q1, _, _, _, q5⟩ := C90_symprod hwf henv hmin h3 hn
  rcases q5 with q5 | ⟨_, _, q5 | ⟨new, cf, own, other, S, R, p1, p2, p3, p4, p5, p6⟩⟩
  · rw [h] at q5
    injection q5 with q5
    exact keepsConditions_same (Prod.mk.inj q5)
  · rw [h] at q5
    cases q5
  · rw [h] at p1
    injection p1 with p1
    obtain ⟨rfl, rfl⟩ := Prod.mk.inj p1
    refine keepsConditions_append hwf.1 rfl rfl rfl (fun x hx => ?_)
    obtain ⟨i, hi⟩ := List.mem_iff_getElem?.1 hx
    obtain ⟨nb, r, w, T, r1, r2, r3, r4, r5, r6, _⟩ := p6 i x hi
    refine ⟨_, w, ?_, r6⟩
    intro v hv
    obtain ⟨j, hj, rfl⟩ := List.mem_map.1 hv
    have hjS : j < S.length := by
      rcases List.mem_append.1 hj with hj | hj
      · exact r4 j hj
      · rw [List.mem_singleton.1 hj]
        exact r3
    obtain ⟨t, _, hS, _⟩ := p3.cut
    have hmem : S.getD j 0 ∈ S := by
      rw [List.getD_eq_getElem?_getD, List.getElem?_eq_getElem hjS, Option.getD_some]
      exact List.getElem_mem _
    have hlt : S.getD j 0 < A.length := by
      generalize S.getD j 0 = q at hmem
      rw [hS] at hmem
      unfold enough at hmem
      rw [List.length_map] at hmem
      exact List.mem_range.1 (List.mem_filter.1 hmem).1
    refine q1.subset ?_
    rw [List.getD_eq_getElem?_getD, List.getElem?_eq_getElem hlt, Option.getD_some]
    exact List.getElem_mem _

/-- Non-negative features can become negative: SMOTE_OUT. -/
theorem C123_out_negative : ∃ (X X' : List Row) (y y' : List Int) (ix : Nat → Nat → Nat → Nat) (un : Nat → Nat → Nat → ℚ)
    (knn : Nat → List Row → List Row → List (List Nat)), WF 2 X y ∧ IsMinority y 1 0 ∧ IxOK ix ∧ UnitOK un ∧ KnnQueryOK knn ∧
    sample defaultChecks 2 (smoteOutAlg 1 2 ix un knn) X y = .ok (X', y') ∧ (∀ r ∈ X, ∀ v ∈ r, 0 ≤ v) ∧
    ¬ KeepsRanges 2 1 X y X' y' := by
  obtain ⟨x, h1, h2, h3⟩ := C70_outside
  refine ⟨outX, _, outY, _, outIx, outUn, gsKnn, ⟨by decide, by decide +kernel⟩, ⟨by decide, by decide, by decide, Or.inl (by decide)⟩,
    fun _ m _ h => h, fun _ _ _ => by unfold outUn; norm_num, gsKnn_ok, h1, by decide +kernel, fun h => ?_⟩
  have hx : x ∈ classRows (outX ++ [x]) (outY ++ [1]) 1 := by
    rw [classRows_append (by decide)]
    exact List.mem_append_right _ (by simp [classRows])
  have h4 := (h 1 0 1 (by decide) (by decide +kernel) x hx).1
  linarith

/-! ## Non-vacuity -/

example : WF 1 syX syY ∧ syEnv.OK 1 ∧ IsMinority syY 1 0 ∧
    sample defaultChecks 1 (syAlg syEnv syPar 1) syX syY = .ok (syX ++ [[345/617]], syY ++ [1]) :=
  ⟨by decide +kernel, syEnv_ok, syY_min, by decide +kernel⟩

end Verif

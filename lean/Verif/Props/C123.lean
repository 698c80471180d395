import Verif.Lemmas.Relations
import Verif.Props.C03
import Verif.Props.C31
import Verif.Props.C32
import Verif.Props.C34
import Verif.Props.C36
import Verif.Props.C38
import Verif.Props.C45
import Verif.Props.C47
import Verif.Props.C48
import Verif.Props.C50
import Verif.Props.C51
import Verif.Props.C54
import Verif.Props.C57
import Verif.Props.C58
import Verif.Props.C60
import Verif.Props.C61
import Verif.Props.C62
import Verif.Props.C63
import Verif.Props.C64
import Verif.Props.C67
import Verif.Props.C68
import Verif.Props.C105

/-!
# C123: linear conditions among the features

If the features of the minority rows fulfil a linear condition (a total and its parts, dummy variables with sum one, a feature which is not
negative, one feature which does not exceed another), so do the features of the rows which the oversamplers below return for that class.
Others break such conditions.
-/

namespace Verif

variable {d : Nat} {X X' : List Row} {y y' : List Int} {a b : Int}

/-! ## Linear conditions are kept -/

/-- SMOTE. -/
theorem C123_smote {par : SmoteParams} {vol : List Row → ℚ} {dr : Draws} {knn : Nat → List Row → List (List Nat)} (hwf : WF d X y)
    (hk : KnnOK knn) (hdr : dr.OK) (hmin : IsMinority y a b) (hg : par.ss.gaussian = .none)
    (h : smoteSample par vol dr d knn X y = .ok (X', y')) : KeepsConditions d a X y X' y' := by
  obtain ⟨s, hs, rfl, rfl⟩ := stats_of_isMinority hmin
  obtain ⟨h1, h2⟩ := smote_sound hwf hk hdr hs h
  rcases Nat.lt_or_ge 2 (y.count s.minLabel) with hc | hc
  · obtain ⟨gen, _, g2, g3, g4⟩ := h2 hc
    rw [hg] at g2
    refine keepsConditions_append hwf.1 g2 g3 rfl (fun x hx => ?_)
    rw [← selectLabel_eq_classRows]
    exact generatedFrom_inHull (g4 x hx) (fun r hr => hr) (fun r hr => hr)
  · exact keepsConditions_same (h1 hc)

/-- SDSMOTE. -/
theorem C123_sdsmote {par : NbParams} {vol : List Row → ℚ} {dr : Draws} {knn : Nat → List Row → List Row → List (List Nat)}
    {knnDist : Nat → List Row → List Row → List (List ℚ)} {radius : List Row → List Row → ℚ → List (List Nat)} (hwf : WF d X y)
    (hk : KnnQueryOK knn) (hr : RadiusOK radius) (hdr : dr.OK)
    (hm : par.ss.simplexSampling = .random ∨ par.ss.simplexSampling = .deterministic) (hmin : IsMinority y a b)
    (hg : par.ss.gaussian = .none)
    (h : sample defaultChecks d (sdsmoteAlg par vol dr d knn knnDist radius) X y = .ok (X', y')) : KeepsConditions d a X y X' y' := by
  rw [C50_sdsmote_is_smote hwf hk hr hdr hm] at h
  exact C123_smote hwf (fun k rows hkr => hk k rows rows hkr) hdr hmin hg h

/-- Lee. -/
theorem C123_lee {fuel : Nat} {par : LeeParams} {vol : List Row → ℚ} {dr : Nat → Draws} {knn : Nat → List Row → List (List Nat)}
    {query : Nat → List Row → Row → List Nat} (hwf : WF d X y) (hmin : IsMinority y a b) (hknn : KnnOK knn)
    (hquery : ∀ k rows x, k ≤ rows.length → (query k rows x).length = k ∧ ∀ i ∈ query k rows x, i < rows.length)
    (hg : par.ss.gaussian = .none) (hdr : ∀ r, (dr r).OK)
    (h : leeSample fuel par vol dr d knn query X y = .ok (some (X', y'))) : KeepsConditions d a X y X' y' := by
  rcases C32_result hwf hmin hknn hquery hg hdr h with ⟨_, h⟩ | ⟨_, new, h1, h2, h3, _, _, h4⟩
  · exact keepsConditions_same h
  · exact keepsConditions_append hwf.1 h1 h2 h3 (fun x hx => generatedFrom_inHull (h4 x hx).1 (fun r hr => hr) (fun r hr => hr))

/-- Borderline_SMOTE1. -/
theorem C123_borderline1 {par : BorderParams} {vol : List Row → ℚ} {dr : Draws} {knn : Nat → List Row → List Row → List (List Nat)}
    (hwf : WF d X y) (hk : KnnQueryOK knn) (hdr : dr.OK) (hmin : IsMinority y a b) (hg : par.ss.gaussian = .none)
    (hvol : ∀ vs, 0 ≤ vol vs) (h : sample defaultChecks d (borderline1Alg par vol dr d knn) X y = .ok (X', y')) :
    KeepsConditions d a X y X' y' := by
  refine (C48_borderline1_rows hwf hk hdr hmin hg hvol h).keeps hwf.1 ?_
  rintro x ⟨i, base, nbrs, w, h1, _, h3, h4⟩
  refine inHull_base (List.mem_of_getElem? h1) (fun r hr => ?_) h4
  obtain ⟨j, hj, _⟩ := h3 r hr
  exact List.mem_of_getElem? hj

/-- ADASYN. -/
theorem C123_adasyn {par : AdasynParams} {vol : List Row → ℚ} {dr : Draws} {knn : Nat → List Row → List Row → List (List Nat)}
    (hwf : WF d X y) (hk : KnnQueryOK knn) (hdr : dr.OK) (hmin : IsMinority y a b) (hg : par.ss.gaussian = .none)
    (hn : 1 ≤ par.nNeighbors) (hvol : ∀ vs, 0 ≤ vol vs)
    (h : sample defaultChecks d (adasynAlg par vol dr d knn) X y = .ok (X', y')) : KeepsConditions d a X y X' y' := by
  rcases sample_more hmin h with h3 | h3
  · exact keepsConditions_same h3
  obtain ⟨h1, h2⟩ := C47_adasyn hwf hk hdr hmin hg hn hvol h3 h
  by_cases hs : AdasynSkips par knn X y a b
  · exact keepsConditions_same (h1 hs)
  · refine (h2 hs).keeps hwf.1 ?_
    rintro x ⟨i, base, nbrs, w, q1, _, q3, q4⟩
    exact inHull_base (List.mem_of_getElem? q1) q3 q4

/-- AND_SMOTE. -/
theorem C123_and {par : NbParams} {vol : List Row → ℚ} {dr : Draws} {knn : Nat → List Row → List Row → List (List Nat)} (hwf : WF d X y)
    (hk : KnnQueryOK knn) (hdr : dr.OK) (hmin : IsMinority y a b) (hg : par.ss.gaussian = .none) (hd2 : 2 ≤ par.ss.nDim)
    (hvol : ∀ vs, 0 ≤ vol vs) (h : sample defaultChecks d (andSmoteAlg par vol dr d knn) X y = .ok (X', y')) :
    KeepsConditions d a X y X' y' := by
  rcases sample_more hmin h with h3 | h3
  · exact keepsConditions_same h3
  obtain ⟨h1, h2⟩ := C51_and_smote hwf hk hdr hmin hg hd2 hvol h3 h
  by_cases hs : AndSkips par knn X y a b
  · exact keepsConditions_same (h1 hs)
  · refine (h2 hs).keeps hwf.1 ?_
    rintro x ⟨j, i, c, K, base, row, ps, vs, nbrs, w, q1, _, _, _, _, _, _, _, _, _, _, q2, q3⟩
    exact inHull_base (List.mem_of_getElem? q1) (forall2_getElem_mem (f := id) q2) q3

/-- distance_SMOTE. -/
theorem C123_distance {par : NbParams} {vol : List Row → ℚ} {dr : Draws} {knn : Nat → List Row → List Row → List (List Nat)}
    (hwf : WF d X y) (hk : KnnQueryOK knn) (hdr : dr.OK) (hmin : IsMinority y a b) (hg : par.ss.gaussian = .none)
    (h : sample defaultChecks d (distanceSmoteAlg par vol dr d knn) X y = .ok (X', y')) : KeepsConditions d a X y X' y' := by
  rcases sample_more hmin h with h3 | h3
  · exact keepsConditions_same h3
  refine (C54_distance hwf hk hdr hmin hg h3 h).keeps hwf.1 (fun x hx => C54_hull (fun r hr => ?_) hx)
  rw [← selectLabel_eq_classRows] at hr
  exact mem_selectLabel_length hwf hr

/-- ProWSyn. -/
theorem C123_prowsyn {par : ProParams} {vol : List Row → ℚ} {clusterU : Nat → ℚ} {dr : Nat → Draws}
    {knn : Nat → List Row → List Row → List (List Nat)} (hwf : WF d X y) (hmin : IsMinority y a b) (hg : par.ss.gaussian = .none)
    (hdr : ∀ i, (dr i).OK) (h : sample defaultChecks d (prowsynAlg par vol clusterU dr d knn) X y = .ok (X', y')) :
    KeepsConditions d a X y X' y' := by
  rcases C34_samples_within_level hwf hmin hg hdr h with h | ⟨Ps, levels, _, h⟩
  · exact keepsConditions_same h
  · refine h.keeps hwf.1 ?_
    rintro x ⟨P, _, S, ⟨hP, hS⟩, hx⟩
    refine hx.mono (fun r hr => ?_)
    obtain ⟨i, hi, hr⟩ := forall₂_mem_right hS hr
    rw [← selectLabel_eq_classRows, C03_class_rows]
    exact ⟨i, hr, hP i hi⟩

/-- SMOTE_D. -/
theorem C123_smote_d {proportion : ℚ} {k : Nat} {std : List ℚ → XF} {u : Nat → Nat → Nat → ℚ} {knn : Nat → List Row → List (List Nat)}
    {knnDist : Nat → List Row → List (List ℚ)} (hwf : WF d X y) (hmin : IsMinority y a b) (hk : 1 ≤ k) (hknn : KnnOK knn)
    (hkd : KnnDistOK knnDist) (hstd : ∀ l q, std l = .fin q → 0 ≤ q) (hu : ∀ i j k, 0 ≤ u i j k ∧ u i j k < 1)
    (h : sample defaultChecks d (smoteDAlg proportion k std u knn knnDist) X y = .ok (X', y')) : KeepsConditions d a X y X' y' := by
  obtain ⟨new, h1, h2, _⟩ := C36_sample (proportion := proportion) hwf hmin hk hknn hkd hstd hu
  rw [h1] at h
  injection h with h
  obtain ⟨rfl, rfl⟩ := Prod.mk.inj h
  refine keepsConditions_append hwf.1 rfl rfl rfl (fun x hx => ?_)
  obtain ⟨p, hp, q, hq, hl, t, ht0, ht1, ht⟩ := h2 x hx
  have hlen : ∀ r ∈ classRows X y a, r.length = d := fun r hr => by
    rw [← selectLabel_eq_classRows] at hr; exact mem_selectLabel_length hwf hr
  exact inHull_segment (inHull_self hp (hlen p hp)) (inHull_self hq (hlen q hq)) hl ht0.le ht1.le ht

/-- polynom_fit_SMOTE with the topologies star and bus. -/
theorem C123_star_bus {proportion : ℚ} {top : Topology} (ht : top = .star ∨ top = .bus) (hwf : WF d X y) (hmin : IsMinority y a b)
    (h : polynomClass proportion top d X y = .ok (X', y')) : KeepsConditions d a X y X' y' := by
  have hlen : ∀ r ∈ classRows X y a, r.length = d := fun r hr => by
    rw [← selectLabel_eq_classRows] at hr; exact mem_selectLabel_length hwf hr
  rcases ht with rfl | rfl
  · obtain ⟨new, mean, h1, h2, h3, _⟩ := C45_star (proportion := proportion) hwf hmin
    rw [h1] at h
    injection h with h
    obtain ⟨rfl, rfl⟩ := Prod.mk.inj h
    refine keepsConditions_append hwf.1 rfl rfl rfl (fun x hx => ?_)
    obtain ⟨p, hp, hl, t, ht0, ht1, ht⟩ := h3 x hx
    exact inHull_segment (inHull_self hp (hlen p hp)) (isMean_inHull (List.ne_nil_of_mem hp) h2) hl ht0.le ht1.le ht
  · obtain ⟨new, h1, h3, _⟩ := C45_bus (proportion := proportion) hwf hmin
    rw [h1] at h
    injection h with h
    obtain ⟨rfl, rfl⟩ := Prod.mk.inj h
    refine keepsConditions_append hwf.1 rfl rfl rfl (fun x hx => ?_)
    obtain ⟨i, p, q, hp, hq, hl, t, ht0, ht1, ht⟩ := h3 x hx
    have hp := List.mem_of_getElem? hp
    have hq := List.mem_of_getElem? hq
    exact inHull_segment (inHull_self hp (hlen p hp)) (inHull_self hq (hlen q hq)) hl ht0.le ht1.le ht

/-- polynom_fit_SMOTE with the topology mesh. -/
theorem C123_mesh {proportion : ℚ} {ss : SSParams} {vol : List Row → ℚ} {dr : Draws} {nb : Nat → Nat → Nat} (hwf : WF d X y)
    (hmin : IsMinority y a b) (hdr : dr.OK) (hg : ss.gaussian = .none)
    (h : sample defaultChecks d (meshAlg proportion ss vol dr nb d) X y = .ok (X', y')) : KeepsConditions d a X y X' y' := by
  have h1 := C45_mesh hwf hmin hdr hg h
  split at h1
  · exact keepsConditions_same h1
  · exact h1.keeps hwf.1 (fun _ hx => hx)

theorem classRows_sub {A : List Row} {labels : List Int} {c : Int} : ∀ r ∈ classRows A labels c, r ∈ A := by
  intro r hr
  rw [mem_classRows] at hr
  exact (List.of_mem_zip hr).1

theorem clusterRows_sub {X : List Row} {y L : List Int} {c : Int} (hl : X.length = y.length) :
    ∀ r ∈ clusterRows X y L a c, r ∈ classRows X y a := by
  unfold clusterRows
  induction X generalizing y L with
  | nil => intro r hr; simp [classRows] at hr
  | cons x X ih =>
    cases y with
    | nil => simp at hl
    | cons l y =>
      cases L with
      | nil => intro r hr; simp [classRows] at hr
      | cons k L =>
        intro r hr
        have ih := ih (y := y) (L := L) (by simpa using hl) r
        rw [mem_classRows] at hr ih ⊢
        rw [mem_classRows] at ih
        rw [List.zip_cons_cons, List.mem_cons]
        by_cases hc : k = c
        · rw [show classRows (x :: X) (k :: L) c = x :: classRows X L c by simp [classRows, hc],
            show classRows (l :: y) (k :: L) c = l :: classRows y L c by simp [classRows, hc], List.zip_cons_cons, List.mem_cons] at hr
          exact hr.imp_right ih
        · rw [show classRows (x :: X) (k :: L) c = classRows X L c by simp [classRows, hc],
            show classRows (l :: y) (k :: L) c = classRows y L c by simp [classRows, hc]] at hr
          exact Or.inr (ih hr)

theorem clusterSimplex_inHull {nDim : Nat} {rows A : List Row} {ok : Nat → Prop} {x : Row} (hr : ∀ r ∈ rows, r ∈ A)
    (h : ClusterSimplex d nDim rows ok x) : InHull d A x := by
  obtain ⟨i, base, nbIdx, nbrs, w, h1, _, _, _, h5, h6⟩ := h
  exact (inHull_base (List.mem_of_getElem? h1) (forall2_getElem_mem (f := id) h5) h6).mono hr

theorem simplexOf_inHull {nDim : Nat} {Q V A : List Row} {table : List (List Nat)} {ok : Nat → Prop} {x : Row} (hQ : ∀ r ∈ Q, r ∈ A)
    (hV : ∀ r ∈ V, r ∈ A) (h : SimplexOf d nDim Q V table ok x) : InHull d A x := by
  refine h.inHull.mono (fun r hr => ?_)
  rcases List.mem_append.1 hr with hr | hr
  · exact hQ r hr
  · exact hV r hr

/-- kmeans_SMOTE. -/
theorem C123_kmeans {par : NbParams} {nClusters : Nat} {irt : ℚ} {vol : List Row → ℚ} {cu : Nat → ℚ} {drs : Nat → Draws}
    {kmeans : Nat → List Row → List Int} {pdist : Row → Row → ℚ} {knn : Nat → List Row → List Row → List (List Nat)} (hwf : WF d X y)
    (hkm : KmeansOK kmeans) (hk : KnnQueryOK knn) (hcu : ∀ i, 0 ≤ cu i ∧ cu i < 1) (hdr : ∀ i, (drs i).OK)
    (hmin : IsMinority y a b) (hg : par.ss.gaussian = .none) (hvol : ∀ vs, 0 ≤ vol vs)
    (h : sample defaultChecks d (kmeansSmoteAlg par nClusters irt vol cu drs d kmeans pdist knn) X y = .ok (X', y')) :
    KeepsConditions d a X y X' y' := by
  rcases sample_cases (p := par.proportion) hmin (fun s hz => by unfold kmeansSmoteAlg; simp only [hz, ok_bind, if_true]; rfl) h with
    h3 | ⟨h3, hn⟩
  · exact keepsConditions_same h3
  have h1 := C57_kmeans hwf hkm hk hcu hdr hmin hg hvol h3 hn h
  dsimp only at h1
  split at h1
  · exact keepsConditions_same h1
  · obtain ⟨sel, new, q1, q2, q3, _, q5⟩ := h1
    refine keepsConditions_append hwf.1 q1 q2 q3 (fun x hx => ?_)
    obtain ⟨j, _, _, hj⟩ := q5.mem hx
    exact simplexOf_inHull (clusterRows_sub hwf.1) (clusterRows_sub hwf.1) hj

/-- cluster_SMOTE. -/
theorem C123_cluster {par : NbParams} {nClusters : Nat} {vol : List Row → ℚ} {pick : Nat → Nat → List Nat} {drs : Nat → Draws}
    {kmeans : Nat → List Row → List Int} {knn : Nat → List Row → List Row → List (List Nat)} (hwf : WF d X y) (hkm : KmeansOK kmeans)
    (hk : KnnQueryOK knn) (hp : PickOK pick) (hdr : ∀ i, (drs i).OK) (hmin : IsMinority y a b) (hg : par.ss.gaussian = .none)
    (hvol : ∀ vs, 0 ≤ vol vs)
    (h : sample defaultChecks d (clusterSmoteAlg par nClusters vol pick drs d kmeans knn) X y = .ok (X', y')) :
    KeepsConditions d a X y X' y' := by
  rcases sample_cases (p := par.proportion) hmin (fun s hz => by unfold clusterSmoteAlg; simp only [hz, ok_bind, if_true]; rfl) h with
    h3 | ⟨h3, hn⟩
  · exact keepsConditions_same h3
  have h1 := C57_cluster hwf hkm hk hp hdr hmin hg hvol h3 hn h
  dsimp only at h1
  split at h1
  · exact keepsConditions_same h1
  · obtain ⟨new, q1, q2, q3, q5⟩ := h1
    refine keepsConditions_append hwf.1 q1 q2 q3 (fun x hx => ?_)
    obtain ⟨j, _, _, hj⟩ := q5.mem hx
    exact simplexOf_inHull classRows_sub classRows_sub hj

/-- MWMOTE. -/
theorem C123_mwmote {par : MwParams} {vol : List Row → ℚ} {cu : Nat → ℚ} {drs : Nat → Draws} {kmeans : Nat → List Row → List Int}
    {dist : Row → Row → ℚ} {knn : Nat → List Row → List Row → List (List Nat)} (hwf : WF d X y) (hkm : KmeansOK kmeans)
    (hkm0 : ∀ n rows, ∀ l ∈ kmeans n rows, 0 ≤ l) (hk : KnnQueryOK knn) (hcu : ∀ i, 0 ≤ cu i ∧ cu i < 1)
    (hdr : ∀ i, (drs i).OK) (hmin : IsMinority y a b) (hg : par.ss.gaussian = .none) (hvol : ∀ vs, 0 ≤ vol vs) (hk3 : 1 ≤ par.k3)
    (hcf : 0 < par.cfTh) (hcm : 0 < par.cmax)
    (h : sample defaultChecks d (mwmoteAlg par vol cu drs d kmeans dist knn) X y = .ok (X', y')) : KeepsConditions d a X y X' y' := by
  rcases sample_cases (p := par.proportion) hmin (fun s hz => by unfold mwmoteAlg; simp only [hz, ok_bind, if_true]; rfl) h with
    h3 | ⟨h3, hn⟩
  · exact keepsConditions_same h3
  have h1 := C58_mwmote hwf hkm hkm0 hk hcu hdr hmin hg hvol h3 hn hk3 hcf hcm h
  dsimp only at h1
  split at h1
  · exact keepsConditions_same h1
  · obtain ⟨sel, new, q1, q2, q3, _, q5⟩ := h1
    refine keepsConditions_append hwf.1 q1 q2 q3 (fun x hx => ?_)
    obtain ⟨j, _, _, hj⟩ := q5.mem hx
    exact clusterSimplex_inHull classRows_sub hj

/-- CURE_SMOTE. -/
theorem C123_cure {par : CureParams} {fitScaler : List Row → Row × Row} {small : Nat → List Nat → Nat} {dist : Row → Row → ℚ}
    {vol : List Row → ℚ} {pick : Nat → Nat → List Nat} {drs : Nat → Draws} (hwf : WF d X y) (hsym : ∀ p q, dist p q = dist q p)
    (hs : SmallOK small) (hp : PickOK pick) (hdr : ∀ i, (drs i).OK) (hmin : IsMinority y a b) (hnC : 1 ≤ par.nClusters)
    (hm : (fitScaler X).1.length = d) (hsc : (fitScaler X).2.length = d) (hpos : ∀ x ∈ (fitScaler X).2, 0 < x)
    (hg : par.ss.gaussian = .none) (hvol : ∀ vs, 0 ≤ vol vs)
    (h : sample defaultChecks d (cureSmoteAlg par fitScaler small dist vol pick drs d) X y = .ok (X', y')) :
    KeepsConditions d a X y X' y' := by
  rcases sample_cases (p := par.proportion) hmin (fun s hz => by unfold cureSmoteAlg; simp only [hz, ok_bind, if_true]; rfl) h with
    h3 | ⟨h3, hn⟩
  · exact keepsConditions_same h3
  obtain ⟨final, _, hdc, h1⟩ := C60_cure hwf hsym hs hp hdr hmin hnC hm hsc hpos hg hvol h3 hn h
  dsimp only at h1
  split at h1
  · exact keepsConditions_same h1
  · obtain ⟨new, q1, q2, q3, q5⟩ := h1
    refine keepsConditions_append hwf.1 q1 q2 q3 (fun x hx => ?_)
    obtain ⟨j, hj, _, hx⟩ := q5.mem hx
    have hmem := List.getElem_mem hj
    rw [List.getD_eq_getElem?_getD, List.getElem?_eq_getElem hj, Option.getD_some] at hx
    generalize (List.filter (fun c => decide (par.noiseTh ≤ c.length)) final)[j] = cl at hmem hx
    have hcl := (List.mem_filter.1 hmem).1
    have hsub : ∀ r ∈ cl.map (fun i => (classRows X y a).getD i []), r ∈ classRows X y a := by
      intro r hr
      obtain ⟨i, hi, rfl⟩ := List.mem_map.1 hr
      have hi := hdc.2.1 i (List.mem_flatten.2 ⟨cl, hcl, hi⟩)
      rw [List.getD_eq_getElem?_getD, List.getElem?_eq_getElem hi, Option.getD_some]
      exact List.getElem_mem hi
    refine (hx.inHull ?_ ?_).mono hsub
    · intro h0
      exact hdc.2.2 cl hcl (List.map_eq_nil_iff.1 h0)
    · intro r hr
      have hr := hsub r hr
      rw [← selectLabel_eq_classRows] at hr
      exact mem_selectLabel_length hwf hr

/-- MCT. -/
theorem C123_mct {par : NbParams} {dist : Row → Row → ℚ} {vol : List Row → ℚ} {dr : Draws}
    {knn : Nat → List Row → List Row → List (List Nat)} (hwf : WF d X y) (hk : KnnQueryOK knn) (hdr : dr.OK) (hmin : IsMinority y a b)
    (hdist : ∀ p q, 0 ≤ dist p q) (hg : par.ss.gaussian = .none) (hvol : ∀ vs, 0 ≤ vol vs)
    (h : sample defaultChecks d (mctAlg par dist vol dr d knn) X y = .ok (X', y')) : KeepsConditions d a X y X' y' := by
  rcases sample_cases (p := par.proportion) hmin (fun s hz => by unfold mctAlg; simp only [hz, ok_bind, if_true]; rfl) h with
    h3 | ⟨h3, hn⟩
  · exact keepsConditions_same h3
  obtain ⟨c, _, h1, _⟩ := C61_mct hwf hk hdr hmin hdist hg hvol h3 hn h
  exact h1.keeps hwf.1 (fun x hx => simplexOf_inHull (fun r hr => hr) (fun r hr => hr) hx)

/-- Edge_Det_SMOTE. -/
theorem C123_edge {par : NbParams} {sqrt : ℚ → ℚ} {vol : List Row → ℚ} {dr : Draws} {knn : Nat → List Row → List Row → List (List Nat)}
    (hwf : WF d X y) (hk : KnnQueryOK knn) (hdr : dr.OK) (hmin : IsMinority y a b) (hs : SqrtOK sqrt) (hg : par.ss.gaussian = .none)
    (hvol : ∀ vs, 0 ≤ vol vs) (h : sample defaultChecks d (edgeDetAlg par sqrt vol dr d knn) X y = .ok (X', y')) :
    KeepsConditions d a X y X' y' := by
  rcases sample_cases (p := par.proportion) hmin (fun s hz => by unfold edgeDetAlg; simp only [hz, ok_bind, if_true]; rfl) h with
    h3 | ⟨h3, hn⟩
  · exact keepsConditions_same h3
  obtain ⟨h1, _⟩ := C61_edge hwf hk hdr hmin hs hg hvol h3 hn h
  exact h1.keeps hwf.1 (fun x hx => simplexOf_inHull (fun r hr => hr) (fun r hr => hr) hx)

/-- SN_SMOTE. -/
theorem C123_sn {par : NbParams} {dist : Row → Row → ℚ} {vol : List Row → ℚ} {pick : Nat → Nat → List Nat} {drs : Nat → Draws}
    {knn : Nat → List Row → List Row → List (List Nat)} (hwf : WF d X y) (hk : KnnQueryOK knn) (hp : PickOK pick)
    (hdr : ∀ i, (drs i).OK) (hmin : IsMinority y a b) (hg : par.ss.gaussian = .none) (hvol : ∀ vs, 0 ≤ vol vs)
    (h1 : 1 ≤ par.nNeighbors) (h : sample defaultChecks d (snSmoteAlg par dist vol pick drs d knn) X y = .ok (X', y')) :
    KeepsConditions d a X y X' y' := by
  rcases sample_cases (p := par.proportion) hmin (fun s hz => by unfold snSmoteAlg; simp only [hz, ok_bind, if_true]; rfl) h with
    h3 | ⟨h3, hn⟩
  · exact keepsConditions_same h3
  obtain ⟨new, q1, q2, q3, q5⟩ := C62_sn hwf hk hp hdr hmin hg hvol h1 h3 hn h
  have hlen : ∀ r ∈ classRows X y a, r.length = d := fun r hr => by
    rw [← selectLabel_eq_classRows] at hr; exact mem_selectLabel_length hwf hr
  refine keepsConditions_append hwf.1 q1 q2 q3 (fun x hx => ?_)
  obtain ⟨i, _, _, row, j, p, q, _, _, hp, hq, hl, t, ht0, ht1, ht⟩ := q5.mem hx
  have hp := List.mem_of_getElem? hp
  have hq := List.mem_of_getElem? hq
  exact inHull_segment (inHull_self hp (hlen p hp)) (inHull_self hq (hlen q hq)) hl ht0 ht1 ht

/-- Supervised_SMOTE. -/
theorem C123_supervised {par : SupParams} {prob : List Row → List Int → Row → ℚ} {vol : List Row → ℚ} {drs : Nat → Draws}
    (hwf : WF d X y) (hdr : ∀ t, (drs t).OK) (hmin : IsMinority y a b) (hpr : ∀ x, 0 ≤ prob X y x ∧ prob X y x ≤ 1)
    (hlo : par.thLower ≤ 1) (hup : 0 ≤ par.thUpper) (hg : par.ss.gaussian = .none) (hvol : ∀ vs, 0 ≤ vol vs)
    (h : sample defaultChecks d (supervisedAlg par prob vol drs d) X y = .ok (X', y')) : KeepsConditions d a X y X' y' := by
  rcases sample_cases (p := par.proportion) hmin (fun s hz => by unfold supervisedAlg; simp only [hz, ok_bind, if_true]; rfl) h with
    h3 | ⟨h3, hn⟩
  · exact keepsConditions_same h3
  exact (C63_supervised hwf hdr hmin hpr hlo hup hg hvol h3 hn h).keeps hwf.1
    (fun x hx => clusterSimplex_inHull (fun r hr => hr) hx.1)

/-- TRIM_SMOTE. -/
theorem C123_trim {par : TrimParams} {vol : List Row → ℚ} {dr : Draws} {knn : Nat → List Row → List Row → List (List Nat)}
    (hwf : WF d X y) (hk : KnnQueryOK knn) (hdr : dr.OK) (hmin : IsMinority y a b) (hmp : 0 ≤ par.minPrecision)
    (hg : par.ss.gaussian = .none) (hvol : ∀ vs, 0 ≤ vol vs)
    (h : sample defaultChecks d (trimSmoteAlg par vol dr d knn) X y = .ok (X', y')) : KeepsConditions d a X y X' y' := by
  rcases sample_cases (p := par.proportion) hmin (fun s hz => by unfold trimSmoteAlg; simp only [hz, ok_bind, if_true]; rfl) h with
    h3 | ⟨h3, hn⟩
  · exact keepsConditions_same h3
  obtain ⟨seeds, _, _, h1, h2⟩ := C64_trim hwf hk hdr hmin hmp hg hvol h3 hn h
  by_cases hs : ∃ s ∈ seeds, par.minPrecision / 10 < precisionOf a s
  · obtain ⟨r, _, _, hsub, h2⟩ := h2 hs
    exact h2.keeps hwf.1 (fun x hx => simplexOf_inHull (fun r hr => hsub.subset hr) (fun r hr => hsub.subset hr) hx)
  · exact keepsConditions_same (h1 (fun s hm => not_lt.1 fun hlt => hs ⟨s, hm, hlt⟩))

/-- NRSBoundary_SMOTE. -/
theorem C123_nrs {par : NrsParams} {dist : Row → Row → ℚ} {radius : List Row → Row → ℚ → List Nat} {vol : List Row → ℚ}
    {drs : Nat → Draws} {knn : Nat → List Row → List Row → List (List Nat)} (hwf : WF d X y) (hr : RadiusIs dist radius)
    (hk : KnnQueryOK knn) (hdr : ∀ t, (drs t).OK) (hmin : IsMinority y a b) (hg : par.ss.gaussian = .none) (hvol : ∀ vs, 0 ≤ vol vs)
    (h : sample defaultChecks d (nrsAlg par dist radius vol drs d knn) X y = .ok (X', y')) : KeepsConditions d a X y X' y' := by
  rcases sample_cases (p := par.proportion) hmin (fun s hz => by unfold nrsAlg; simp only [hz, ok_bind, if_true]; rfl) h with
    h3 | ⟨h3, hn⟩
  · exact keepsConditions_same h3
  obtain ⟨delta, bound, _, _, hb, h1, h2⟩ := C63_nrs hwf hr hk hdr hmin hg hvol h3 hn h
  by_cases hs : (∃ i, BoundaryRow dist delta X y a i) ∧ ∃ i, PositiveRow dist delta X y b i
  · obtain ⟨m, _, _, h2⟩ := (h2 hs.1 hs.2)
    refine h2.keeps hwf.1 (fun x hx => simplexOf_inHull ?_ (fun r hr => hr) hx.1)
    intro r hr
    obtain ⟨i, hi, rfl⟩ := List.mem_map.1 hr
    obtain ⟨h1, p, _, _, h2, _⟩ := (hb i).1 hi
    rw [List.getD_eq_getElem?_getD, h2, Option.getD_some, ← selectLabel_eq_classRows, C03_class_rows]
    exact ⟨i, h2, h1⟩
  · refine keepsConditions_same (h1 ?_)
    by_cases hc : ∃ i, BoundaryRow dist delta X y a i
    · exact Or.inr fun i hi => hs ⟨hc, i, hi⟩
    · exact Or.inl fun i hi => hc ⟨i, hi⟩

/-- SMMO. -/
theorem C123_smmo {par : NbParams} {predict : List Row → List Int → List (List Int)} {vol : List Row → ℚ}
    {pick : Nat → Nat → List Nat} {drs : Nat → Draws} {knn : Nat → List Row → List Row → List (List Nat)} (hwf : WF d X y)
    (hk : KnnQueryOK knn) (hp : PickOK pick) (hdr : ∀ i, (drs i).OK) (hmin : IsMinority y a b) (hg : par.ss.gaussian = .none)
    (hvol : ∀ vs, 0 ≤ vol vs) (h1 : 1 ≤ par.nNeighbors)
    (h : sample defaultChecks d (smmoAlg par predict vol pick drs d knn) X y = .ok (X', y')) : KeepsConditions d a X y X' y' := by
  rcases sample_cases (p := par.proportion) hmin (fun s hz => by unfold smmoAlg; simp only [hz, ok_bind, if_true]; rfl) h with
    h3 | ⟨h3, hn⟩
  · exact keepsConditions_same h3
  have h2 := C62_smmo hwf hk hp hdr hmin hg hvol h1 h3 hn h
  dsimp only at h2
  split at h2
  · exact keepsConditions_same h2
  · obtain ⟨new, q1, q2, q3, q5⟩ := h2
    have hlen : ∀ r ∈ classRows X y a, r.length = d := fun r hr => by
      rw [← selectLabel_eq_classRows] at hr; exact mem_selectLabel_length hwf hr
    refine keepsConditions_append hwf.1 q1 q2 q3 (fun x hx => ?_)
    obtain ⟨i, _, _, row, j, p, nbrs, m, hrow, _, hp, hnb, hm, hl, t, ht0, ht1, ht⟩ := q5.mem hx
    have hp := List.mem_of_getElem? hp
    have hcl : (classRows X y a).length = y.count a := by
      rw [← selectLabel_eq_classRows]; exact selectLabel_length hwf.1 a
    have hrl := ((hk (min (classRows X y a).length (par.nNeighbors + 1)) (classRows X y a) _ (min_le_left _ _)).2 row
      (List.mem_of_getElem? hrow)).1
    have hne : nbrs ≠ [] := by
      intro h0
      have := hnb.length_eq
      rw [h0, List.length_drop, hrl, hcl, List.length_nil] at this
      omega
    have hsub : ∀ r ∈ nbrs, r ∈ classRows X y a := forall2_getElem_mem (f := id) hnb
    exact inHull_segment ((isMean_inHull hne hm).mono hsub) (inHull_self hp (hlen p hp)) hl ht0 ht1 ht

theorem subData_keeps {Xs Xk : List Row} {ys yk : List Int} {K : List Nat} (h : SubData Xs ys Xk yk K)
    (hs : KeepsConditions d a X y Xs ys) : KeepsConditions d a X y Xk yk := by
  intro m c hc r hr
  refine hs m c hc r ?_
  rw [← selectLabel_eq_classRows, C03_class_rows] at hr ⊢
  obtain ⟨i, h1, h2⟩ := hr
  obtain ⟨_, hX, hY⟩ := h
  have hi : i < K.length := by
    rw [hX.length_eq]; exact (List.getElem?_eq_some_iff.1 h1).1
  refine ⟨K[i], ?_, ?_⟩
  · obtain ⟨hb, hb'⟩ := List.getElem?_eq_some_iff.1 h1
    have := hX.get (i := i) hi hb
    simpa [hb'] using this
  · obtain ⟨hb, hb'⟩ := List.getElem?_eq_some_iff.1 h2
    have := hY.get (i := i) hi hb
    simpa [hb'] using this

theorem smoteStep_keeps {n : Nat} {Xs : List Row} {ys : List Int} (hl : X.length = y.length) (h : SmoteStep d X y a n Xs ys) :
    KeepsConditions d a X y Xs ys := by
  obtain ⟨new, h1, h2, h3, h4⟩ := h
  exact keepsConditions_append hl h1 h2 h3 h4

/-- SMOTE_ENN. -/
theorem C123_smote_enn {par : SmoteParams} {vol : List Row → ℚ} {dr : Draws} {knn : Nat → List Row → List (List Nat)} (hwf : WF d X y)
    (hk : KnnOK knn) (hdr : dr.OK) (hg : par.ss.gaussian = .none) (hmin : IsMinority y a b)
    (h : sample defaultChecks d (smoteEnnAlg par vol dr d knn) X y = .ok (X', y')) : KeepsConditions d a X y X' y' := by
  obtain ⟨h1, h2⟩ := C38_smote_enn hwf hk hdr hg hmin h
  rcases Nat.lt_or_ge 2 (y.count a) with hc | hc
  · obtain ⟨Xs, ys, Xk, yk, K, hst, hsub, _, hif⟩ := h2 hc
    split at hif
    · obtain ⟨rfl, rfl⟩ := hif
      exact subData_keeps hsub (smoteStep_keeps hwf.1 hst)
    · exact keepsConditions_same hif
  · exact keepsConditions_same (h1 hc)

/-- SMOTE_TomekLinks. -/
theorem C123_smote_tomek {par : SmoteParams} {vol : List Row → ℚ} {dr : Draws} {knn : Nat → List Row → List (List Nat)}
    (hwf : WF d X y) (hk : KnnOK knn) (hdr : dr.OK) (hg : par.ss.gaussian = .none) (hmin : IsMinority y a b)
    (h : sample defaultChecks d (smoteTomekAlg par vol dr d knn) X y = .ok (X', y')) : KeepsConditions d a X y X' y' := by
  obtain ⟨h1, h2⟩ := C38_smote_tomek hwf hk hdr hg hmin h
  rcases Nat.lt_or_ge 2 (y.count a) with hc | hc
  · obtain ⟨Xs, ys, Xk, yk, K, hst, hsub, _, hif⟩ := h2 hc
    split at hif
    · exact keepsConditions_same hif
    · obtain ⟨rfl, rfl⟩ := hif
      exact subData_keeps hsub (smoteStep_keeps hwf.1 hst)
  · exact keepsConditions_same (h1 hc)

theorem cellRows_sub {cells : List MapCell} {c : MapCell} : ∀ r ∈ cellRows X cells y a c, r ∈ classRows X y a := by
  unfold cellRows
  induction X generalizing cells y with
  | nil => intro r hr; simp at hr
  | cons x X ih =>
    intro r hr
    cases cells with
    | nil => simp at hr
    | cons e cells =>
      cases y with
      | nil => simp at hr
      | cons l y =>
        rw [mem_classRows, List.zip_cons_cons, List.mem_cons]
        simp only [List.zip_cons_cons, List.filter_cons] at hr
        split at hr
        · rename_i he
          rw [decide_eq_true_eq, Prod.mk.injEq] at he
          rw [List.map_cons, List.mem_cons] at hr
          rcases hr with rfl | hr
          · exact Or.inl (by rw [he.2])
          · exact Or.inr (mem_classRows.1 (ih r hr))
        · exact Or.inr (mem_classRows.1 (ih r hr))

/-- SOMO. -/
theorem C123_somo {par : NbParams} {som : List Row → Row → MapCell} {pdist : Row → Row → ℚ} {vol : List Row → ℚ} {cu cu' : Nat → ℚ}
    {drs drs' : Nat → Draws} (hwf : WF d X y)
    (hcu : ∀ i, 0 ≤ cu i ∧ cu i < 1) (hcu' : ∀ i, 0 ≤ cu' i ∧ cu' i < 1) (hdr : ∀ i, (drs i).OK) (hdr' : ∀ i, (drs' i).OK)
    (hu : ∀ t i j, 0 < (drs t).simplexU i j) (hu' : ∀ t i j, 0 < (drs' t).simplexU i j) (hmin : IsMinority y a b)
    (hg : par.ss.gaussian = .none) (hvol : ∀ vs, 0 ≤ vol vs) (hd : 1 ≤ par.ss.nDim)
    (hwi : par.ss.within = .random ∨ (par.ss.within = .deterministic ∧ par.ss.nDim ≤ 2))
    (hmode : par.ss.simplexSampling = .random ∨ par.ss.simplexSampling = .deterministic ∨
      (par.ss.simplexSampling = .volume ∧ ∀ vs, 0 < vol vs))
    (h : sample defaultChecks d (somoAlg par som pdist vol cu cu' drs drs' d) X y = .ok (X', y')) : KeepsConditions d a X y X' y' := by
  rcases sample_cases (p := par.proportion) hmin (fun s hz => by unfold somoAlg; simp only [hz, ok_bind, if_true]; rfl) h with
    h3 | ⟨h3, hn⟩
  · exact keepsConditions_same h3
  obtain ⟨D, P, f, X2, y2, _, _, _, _, _, h1, h2, h4⟩ := C67_somo (som := som) (pdist := pdist) hwf hcu hcu' hdr hdr' hu hu' hmin hg
    hvol hd hwi hmode h3 hn
  rw [h] at h1
  injection h1 with h1
  obtain ⟨rfl, rfl⟩ := Prod.mk.inj h1
  by_cases hD : D = []
  · exact keepsConditions_same (h2 hD)
  · obtain ⟨sel, intra, inter, q1, q2, q3, q4, _, q6, q7⟩ := h4 hD
    have hle : intra.length ≤ requested par.proportion (y.count b) (y.count a) := by
      rw [q3]; split <;> omega
    refine keepsConditions_append hwf.1 q1 q2 (by rw [List.length_append]; omega) (fun x hx => ?_)
    rcases List.mem_append.1 hx with hx | hx
    · obtain ⟨j, _, _, c, _, hx⟩ := q6.mem hx
      exact clusterSimplex_inHull cellRows_sub hx
    · by_cases hP : P = []
      · rw [if_pos hP] at q3
        have : inter = [] := List.length_eq_zero_iff.1 (by omega)
        rw [this] at hx
        cases hx
      · obtain ⟨_, _, q8⟩ := q7 hP
        obtain ⟨j, _, _, c, _, p, hp, q, hq, w, hw⟩ := q8.mem hx
        refine inHull_base (cellRows_sub p hp) (fun r hr => ?_) hw
        rw [List.mem_singleton.1 hr]
        exact cellRows_sub q hq

/-- Assembled_SMOTE. -/
theorem C123_assembled {par : NbParams} {pop : Nat} {aligned : List Row → List Row → Bool} {vol : List Row → ℚ} {cu : Nat → ℚ}
    {drs : Nat → Draws} {dist : Row → Row → ℚ} {knn : Nat → List Row → List Row → List (List Nat)} (hwf : WF d X y)
    (hk : KnnQueryOK knn) (hcu : ∀ i, 0 ≤ cu i ∧ cu i < 1)
    (hdr : ∀ i, (drs i).OK) (hu : ∀ t i j, 0 < (drs t).simplexU i j) (hmin : IsMinority y a b) (hg : par.ss.gaussian = .none)
    (hvol : ∀ vs, 0 ≤ vol vs) (hd : 1 ≤ par.ss.nDim)
    (hmode : par.ss.simplexSampling = .random ∨ par.ss.simplexSampling = .deterministic ∨
      (par.ss.simplexSampling = .volume ∧ ∀ vs, 0 < vol vs))
    (hwi : par.ss.within = .random ∨ (par.ss.within = .deterministic ∧ par.ss.nDim ≤ 2))
    (h : sample defaultChecks d (assembledAlg par pop aligned vol cu drs d dist knn) X y = .ok (X', y')) :
    KeepsConditions d a X y X' y' := by
  rcases sample_cases (p := par.proportion) hmin (fun s hz => by unfold assembledAlg; simp only [hz, ok_bind, if_true]; rfl) h with
    h3 | ⟨h3, hn⟩
  · exact keepsConditions_same h3
  have h1 := C105_assembled (pop := pop) (aligned := aligned) (dist := dist) hwf hk hcu hdr hu hmin hg hvol hd hmode hwi h3 hn
  dsimp only at h1
  split at h1
  · rw [h] at h1
    injection h1 with h1
    exact keepsConditions_same (Prod.mk.inj h1)
  · obtain ⟨clusters, sel, new, q1, q2, q3, _, _, _, q7⟩ := h1
    rw [h] at q1
    injection q1 with q1
    obtain ⟨rfl, rfl⟩ := Prod.mk.inj q1
    refine keepsConditions_append hwf.1 rfl rfl q2 (fun x hx => ?_)
    obtain ⟨j, hj, _, hx⟩ := q7.mem hx
    rw [List.getD_eq_getElem?_getD, List.getElem?_eq_getElem hj, Option.getD_some] at hx
    have hsub : ∀ r ∈ (assembledGroups (borderRows knn par.nNeighbors X y a) (innerRows knn par.nNeighbors X y a) clusters)[j],
        r ∈ classRows X y a := by
      have hget : ∀ (p : Nat → Bool), ∀ r ∈ ((List.range (classRows X y a).length).filter p).map (fun i => (classRows X y a).getD i []),
          r ∈ classRows X y a := by
        intro p r hr
        obtain ⟨i, hi, rfl⟩ := List.mem_map.1 hr
        have hi := List.mem_range.1 (List.mem_filter.1 hi).1
        rw [List.getD_eq_getElem?_getD, List.getElem?_eq_getElem hi, Option.getD_some]
        exact List.getElem_mem hi
      intro r hr
      rcases ((groups_spec (inner := innerRows knn par.nNeighbors X y a) q3).1 _ (List.getElem_mem hj)).2 with h5 | h5
      · exact hget _ r (h5 r hr)
      · rw [h5] at hr
        exact hget _ r hr
    exact simplexOf_inHull hsub hsub hx

/-- G_SMOTE, when it adds rows. -/
theorem C123_gsmote {par : NbParams} {angles : List Row → List (List Nat) → Res (List (List ℚ))} {argsort : List ℚ → List Nat}
    {vol : List Row → ℚ} {dr : Draws} {knn : Nat → List Row → List Row → List (List Nat)} {thetas : List (List ℚ)} (hwf : WF d X y)
    (hk : KnnQueryOK knn) (hargs : ArgsortOK argsort) (hdr : dr.OK) (hu : ∀ i j, 0 < dr.simplexU i j) (hmin : IsMinority y a b)
    (hg : par.ss.gaussian = .none) (hvol : ∀ vs, 0 ≤ vol vs) (hd : 1 ≤ par.ss.nDim)
    (hwi : par.ss.within = .random ∨ (par.ss.within = .deterministic ∧ par.ss.nDim ≤ 2))
    (hmode : par.ss.simplexSampling = .random ∨ par.ss.simplexSampling = .deterministic ∨
      (par.ss.simplexSampling = .volume ∧ ∀ vs, 0 < vol vs))
    (h3 : 2 < y.count a) (h2 : 2 ≤ d) (hn : 0 < requested par.proportion (y.count b) (y.count a))
    (hang : angles (classRows X y a) (knn (min (y.count a) (par.nNeighbors + 1)) (classRows X y a) (classRows X y a)) = .ok thetas)
    (hth : AnglesOK (knn (min (y.count a) (par.nNeighbors + 1)) (classRows X y a) (classRows X y a)) thetas)
    (h : sample gChecks d (gsmoteAlg par angles argsort vol dr d knn) X y = .ok (X', y')) : KeepsConditions d a X y X' y' := by
  obtain ⟨X2, y2, h1, h4⟩ := C68_gsmote hwf hk hargs hdr hu hmin hg hvol hd hwi hmode h3 h2 hn hang hth
  rw [h] at h1
  injection h1 with h1
  obtain ⟨rfl, rfl⟩ := Prod.mk.inj h1
  refine h4.keeps hwf.1 ?_
  rintro x ⟨i, base, row, ps, nbrs, w, q1, _, _, _, _, _, q2, q3⟩
  refine inHull_base (List.mem_of_getElem? q1) (fun r hr => ?_) q3
  obtain ⟨_, _, _, _, hi⟩ := forall₂_mem_right q2 hr
  exact List.mem_of_getElem? hi

/-! ## Consequences -/

/-- Linear equations are kept wherever linear conditions are kept. -/
theorem C123_equations (h : KeepsConditions d a X y X' y') : KeepsRelations d a X y X' y' := h.relations

/-- The ranges of the features are kept wherever linear conditions are kept. -/
theorem C123_ranges (h : KeepsConditions d a X y X' y') : KeepsRanges d a X y X' y' := h.ranges

/-- A feature which is constant in the minority class stays so wherever the ranges are kept. -/
theorem C123_constants_of_ranges (h : KeepsRanges d a X y X' y') : KeepsConstants d a X y X' y' := h.constants

/-- A feature which is constant in the minority class stays so wherever relations are kept. -/
theorem C123_constants (h : KeepsRelations d a X y X' y') : KeepsConstants d a X y X' y' := h.constants

/-- If all minority rows are equal, every minority row of the result is a copy of them. -/
theorem C123_copies {p : Row} (hp : p.length = d) (hX : ∀ r ∈ X', r.length = d) (h : KeepsConstants d a X y X' y')
    (he : ∀ r ∈ classRows X y a, r = p) : ∀ r ∈ classRows X' y' a, r = p := by
  intro r hr
  have hr' : r ∈ X' := classRows_sub r hr
  refine row_ext (hX r hr') hp (fun k hk => ?_)
  exact h k (p.getD k 0) hk (fun q hq => by rw [he q hq]) r hr

/-- Random_SMOTE keeps the ranges of the features. -/
theorem C123_random_smote {prop : ℚ} {k : Nat} {dr : RsDraws} {knn : Nat → List Row → List (List Nat)} (hwf : WF d X y)
    (hmin : IsMinority y a b) (hu1 : ∀ i j, 0 ≤ dr.u1 i j ∧ dr.u1 i j ≤ 1) (hu2 : ∀ i j, 0 ≤ dr.u2 i j ∧ dr.u2 i j ≤ 1)
    (h : sample defaultChecks d (randomSmoteAlg prop k dr knn) X y = .ok (X', y')) : KeepsRanges d a X y X' y' := by
  rcases C31_random_smote hwf hmin hu1 hu2 h with ⟨rfl, rfl⟩ | ⟨new, rfl, rfl, h3, h4⟩
  · exact fun _ _ _ _ h => h
  · intro k lo hi hk hc r hr
    rw [← h3, classRows_append hwf.1, classRows_replicate, List.mem_append] at hr
    rcases hr with hr | hr
    · exact hc r hr
    · obtain ⟨⟨p, hp, h5⟩, q, hq, h6⟩ := (h4 r hr).2.2 k hk
      exact ⟨le_trans (hc p hp).1 h5, le_trans h6 (hc q hq).2⟩

/-! ## Equations are broken -/

/-- Shares of two features which add up to ten in the minority class. -/
def relX : List Row := [[0, 10], [4, 6], [8, 2], [1, 1], [2, 2], [3, 3], [4, 4]]
def relY : List Int := [1, 1, 1, 0, 0, 0, 0]

theorem relX_sum : ∀ r ∈ classRows relX relY 1, Fulfils 2 (fun _ => 1) 10 r := by
  unfold Fulfils
  decide +kernel

/-- Random_SMOTE moves every feature by a share of its own, so that the sum of two features is lost. -/
theorem C123_random_smote_not : ∃ dr : RsDraws, (∀ i j, 0 ≤ dr.u1 i j ∧ dr.u1 i j < 1) ∧ (∀ i j, 0 ≤ dr.u2 i j ∧ dr.u2 i j < 1) ∧
    sample defaultChecks 2 (randomSmoteAlg 1 2 dr bruteKnn) relX relY = .ok (relX ++ [[2, 10]], relY ++ [1]) ∧
    ¬ KeepsRelations 2 1 relX relY (relX ++ [[2, 10]]) (relY ++ [1]) := by
  refine ⟨⟨fun _ => 0, fun _ => 1, fun _ => 2, fun _ _ => 0, fun _ j => if j = 0 then 1 / 2 else 0⟩, ?_, ?_, by decide +kernel, ?_⟩
  · intro i j; norm_num
  · intro i j
    by_cases h : j = 0 <;> norm_num [h]
  · intro h
    have h1 := h _ _ relX_sum [2, 10] (by decide +kernel)
    revert h1
    unfold Fulfils
    decide +kernel

/-- The second feature is five in the minority class. -/
def relSafeX : List Row := [[0, 5], [1, 7], [10, 5], [11, 7], [30, 5], [31, 7], [50, 7]]
def relSafeY : List Int := [1, 0, 1, 0, 1, 0, 0]

def relBorX : List Row := [[0, 5], [8, 5], [9, 5], [14, 5], [10, 7], [12, 7], [13, 7], [15, 7], [16, 7], [17, 7]]

theorem relSafeX_five : ∀ r ∈ classRows relSafeX relSafeY 1, r.getD 1 0 = 5 := by decide +kernel

/-- Safe_Level_SMOTE, MSMOTE and Borderline_SMOTE2 use rows of the other class and so do not even keep a constant feature. -/
theorem C123_constants_not :
    (∃ (dr : SlDraws) (x : Row), (∀ i j, 0 ≤ dr.u i j ∧ dr.u i j < 1) ∧
      sample defaultChecks 2 (safeLevelAlg 1 1 dr bruteKnn) relSafeX relSafeY = .ok (relSafeX ++ [x], relSafeY ++ [1]) ∧
      ¬ KeepsConstants 2 1 relSafeX relSafeY (relSafeX ++ [x]) (relSafeY ++ [1])) ∧
    (∃ (dr : MsDraws) (x : Row), (∀ i, 1 ≤ dr.nb i) ∧ (∀ i j, 0 ≤ dr.u i j ∧ dr.u i j < 1) ∧
      sample defaultChecks 2 (msmoteAlg 1 2 dr bruteQuery) relSafeX relSafeY = .ok (relSafeX ++ [x], relSafeY ++ [1]) ∧
      ¬ KeepsConstants 2 1 relSafeX relSafeY (relSafeX ++ [x]) (relSafeY ++ [1])) ∧
    (∃ x : Row, sample defaultChecks 2 (borderline2Alg { borPar with proportion := 1 / 2 } (fun _ => 1) exDraws 2 bruteQuery) relBorX
        borY = .ok (relBorX ++ [x], borY ++ [1]) ∧
      ¬ KeepsConstants 2 1 relBorX borY (relBorX ++ [x]) (borY ++ [1])) := by
  refine ⟨⟨⟨fun _ => 0, fun _ _ => 0⟩, [1, 7], by intro i j; norm_num, by decide +kernel, ?_⟩,
    ⟨⟨fun _ => 0, fun _ => 1, fun _ _ => 1 / 2⟩, [1 / 2, 6], by intro i; exact le_refl 1, by intro i j; norm_num, by decide +kernel, ?_⟩,
    ⟨[46 / 5, 27 / 5], by decide +kernel, ?_⟩⟩
  · intro h
    have h1 := h 1 5 (by decide) relSafeX_five [1, 7] (by decide +kernel)
    revert h1
    decide +kernel
  · intro h
    have h1 := h 1 5 (by decide) relSafeX_five [1 / 2, 6] (by decide +kernel)
    revert h1
    decide +kernel
  · intro h
    have h1 := h 1 5 (by decide) (by decide +kernel) [46 / 5, 27 / 5] (by decide +kernel)
    revert h1
    decide +kernel

/-- The polynomial topology of polynom_fit_SMOTE evaluates the curve at a position of its own in every feature: even for a class on a
straight line, which the fitted polynomials describe exactly, the sum of two features is lost. -/
theorem C123_poly_not : ∃ (fit : List Row → Nat → ℚ → ℚ) (u : Nat → Nat → ℚ), (∀ i j, 0 ≤ u i j ∧ u i j < 1) ∧
    (∀ (i k : Nat) (r : Row), (classRows relX relY 1)[i]? = some r → k < 2 → fit (classRows relX relY 1) k i = r.getD k 0) ∧
    polynomClass 1 (.poly fit u) 2 relX relY = .ok (relX ++ [[0, 4]], relY ++ [1]) ∧
    ¬ KeepsRelations 2 1 relX relY (relX ++ [[0, 4]]) (relY ++ [1]) := by
  refine ⟨fun _ k t => if k = 0 then 4 * t else 10 - 4 * t, fun k _ => if k = 0 then 0 else 1 / 2, ?_, ?_, by decide +kernel, ?_⟩
  · intro i j
    by_cases h : i = 0 <;> norm_num [h]
  · intro i k r hr hk
    have hA : classRows relX relY 1 = [[0, 10], [4, 6], [8, 2]] := by decide +kernel
    rw [hA] at hr
    have hi : i < 3 := (List.getElem?_eq_some_iff.1 hr).1
    have hk' : k = 0 ∨ k = 1 := by omega
    have hi' : i = 0 ∨ i = 1 ∨ i = 2 := by omega
    rcases hi' with rfl | rfl | rfl <;> (injection hr with hr; subst hr; rcases hk' with rfl | rfl <;> norm_num)
  · intro h
    have h1 := h _ _ relX_sum [0, 4] (by decide +kernel)
    revert h1
    unfold Fulfils
    decide +kernel

/-! ## Non-vacuity -/

example : WF 2 relX relY ∧ IsMinority relY 1 0 ∧ KnnOK exKnn ∧ exDraws.OK ∧ exPar.ss.gaussian = .none ∧
    (∀ r ∈ classRows relX relY 1, Fulfils 2 (fun _ => 1) 10 r) ∧
    (match smoteSample exPar (fun _ => 1) exDraws 2 exKnn relX relY with
     | .ok r => decide (r.2 = relY ++ [1] ∧ r.1.length = 8 ∧ ∀ q ∈ r.1.drop 7, q ∉ relX ∧ q.sum = 10)
     | .error _ => false) = true :=
  ⟨by decide +kernel, ⟨by decide, by decide, by decide, Or.inl (by decide)⟩, exKnn_ok, exDraws_ok, rfl, relX_sum, by decide +kernel⟩

end Verif

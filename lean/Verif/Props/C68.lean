import Verif.Model.GSmote
import Verif.Props.C33
import Verif.Props.C42
import Verif.Props.C58

/-!
# C68: G_SMOTE mixes a minority row with the neighbours whose direction is closest to a given one
-/

namespace Verif

/-! ## Specification -/

/-- One angle for every neighbour behind the first. -/
def AnglesOK (ind : List (List Nat)) (thetas : List (List ℚ)) : Prop :=
  List.Forall₂ (fun row th => th.length = row.length - 1) ind thetas

/-- `x` is a convex combination of a row of `A` and exactly those `m` of its neighbours (behind the first entry of its list, by their
places `ps` in the list) which have the smallest values of `th`. -/
def SmallestAngles (d m : Nat) (A : List Row) (ind : List (List Nat)) (th : Nat → List ℚ) (x : Row) : Prop :=
  ∃ (b : Nat) (base : Row) (row ps : List Nat) (nbrs : List Row) (w : List ℚ), A[b]? = some base ∧ ind[b]? = some row ∧
    ps.Nodup ∧ ps.length = m ∧ (∀ p ∈ ps, p < row.length - 1) ∧
    (∀ p ∈ ps, ∀ q, q < row.length - 1 → q ∉ ps → (th b).getD p 0 ≤ (th b).getD q 0) ∧
    List.Forall₂ (fun p r => ∃ i, row[p + 1]? = some i ∧ A[i]? = some r) ps nbrs ∧ IsConvexComb d w (base :: nbrs) x

/-- The cosine of the angle between the differences to the base row and the direction `H`, without sign. -/
def cosine (norm : Row → ℚ) (H base r : Row) : ℚ :=
  |dotRow (List.zipWith (· - ·) r base) H| / (norm (List.zipWith (· - ·) r base) * norm H)

/-! ## Helpers -/

theorem forall₂_get_left {α β : Type} {R : α → β → Prop} {l : List α} {r : List β} (h : List.Forall₂ R l r)
    {k : Nat} {a : α} (hk : l[k]? = some a) : ∃ b, r[k]? = some b ∧ R a b := by
  obtain ⟨b, hb, h'⟩ := forall₂_get_right h.flip hk
  exact ⟨b, hb, h'⟩

theorem gIndices_spec {argsort : List ℚ → List Nat} (ha : ArgsortOK argsort) {nDim : Nat} {ind : List (List Nat)}
    {thetas : List (List ℚ)} (h : AnglesOK ind thetas) :
    ∃ indices, gIndices argsort nDim ind thetas = .ok indices ∧ indices.length = ind.length ∧
      ∀ (b : Nat) (row : List Nat), ind[b]? = some row → ∃ th, thetas[b]? = some th ∧ th.length = row.length - 1 ∧
        indices[b]? = some (b :: ((argsort th).take (nDim - 1)).map (fun p => (row.drop 1).getD p 0)) := by
  have hm : (ind.zip thetas).mapM (fun (p : List Nat × List ℚ) => takeRows (p.1.drop 1) (argsort p.2)) =
      .ok ((ind.zip thetas).map (fun p => (argsort p.2).map (fun i => (p.1.drop 1).getD i 0))) := by
    apply mapM_ok_of
    rintro ⟨row, th⟩ hp
    apply takeRows_map_getD 0
    intro i hi
    have hl : th.length = row.length - 1 := by
      obtain ⟨j, hj⟩ := List.mem_iff_getElem?.1 hp
      rw [List.getElem?_zip_eq_some] at hj
      obtain ⟨th', h1, h2⟩ := forall₂_get_left h hj.1
      rw [hj.2] at h1
      injection h1 with h1
      subst h1
      exact h2
    have := ((ha th).1.mem_iff).1 hi
    rw [List.mem_range] at this
    rw [List.length_drop]
    dsimp only at *
    omega
  have hl := h.length_eq
  refine ⟨_, by unfold gIndices; rw [hm, ok_bind]; rfl, by simp [hl], ?_⟩
  intro b row hb
  obtain ⟨th, h1, h2⟩ := forall₂_get_left h hb
  refine ⟨th, h1, h2, ?_⟩
  rw [List.getElem?_map, List.getElem?_zipIdx, List.getElem?_map, (List.getElem?_zip_eq_some (z := (row, th))).2 ⟨hb, h1⟩]
  simp [List.map_take]

theorem argsort_take {argsort : List ℚ → List Nat} (ha : ArgsortOK argsort) (th : List ℚ) (m : Nat) :
    ((argsort th).take m).Nodup ∧ ((argsort th).take m).length = min m th.length ∧ (∀ p ∈ (argsort th).take m, p < th.length) ∧
      ∀ p ∈ (argsort th).take m, ∀ q, q < th.length → q ∉ (argsort th).take m → th.getD p 0 ≤ th.getD q 0 := by
  obtain ⟨h1, h2⟩ := ha th
  refine ⟨(h1.nodup_iff.2 List.nodup_range).sublist (List.take_sublist _ _), ?_, ?_, ?_⟩
  · rw [List.length_take, h1.length_eq, List.length_range]
  · intro p hp
    exact List.mem_range.1 (h1.mem_iff.1 (List.mem_of_mem_take hp))
  · intro p hp q hq hn
    have hq' : q ∈ argsort th := h1.mem_iff.2 (List.mem_range.2 hq)
    rw [← List.take_append_drop m (argsort th)] at hq' h2
    rcases List.mem_append.1 hq' with h | h
    · exact absurd h hn
    · exact (List.pairwise_append.1 h2).2.2 p hp q h

/-! ## The property -/

/-- **G_SMOTE**, for either way of computing the angles: exactly the requested number of minority rows is appended, each a convex
combination of a minority row and exactly those `n_dim - 1` of its neighbours with the smallest angles. -/
theorem C68_gsmote {par : NbParams} {angles : List Row → List (List Nat) → Res (List (List ℚ))} {argsort : List ℚ → List Nat}
    {vol : List Row → ℚ} {dr : Draws} {d : Nat} {knn : Nat → List Row → List Row → List (List Nat)}
    {X : List Row} {y : List Int} {a b : Int} {thetas : List (List ℚ)} (hwf : WF d X y) (hk : KnnQueryOK knn)
    (hargs : ArgsortOK argsort) (hdr : dr.OK) (hu : ∀ i j, 0 < dr.simplexU i j) (hmin : IsMinority y a b)
    (hg : par.ss.gaussian = .none) (hvol : ∀ vs, 0 ≤ vol vs) (hd : 1 ≤ par.ss.nDim)
    (hwi : par.ss.within = .random ∨ (par.ss.within = .deterministic ∧ par.ss.nDim ≤ 2))
    (hmode : par.ss.simplexSampling = .random ∨ par.ss.simplexSampling = .deterministic ∨
      (par.ss.simplexSampling = .volume ∧ ∀ vs, 0 < vol vs))
    (h3 : 2 < y.count a) (h2 : 2 ≤ d) (hn : 0 < requested par.proportion (y.count b) (y.count a))
    (hang : angles (classRows X y a) (knn (min (y.count a) (par.nNeighbors + 1)) (classRows X y a) (classRows X y a)) = .ok thetas)
    (hth : AnglesOK (knn (min (y.count a) (par.nNeighbors + 1)) (classRows X y a) (classRows X y a)) thetas) :
    ∃ X' y', sample gChecks d (gsmoteAlg par angles argsort vol dr d knn) X y = .ok (X', y') ∧
      OversampledBy X y a (requested par.proportion (y.count b) (y.count a))
        (SmallestAngles d (min (par.ss.nDim - 1) (min (y.count a - 1) par.nNeighbors)) (classRows X y a)
          (knn (min (y.count a) (par.nNeighbors + 1)) (classRows X y a) (classRows X y a)) (fun b => thetas.getD b [])) X' y' := by
  obtain ⟨s, hs, rfl, rfl⟩ := stats_of_isMinority hmin
  obtain ⟨hm, hM, hab⟩ := stats_min_mem hs
  have hAl : (classRows X y s.minLabel).length = y.count s.minLabel := classRows_length hwf.1 _
  set A := classRows X y s.minLabel with hA
  set k := min (y.count s.minLabel) (par.nNeighbors + 1) with hkd
  obtain ⟨k1, k2⟩ := hk k A A (by omega)
  set ind := knn k A A with hind
  obtain ⟨indices, i1, i2, i3⟩ := gIndices_spec hargs (nDim := par.ss.nDim) hth
  have hwk : min (par.ss.nDim - 1) (k - 1) = min (par.ss.nDim - 1) (min (y.count s.minLabel - 1) par.nNeighbors) := by omega
  have hrun : sample gChecks d (gsmoteAlg par angles argsort vol dr d knn) X y = (do
      let samples ← sampleSimplex par.ss vol dr d A indices (min (par.ss.nDim - 1) (k - 1) + 1)
        (requested par.proportion (y.count s.majLabel) (y.count s.minLabel)) {}
      return withSamples X y s.minLabel samples) := by
    unfold sample
    have hc : checksFire (y.count s.minLabel) d gChecks = false := by
      unfold gChecks
      simp only [checksFire]
      have : (2 : ℚ) < (y.count s.minLabel : ℚ) := by exact_mod_cast h3
      have h2' : (2 : ℚ) ≤ d := by exact_mod_cast h2
      rw [if_neg (by linarith), if_neg (by linarith)]
    rw [hs, ok_bind, stats_count hs hm, hc]
    simp only [Bool.false_eq_true, if_false]
    unfold gsmoteAlg
    rw [stats_count hs hm, stats_count hs hM, detN_eq_requested, ok_bind, if_neg (by omega)]
    simp only [selectLabel_eq_classRows, ← hA, hAl, ← hkd, ← hind]
    rw [hang, ok_bind, i1, ok_bind]
  have hlen : ∀ r ∈ A, r.length = d := fun r hr => hwf.2 r (mem_of_mem_classRows hr)
  have htab : ∀ (c : Nat) (r : List Nat), indices[c]? = some r → ∃ row th, ind[c]? = some row ∧ thetas[c]? = some th ∧
      th.length = k - 1 ∧ row.length = k ∧ (∀ i ∈ row, i < A.length) ∧
      r = c :: ((argsort th).take (par.ss.nDim - 1)).map (fun p => (row.drop 1).getD p 0) := by
    intro c r hr
    have hc : c < ind.length := by
      have := (List.getElem?_eq_some_iff.1 hr).1
      omega
    obtain ⟨th, h1, h2, h3⟩ := i3 c ind[c] (List.getElem?_eq_getElem hc)
    obtain ⟨g1, g2⟩ := k2 _ (List.getElem_mem hc)
    rw [hr] at h3
    injection h3 with h3
    exact ⟨_, th, List.getElem?_eq_getElem hc, h1, by omega, g1, g2, h3⟩
  have hT : TableOK indices (min (par.ss.nDim - 1) (k - 1) + 1) A.length := by
    intro r hr
    obtain ⟨c, hc⟩ := List.mem_iff_getElem?.1 hr
    obtain ⟨row, th, h1, h2, h3, h4, h5, rfl⟩ := htab c r hc
    obtain ⟨t1, t2, t3, t4⟩ := argsort_take hargs th (par.ss.nDim - 1)
    refine ⟨by rw [List.length_cons, List.length_map, t2, h3], ?_⟩
    intro v hv
    rcases List.mem_cons.1 hv with rfl | hv
    · have := (List.getElem?_eq_some_iff.1 h1).1
      omega
    · obtain ⟨p, hp, rfl⟩ := List.mem_map.1 hv
      have := t3 p hp
      have hp' : p < (row.drop 1).length := by rw [List.length_drop]; omega
      rw [List.getD_eq_getElem?_getD, List.getElem?_eq_getElem hp']
      exact h5 _ (List.mem_of_mem_drop (List.getElem_mem hp'))
  have hIl : indices.length = A.length := by rw [i2, k1]
  obtain ⟨out, hout⟩ := sampleSimplex_ok (ss := par.ss) (vol := vol) (dr := dr) (d := d) (X := A) (indices := indices)
    (k := min (par.ss.nDim - 1) (k - 1) + 1) (n := requested par.proportion (y.count s.majLabel) (y.count s.minLabel)) (a := {})
    hT hIl.le (by intro h0; rw [h0, List.length_nil] at hIl; omega) (by omega) hd rfl (by intro ws hws; cases hws)
    (by intro hV; cases hV) hmode hdr.choice hu (by
      rcases hwi with h | ⟨h, h'⟩
      · exact .inl h
      · exact .inr ⟨h, by omega⟩)
  obtain ⟨s1, s2⟩ := sampleSimplex_simplexOf hlen (by intro V hV; cases hV) rfl (by intro hV; cases hV) hdr hIl.le hg
    (by intro w hw; cases hw) rfl hvol hout
  refine ⟨_, _, by rw [hrun, hout]; rfl, withSamples_oversampledBy s1 (fun x hx => ?_) rfl⟩
  obtain ⟨bb, base, r, nbIdx, nbrs, w, q1, _, q3, q4, q5, q6, q7⟩ := s2 x hx
  obtain ⟨row, th, h1, h2, h3, h4, h5, rfl⟩ := htab bb r q3
  obtain ⟨t1, t2, t3, t4⟩ := argsort_take hargs th (par.ss.nDim - 1)
  rw [List.drop_succ_cons, List.drop_zero] at q4
  have heq := q4.eq_of_length (by rw [List.length_map, t2, h3]; omega)
  subst heq
  refine ⟨bb, base, row, _, nbrs, w, q1, h1, t1, by rw [t2, h3, hwk], fun p hp => by have := t3 p hp; omega, ?_, ?_, q7⟩
  · intro p hp q hq hn
    dsimp only
    rw [List.getD_eq_getElem?_getD (l := thetas), h2, Option.getD_some]
    exact t4 p hp q (by omega) hn
  · rw [List.forall₂_map_left_iff] at q6
    have := List.forall₂_and_left (p := fun p => p ∈ (argsort th).take (par.ss.nDim - 1)) _ _ |>.2 ⟨fun p hp => hp, q6⟩
    refine this.imp ?_
    rintro p r ⟨hp, hr⟩
    have hlt := t3 p hp
    have hp' : p < (row.drop 1).length := by rw [List.length_drop]; omega
    refine ⟨_, ?_, hr⟩
    rw [List.getD_eq_getElem?_getD, List.getElem?_eq_getElem hp', Option.getD_some, List.getElem_drop, Nat.add_comm]
    exact List.getElem?_eq_getElem _

/-! ## The linear method -/

/-- Contract of the norm: non-negative, with the inequality of Cauchy and Schwarz. -/
def NormOK (norm : Row → ℚ) : Prop := (∀ v, 0 ≤ norm v) ∧ ∀ v w, |dotRow v w| ≤ norm v * norm w

/-- Contract of the arc cosine: strictly decreasing between 0 and 1. -/
def ArccosOK (arccos : ℚ → ℚ) : Prop := ∀ x z, 0 ≤ x → x < z → z ≤ 1 → arccos z < arccos x

/-- The negated cosines for the neighbours in row `b` of the table. -/
def negCosines (norm : Row → ℚ) (H : Row) (A : List Row) (ind : List (List Nat)) (b : Nat) : List ℚ :=
  ((ind.getD b []).drop 1).map (fun i => -cosine norm H (A.getD ((ind.getD b []).getD 0 0) []) (A.getD i []))

theorem firstMax_spec {l : List ℚ} (hl : l ≠ []) : ∃ i x, firstMax l = .ok i ∧ l[i]? = some x ∧ ∀ z ∈ l, z ≤ x := by
  cases l with
  | nil => exact absurd rfl hl
  | cons a l =>
    have key : ∀ (l : List ℚ) (a : ℚ), (l.foldl max a = a ∨ l.foldl max a ∈ l) ∧ a ≤ l.foldl max a ∧
        ∀ z ∈ l, z ≤ l.foldl max a := by
      intro l
      induction l with
      | nil => intro a; simp
      | cons c l ih =>
        intro a
        rw [List.foldl_cons]
        obtain ⟨h1, h2, h3⟩ := ih (max a c)
        refine ⟨?_, le_trans (le_max_left _ _) h2, ?_⟩
        · rcases h1 with h1 | h1
          · rw [h1]
            rcases max_choice a c with h | h
            · exact .inl h
            · rw [h]; exact .inr (by simp)
          · exact .inr (by simp [h1])
        · intro z hz
          rcases List.mem_cons.1 hz with rfl | hz
          · exact le_trans (le_max_right _ _) h2
          · exact h3 z hz
    obtain ⟨h1, h2, h3⟩ := key l a
    have hmem : l.foldl max a ∈ a :: l := by
      rcases h1 with h1 | h1
      · rw [h1]; simp
      · simp [h1]
    refine ⟨_, _, rfl, by rw [List.getElem?_eq_getElem (List.idxOf_lt_length_iff.2 hmem), List.getElem_idxOf], ?_⟩
    intro z hz
    rcases List.mem_cons.1 hz with rfl | hz
    · exact h2
    · exact h3 z hz

theorem cosine_bounds {norm : Row → ℚ} (hnorm : NormOK norm) (H base r : Row) :
    0 ≤ cosine norm H base r ∧ cosine norm H base r ≤ 1 ∧
      |dotRow (List.zipWith (· - ·) r base) H| / (if norm (List.zipWith (· - ·) r base) * norm H = 0 then 1 / 100000
        else norm (List.zipWith (· - ·) r base) * norm H) = cosine norm H base r := by
  unfold cosine
  set P := List.zipWith (· - ·) r base
  have h1 := hnorm.2 P H
  have h2 : 0 ≤ norm P * norm H := mul_nonneg (hnorm.1 _) (hnorm.1 _)
  refine ⟨by positivity, div_le_one_of_le₀ h1 h2, ?_⟩
  split
  · rename_i h
    rw [h] at h1 ⊢
    have : |dotRow P H| = 0 := le_antisymm h1 (abs_nonneg _)
    rw [this]; simp
  · rfl

theorem gLinear_spec {norm : Row → ℚ} {arccos : ℚ → ℚ} {eig : List Row → List ℚ × List Row} {d k : Nat} {A : List Row}
    {ind : List (List Nat)} {H : Row} (hH : gDirection eig d A = .ok H) (hnorm : NormOK norm) (hk : 1 ≤ k)
    (ht : TableOK ind k A.length) :
    gLinear norm arccos eig d A ind = .ok (ind.map (fun row => (row.drop 1).map (fun i =>
      arccos (cosine norm H (A.getD (row.getD 0 0) []) (A.getD i []))))) := by
  unfold gLinear
  rw [hH, ok_bind]
  apply mapM_ok_of
  intro row hrow
  obtain ⟨h1, h2⟩ := ht row hrow
  unfold gAngleRow
  cases row with
  | nil => rw [List.length_nil] at h1; omega
  | cons b rest =>
    have hb := h2 b (by simp)
    rw [show getRow (b :: rest) 0 = .ok b from rfl, ok_bind, getRow_ok.2 (List.getElem?_eq_getElem hb), ok_bind]
    apply mapM_ok_of
    intro j hj
    have hj' := h2 j (List.mem_of_mem_drop hj)
    rw [getRow_ok.2 (List.getElem?_eq_getElem hj'), ok_bind]
    dsimp only
    rw [(cosine_bounds hnorm H A[b] A[j]).2.2, List.getD_eq_getElem?_getD (l := A), List.getD_eq_getElem?_getD (l := A),
      List.getD_cons_zero, List.getElem?_eq_getElem hb, List.getElem?_eq_getElem hj']
    rfl

/-- **G_SMOTE with the linear method**: every new row is a convex combination of a minority row and those `n_dim - 1` of its neighbours
whose differences to it have the largest cosine (without sign) with `H`, where `H` is the *row* of the matrix of the eigenvectors of
the covariance at the position of the largest eigenvalue. -/
theorem C68_linear {par : NbParams} {norm : Row → ℚ} {arccos : ℚ → ℚ} {eig : List Row → List ℚ × List Row}
    {argsort : List ℚ → List Nat} {vol : List Row → ℚ} {dr : Draws} {d : Nat}
    {knn : Nat → List Row → List Row → List (List Nat)}
    {X : List Row} {y : List Int} {a b : Int} (hwf : WF d X y) (hk : KnnQueryOK knn)
    (hnorm : NormOK norm) (harc : ArccosOK arccos) (heig : ∀ M, (eig M).1.length = M.length ∧ (eig M).2.length = M.length)
    (hargs : ArgsortOK argsort) (hdr : dr.OK) (hu : ∀ i j, 0 < dr.simplexU i j) (hmin : IsMinority y a b)
    (hg : par.ss.gaussian = .none) (hvol : ∀ vs, 0 ≤ vol vs) (hd : 1 ≤ par.ss.nDim)
    (hwi : par.ss.within = .random ∨ (par.ss.within = .deterministic ∧ par.ss.nDim ≤ 2))
    (hmode : par.ss.simplexSampling = .random ∨ par.ss.simplexSampling = .deterministic ∨
      (par.ss.simplexSampling = .volume ∧ ∀ vs, 0 < vol vs))
    (h3 : 2 < y.count a) (h2 : 2 ≤ d) (hn : 0 < requested par.proportion (y.count b) (y.count a)) :
    let A := classRows X y a
    let ind := knn (min (y.count a) (par.nNeighbors + 1)) A A
    ∃ (i : Nat) (lam : ℚ) (H : Row), (eig (gCov d A)).1[i]? = some lam ∧ (∀ z ∈ (eig (gCov d A)).1, z ≤ lam) ∧
      (eig (gCov d A)).2[i]? = some H ∧
      ∃ X' y', sample gChecks d (gsmoteAlg par (gLinear norm arccos eig d) argsort vol dr d knn) X y = .ok (X', y') ∧
        OversampledBy X y a (requested par.proportion (y.count b) (y.count a))
          (SmallestAngles d (min (par.ss.nDim - 1) (min (y.count a - 1) par.nNeighbors)) A ind (negCosines norm H A ind)) X' y' := by
  intro A ind
  have hcl : (gCov d A).length = d := by simp [gCov]
  obtain ⟨e1, e2⟩ := heig (gCov d A)
  rw [hcl] at e1 e2
  obtain ⟨i, lam, f1, f2, f3⟩ := firstMax_spec (l := (eig (gCov d A)).1) (by intro h; rw [h, List.length_nil] at e1; omega)
  have hi : i < (eig (gCov d A)).2.length := by
    have := (List.getElem?_eq_some_iff.1 f2).1
    omega
  refine ⟨i, lam, _, f2, f3, List.getElem?_eq_getElem hi, ?_⟩
  set H := (eig (gCov d A)).2[i] with hHd
  have hH : gDirection eig d A = .ok H := by
    unfold gDirection
    dsimp only
    rw [f1, ok_bind, getRow_ok.2 (List.getElem?_eq_getElem hi)]
  have hAl : A.length = y.count a := classRows_length hwf.1 _
  obtain ⟨k1, k2⟩ := hk (min (y.count a) (par.nNeighbors + 1)) A A (by omega)
  have hlin := gLinear_spec (arccos := arccos) hH hnorm (by omega : 1 ≤ min (y.count a) (par.nNeighbors + 1)) k2
  obtain ⟨X', y', r1, new, r2, r3, r4, r5⟩ := C68_gsmote (argsort := argsort) (vol := vol) (dr := dr) hwf hk hargs hdr hu hmin hg hvol
    hd hwi hmode h3 h2 hn hlin (by
      unfold AnglesOK
      rw [List.forall₂_map_right_iff]
      exact List.forall₂_same.2 (fun row _ => by simp))
  refine ⟨X', y', r1, new, r2, r3, r4, fun x hx => ?_⟩
  obtain ⟨bb, base, row, ps, nbrs, w, q1, q2, q3, q4, q5, q6, q7, q8⟩ := r5 x hx
  refine ⟨bb, base, row, ps, nbrs, w, q1, q2, q3, q4, q5, ?_, q7, q8⟩
  intro p hp q hq hn'
  have hle := q6 p hp q hq hn'
  have hp' := q5 p hp
  have hrow : ind.getD bb [] = row := by rw [List.getD_eq_getElem?_getD, q2]; rfl
  have hth : (ind.map (fun row => (row.drop 1).map (fun i =>
      arccos (cosine norm H (A.getD (row.getD 0 0) []) (A.getD i []))))).getD bb [] = (row.drop 1).map (fun i =>
      arccos (cosine norm H (A.getD (row.getD 0 0) []) (A.getD i []))) := by
    rw [List.getD_eq_getElem?_getD, List.getElem?_map, q2]; rfl
  unfold negCosines
  rw [hrow]
  have hget : ∀ (f : Nat → ℚ) (p : Nat) (hp : p < (row.drop 1).length), ((row.drop 1).map f).getD p 0 = f ((row.drop 1)[p]) := by
    intro f p hp
    rw [List.getD_eq_getElem?_getD, List.getElem?_map, List.getElem?_eq_getElem hp]; rfl
  dsimp only at hle
  have hpl : p < (row.drop 1).length := by rw [List.length_drop]; omega
  have hql : q < (row.drop 1).length := by rw [List.length_drop]; omega
  rw [hth, hget _ p hpl, hget _ q hql] at hle
  rw [hget _ p hpl, hget _ q hql, neg_le_neg_iff]
  by_contra hlt
  push Not at hlt
  exact absurd hle (not_le.2 (harc _ _ (cosine_bounds hnorm _ _ _).1 hlt (cosine_bounds hnorm _ _ _).2.1))

/-! ## The direction is not the leading eigenvector -/

/-- The minority is spread along (3, 4), with standard deviation √50, and less along (-4, 3). -/
def gsX : List Row := [[0, 0], [6, 8], [-6, -8], [-4, 3], [4, -3], [50, 0], [51, 0], [52, 0], [53, 0], [54, 0], [55, 0]]
def gsY : List Int := [1, 1, 1, 1, 1, 0, 0, 0, 0, 0, 0]
/-- An answer of `eig`: the columns are the unit eigenvectors. -/
def gsEig (_ : List Row) : List ℚ × List Row := ([50, 25 / 2], [[3 / 5, -4 / 5], [4 / 5, 3 / 5]])
/-- The Euclidean norm for the lengths 0, 1, 5 and 10; the sum of the absolute values otherwise. -/
def gsNorm (v : Row) : ℚ :=
  if dotRow v v = 0 then 0 else if dotRow v v = 1 then 1 else if dotRow v v = 25 then 5 else if dotRow v v = 100 then 10
  else (v.map (fun x => |x|)).sum
/-- All rows are neighbours, the row itself first. -/
def gsKnn (k : Nat) (X Q : List Row) : List (List Nat) :=
  (List.range Q.length).map (fun i => (List.range k).map (fun j => (i + j) % X.length))
def gsPar : NbParams := { proportion := 1, nNeighbors := 5, ss := exPar.ss }
def gsArgsort (l : List ℚ) : List Nat := (List.range l.length).insertionSort (fun i j => l.getD i 0 ≤ l.getD j 0)

/-- **The direction used by G_SMOTE need not be the leading eigenvector**: the columns of the answer are orthonormal eigenvectors of
the covariance matrix of the minority, the first column (3/5, 4/5) belongs to the largest eigenvalue, the row (6, 8) lies in that
direction from the row (0, 0) and is one of its neighbours; but (0, 0) is mixed with (-4, 3), at a right angle to it. -/
theorem C68_wrong_direction :
    let A := classRows gsX gsY 1
    let V := (gsEig (gCov 2 A)).2
    (∀ j ∈ [0, 1], ∀ i ∈ [0, 1], dotRow ((gCov 2 A).getD i []) (V.map (fun r => r.getD j 0)) =
      (gsEig (gCov 2 A)).1.getD j 0 * (V.getD i []).getD j 0) ∧
    (∀ i ∈ [0, 1], ∀ j ∈ [0, 1], dotRow (V.map (fun r => r.getD i 0)) (V.map (fun r => r.getD j 0)) = if i = j then 1 else 0) ∧
    (gsKnn 5 A A).getD 0 [] = [0, 1, 2, 3, 4] ∧ A.getD 1 [] = Row.smul 10 (V.map (fun r => r.getD 0 0)) ∧
    dotRow [-4, 3] (V.map (fun r => r.getD 0 0)) = 0 ∧
    sample gChecks 2 (gsmoteAlg gsPar (gLinear gsNorm (fun x => 1 - x) gsEig 2) gsArgsort (fun _ => 1)
      { choiceU := fun _ => 0, simplexU := fun _ _ => 1 / 2, normalU := fun _ _ => 0 } 2 gsKnn) gsX gsY =
        .ok (gsX ++ [[-2, 3 / 2]], gsY ++ [1]) := by
  decide +kernel

theorem gsArgsort_ok : ArgsortOK gsArgsort := by
  intro l
  have htot : Std.Total (fun i j : Nat => l.getD i 0 ≤ l.getD j 0) := ⟨fun i j => le_total _ _⟩
  have htr : IsTrans Nat (fun i j : Nat => l.getD i 0 ≤ l.getD j 0) := ⟨fun i j k => le_trans⟩
  exact ⟨List.perm_insertionSort _ _, List.pairwise_insertionSort _ _⟩

theorem gsKnn_ok : KnnQueryOK gsKnn := by
  intro k X Q hk
  refine ⟨by simp [gsKnn], ?_⟩
  intro row hrow
  obtain ⟨i, _, rfl⟩ := List.mem_map.1 hrow
  refine ⟨by simp, ?_⟩
  intro v hv
  obtain ⟨j, hj, rfl⟩ := List.mem_map.1 hv
  rw [List.mem_range] at hj
  exact Nat.mod_lt _ (by omega)

/-- A norm which satisfies the contract. -/
theorem sumNorm_ok : NormOK (fun v => (v.map (fun x => |x|)).sum) := by
  have h0 : ∀ v : Row, 0 ≤ (v.map (fun x => |x|)).sum := by
    intro v
    apply List.sum_nonneg
    intro x hx
    obtain ⟨z, _, rfl⟩ := List.mem_map.1 hx
    exact abs_nonneg _
  refine ⟨h0, ?_⟩
  intro v
  unfold dotRow
  induction v with
  | nil => intro w; simp
  | cons a v ih =>
    intro w
    cases w with
    | nil => simp
    | cons c w =>
      have := ih w
      have h1 := h0 v
      have h2 := h0 w
      simp only [List.zipWith_cons_cons, List.sum_cons, List.map_cons]
      calc |a * c + (List.zipWith (· * ·) v w).sum| ≤ |a * c| + |(List.zipWith (· * ·) v w).sum| := abs_add_le _ _
        _ ≤ |a| * |c| + (v.map (fun x => |x|)).sum * (w.map (fun x => |x|)).sum := by rw [abs_mul]; linarith
        _ ≤ _ := by
          have h3 := mul_nonneg (abs_nonneg a) h2
          have h4 := mul_nonneg (abs_nonneg c) h1
          nlinarith

example : WF 2 gsX gsY ∧ IsMinority gsY 1 0 ∧ KnnQueryOK gsKnn ∧ ArgsortOK gsArgsort ∧
    NormOK (fun v => (v.map (fun x => |x|)).sum) ∧ ArccosOK (fun x => 1 - x) ∧ exDraws.OK ∧ (∀ i j, 0 < exDraws.simplexU i j) ∧
    gsPar.ss.gaussian = .none ∧ gsPar.ss.within = .random ∧ gsPar.ss.simplexSampling = .random ∧
    2 < gsY.count 1 ∧ 0 < requested gsPar.proportion (gsY.count 0) (gsY.count 1) := by
  refine ⟨⟨by decide, by decide +kernel⟩, ⟨by decide, by decide, by decide, Or.inl (by decide)⟩, gsKnn_ok, gsArgsort_ok,
    sumNorm_ok, fun x z _ h _ => by dsimp only; linarith, exDraws_ok,
    by intro i j; simp only [exDraws]; positivity, rfl, rfl, rfl, by decide, by decide +kernel⟩

end Verif

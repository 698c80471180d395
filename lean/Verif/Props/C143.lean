import Verif.Model.GSmoteNl
import Verif.Props.C68
import Verif.Spec.Neighbors

/-!
# C143: G_SMOTE with the non-linear method
-/

namespace Verif

/-! ## Specification -/

/-- Contract of `np.exp`: not decreasing, one for zero, finite up to 709 and infinite from 710 on. -/
structure ExpOK (exp : ℚ → Option ℚ) : Prop where
  zero : exp 0 = some 1
  mono : ∀ {x z e f}, x ≤ z → exp x = some e → exp z = some f → e ≤ f
  finite : ∀ x, x ≤ 709 → ∃ e, exp x = some e
  infinite : ∀ x, 710 ≤ x → exp x = none

/-- Contract of the norm, in addition to `NormOK`: homogeneous, and zero for the zero vector only. -/
structure NormScales (norm : Row → ℚ) : Prop where
  smul : ∀ c v, norm (Row.smul c v) = |c| * norm v
  zero : ∀ v, norm v = 0 → ∀ x ∈ v, x = 0

/-- The cosine, without sign, between `H` and the vector of the squared distances from the difference `v` to all rows of `A`. -/
def distanceCosine (norm : Row → ℚ) (H : Row) (A : List Row) (v : Row) : ℚ :=
  |dotRow (A.map (sqDist v)) H| / (norm (A.map (sqDist v)) * norm H)

/-- The negated cosines for the neighbours in row `b` of the table. -/
def negDistanceCosines (norm : Row → ℚ) (H : Row) (A : List Row) (ind : List (List Nat)) (b : Nat) : List ℚ :=
  ((ind.getD b []).drop 1).map (fun i =>
    -distanceCosine norm H A (List.zipWith (· - ·) (A.getD i []) (A.getD ((ind.getD b []).getD 0 0) [])))

/-- `M` is the matrix of `exp (|p - q|² / 2σ²)` for the rows of `A`. -/
def IsKernelOf (exp : ℚ → Option ℚ) (sigma : ℚ) (A : List Row) (M : List Row) : Prop :=
  List.Forall₂ (fun p r => List.Forall₂ (fun q x => exp (sqDist p q / (2 * sigma ^ 2)) = some x) A r) A M

/-! ## Helpers -/

theorem gSq_eq (p q : Row) : gSq p q = sqDist p q := rfl

theorem gsq_nonneg (p q : Row) : 0 ≤ sqDist p q := by
  apply List.sum_nonneg
  intro x hx
  obtain ⟨t, _, rfl⟩ := List.mem_map.1 hx
  exact mul_self_nonneg t

theorem gsq_zero : ∀ {p q : Row}, p.length = q.length → sqDist p q = 0 → p = q
  | [], [], _, _ => rfl
  | a :: p, b :: q, hl, h => by
    have h1 : sqDist (a :: p) (b :: q) = (a - b) * (a - b) + sqDist p q := by simp [sqDist]
    rw [h1] at h
    have h2 := gsq_nonneg p q
    have h3 := mul_self_nonneg (a - b)
    have h4 : (a - b) * (a - b) = 0 := by linarith
    have h5 : sqDist p q = 0 := by linarith
    rw [gsq_zero (by simpa using hl) h5, sub_eq_zero.1 (mul_self_eq_zero.1 h4)]
  | [], _ :: _, hl, _ => by simp at hl
  | _ :: _, [], hl, _ => by simp at hl

theorem dotRow_scale (c : ℚ) : ∀ v w : Row, dotRow (Row.smul c v) w = c * dotRow v w
  | [], w => by simp [dotRow, Row.smul]
  | _ :: _, [] => by simp [dotRow]
  | a :: v, b :: w => by
    have h : dotRow (Row.smul c (a :: v)) (b :: w) = c * a * b + dotRow (Row.smul c v) w := by simp [dotRow, Row.smul]
    have h' : dotRow (a :: v) (b :: w) = a * b + dotRow v w := by simp [dotRow]
    rw [h, h', dotRow_scale c v w]
    ring

theorem gram_cosine {norm : Row → ℚ} (hs : NormScales norm) {sigma : ℚ} (hsig : 0 < sigma) (H : Row) (A : List Row) (v : Row) :
    |dotRow (A.map (fun z => -gSq v z / (2 * sigma ^ 2))) H| / (norm H * norm (A.map (fun z => -gSq v z / (2 * sigma ^ 2)))) =
      distanceCosine norm H A v ∧
    (norm H * norm (A.map (fun z => -gSq v z / (2 * sigma ^ 2))) = 0 ↔ norm H = 0 ∨ norm (A.map (sqDist v)) = 0) := by
  have hgram : A.map (fun z => -gSq v z / (2 * sigma ^ 2)) = Row.smul (-1 / (2 * sigma ^ 2)) (A.map (sqDist v)) := by
    unfold Row.smul
    rw [List.map_map]
    apply List.map_congr_left
    intro z _
    simp only [Function.comp, gSq_eq]
    ring
  have hc : |(-1 : ℚ) / (2 * sigma ^ 2)| ≠ 0 := by
    rw [abs_ne_zero]
    have : (0 : ℚ) < 2 * sigma ^ 2 := by positivity
    exact div_ne_zero (by norm_num) this.ne'
  rw [hgram, dotRow_scale, hs.smul, abs_mul]
  constructor
  · unfold distanceCosine
    rw [show norm H * (|(-1 : ℚ) / (2 * sigma ^ 2)| * norm (A.map (sqDist v))) =
      |(-1 : ℚ) / (2 * sigma ^ 2)| * (norm (A.map (sqDist v)) * norm H) by ring]
    exact mul_div_mul_left _ _ hc
  · simp [hc]

theorem distanceCosine_bounds {norm : Row → ℚ} (hnorm : NormOK norm) (H : Row) (A : List Row) (v : Row) :
    0 ≤ distanceCosine norm H A v ∧ distanceCosine norm H A v ≤ 1 := by
  unfold distanceCosine
  have h1 := hnorm.2 (A.map (sqDist v)) H
  have h2 : 0 ≤ norm (A.map (sqDist v)) * norm H := mul_nonneg (hnorm.1 _) (hnorm.1 _)
  exact ⟨div_nonneg (abs_nonneg _) h2, div_le_one_of_le₀ h1 h2⟩

theorem kernel_inf {exp : ℚ → Option ℚ} (he : ExpOK exp) {sigma : ℚ} (hsig : 0 < sigma) {A : List Row} {p q : Row} (hp : p ∈ A) (hq : q ∈ A)
    (hfar : 1420 * sigma ^ 2 ≤ sqDist p q) : (gKernel exp sigma A).any (fun r => r.any Option.isNone) = true := by
  have hs : (0 : ℚ) < 2 * sigma ^ 2 := by positivity
  unfold gKernel
  rw [List.any_map, List.any_eq_true]
  refine ⟨p, hp, ?_⟩
  simp only [Function.comp]
  rw [List.any_map, List.any_eq_true]
  refine ⟨q, hq, ?_⟩
  simp only [Function.comp]
  rw [he.infinite]
  · rfl
  · rw [gSq_eq, le_div_iff₀ hs]
    linarith

theorem kernel_fin {exp : ℚ → Option ℚ} (he : ExpOK exp) {sigma : ℚ} (hsig : 0 < sigma) {A : List Row}
    (hnear : ∀ p ∈ A, ∀ q ∈ A, sqDist p q ≤ 1418 * sigma ^ 2) :
    (gKernel exp sigma A).any (fun r => r.any Option.isNone) = false ∧
      IsKernelOf exp sigma A ((gKernel exp sigma A).map (fun r => r.map (fun x => x.getD 0))) := by
  have hs : (0 : ℚ) < 2 * sigma ^ 2 := by positivity
  have hfin : ∀ p ∈ A, ∀ q ∈ A, ∃ e, exp (sqDist p q / (2 * sigma ^ 2)) = some e := by
    intro p hp q hq
    apply he.finite
    rw [div_le_iff₀ hs]
    have := hnear p hp q hq
    linarith
  constructor
  · unfold gKernel
    rw [List.any_eq_false]
    intro r hr
    obtain ⟨p, hp, rfl⟩ := List.mem_map.1 hr
    rw [Bool.not_eq_true, List.any_eq_false]
    intro x hx
    obtain ⟨q, hq, rfl⟩ := List.mem_map.1 hx
    obtain ⟨e, h⟩ := hfin p hp q hq
    rw [gSq_eq, h]
    simp
  · unfold IsKernelOf gKernel
    rw [List.map_map, List.forall₂_map_right_iff]
    refine List.forall₂_same.2 (fun p hp => ?_)
    simp only [Function.comp]
    rw [List.map_map, List.forall₂_map_right_iff]
    refine List.forall₂_same.2 (fun q hq => ?_)
    obtain ⟨e, h⟩ := hfin p hp q hq
    simp only [Function.comp, gSq_eq, h, Option.getD_some]

theorem gNonLinear_spec {norm : Row → ℚ} {arccos : ℚ → ℚ} {exp : ℚ → Option ℚ} {sigma : ℚ} {eig : List Row → List ℚ × List Row} {d k : Nat}
    {A : List Row} {ind : List (List Nat)} {H : Row} (hH : gDirectionNl exp sigma eig A = .ok H) (hs : NormScales norm) (hsig : 0 < sigma)
    (hH0 : norm H ≠ 0) (hlen : ∀ r ∈ A, r.length = d) (hne : ∃ p ∈ A, ∃ x ∈ p, x ≠ 0) (hk : 1 ≤ k)
    (ht : TableOK ind k A.length) :
    gNonLinear norm arccos exp sigma eig A ind = .ok (ind.map (fun row => (row.drop 1).map (fun i =>
      arccos (distanceCosine norm H A (List.zipWith (· - ·) (A.getD i []) (A.getD (row.getD 0 0) [])))))) := by
  unfold gNonLinear
  rw [hH, ok_bind]
  apply mapM_ok_of
  intro row hrow
  obtain ⟨h1, h2⟩ := ht row hrow
  unfold gAngleRowNl
  cases row with
  | nil => rw [List.length_nil] at h1; omega
  | cons b rest =>
    have hb := h2 b (by simp)
    rw [show getRow (b :: rest) 0 = .ok b from rfl, ok_bind, getRow_ok.2 (List.getElem?_eq_getElem hb), ok_bind]
    apply mapM_ok_of
    intro j hj
    have hj' := h2 j (List.mem_of_mem_drop hj)
    rw [getRow_ok.2 (List.getElem?_eq_getElem hj'), ok_bind]
    dsimp only
    obtain ⟨g1, g2⟩ := gram_cosine hs hsig H A (List.zipWith (· - ·) A[j] A[b])
    have hnz : ¬ norm H * norm (A.map (fun z => -gSq (List.zipWith (· - ·) A[j] A[b]) z / (2 * sigma ^ 2))) = 0 := by
      rw [g2]
      rintro (h | h)
      · exact hH0 h
      · have hz := hs.zero _ h
        have hl : (List.zipWith (· - ·) A[j] A[b]).length = d := by
          rw [List.length_zipWith, hlen _ (List.getElem_mem hj'), hlen _ (List.getElem_mem hb), min_self]
        have hall : ∀ r ∈ A, List.zipWith (· - ·) A[j] A[b] = r := fun r hr =>
          gsq_zero (by rw [hl, hlen _ hr]) (hz _ (List.mem_map.2 ⟨r, hr, rfl⟩))
        have hjb : A[j] = A[b] := (hall _ (List.getElem_mem hj')).symm.trans (hall _ (List.getElem_mem hb))
        obtain ⟨r, hr, x, hx, hx0⟩ := hne
        rw [← hall r hr, hjb, List.zipWith_self] at hx
        obtain ⟨z, _, rfl⟩ := List.mem_map.1 hx
        exact hx0 (sub_self z)
    rw [if_neg hnz, g1, List.getD_eq_getElem?_getD (l := A), List.getD_eq_getElem?_getD (l := A),
      List.getD_cons_zero, List.getElem?_eq_getElem hb, List.getElem?_eq_getElem hj']
    rfl

/-! ## The property -/

/-- **Rows far apart.** If two minority rows are at least `√1420 ≈ 37.7` times `sigma` apart, the non-linear method of G_SMOTE raises an error. -/
theorem C143_far {par : NbParams} {norm : Row → ℚ} {arccos : ℚ → ℚ} {exp : ℚ → Option ℚ} {sigma : ℚ} {eig : List Row → List ℚ × List Row}
    {argsort : List ℚ → List Nat} {vol : List Row → ℚ} {dr : Draws} {d : Nat} {knn : Nat → List Row → List Row → List (List Nat)}
    {X : List Row} {y : List Int} {a b : Int} (hmin : IsMinority y a b) (he : ExpOK exp) (hsig : 0 < sigma)
    (h3 : 2 < y.count a) (h2 : 2 ≤ d) (hn : 0 < requested par.proportion (y.count b) (y.count a)) {p q : Row}
    (hp : p ∈ classRows X y a) (hq : q ∈ classRows X y a) (hfar : 1420 * sigma ^ 2 ≤ sqDist p q) :
    sample gChecks d (gsmoteAlg par (gNonLinear norm arccos exp sigma eig) argsort vol dr d knn) X y = .error .valueError := by
  obtain ⟨s, hs, rfl, rfl⟩ := stats_of_isMinority hmin
  obtain ⟨hm, hM, hab⟩ := stats_min_mem hs
  unfold sample
  have hc : checksFire (y.count s.minLabel) d gChecks = false := by
    unfold gChecks
    simp only [checksFire]
    have : (2 : ℚ) < (y.count s.minLabel : ℚ) := by exact_mod_cast h3
    have h2' : (2 : ℚ) ≤ d := by exact_mod_cast h2
    rw [if_neg (by linarith), if_neg (by linarith)]
  rw [hs, ok_bind, stats_count hs hm, hc]
  simp only [Bool.false_eq_true, if_false]
  unfold gsmoteAlg
  rw [stats_count hs hm, stats_count hs hM, detN_eq_requested, ok_bind, if_neg (by omega)]
  simp only [selectLabel_eq_classRows]
  unfold gNonLinear gDirectionNl
  simp only [kernel_inf he hsig hp hq hfar, if_true]
  rfl

/-- **Rows close together.** If all minority rows are within `√1418 ≈ 37.6` times `sigma` and not all zero, the requested number of minority
rows is appended, each a convex combination of a minority row and those `n_dim - 1` of its neighbours `r` for which the vector of the squared
distances of `r - base` to all minority rows has the largest cosine with `H`, the row at the position of the largest eigenvalue of the matrix of
`exp (+|p - q|² / 2σ²)`. Apart from that matrix nothing depends on `sigma`. -/
theorem C143_near {par : NbParams} {norm : Row → ℚ} {arccos : ℚ → ℚ} {exp : ℚ → Option ℚ} {sigma : ℚ} {eig : List Row → List ℚ × List Row}
    {argsort : List ℚ → List Nat} {vol : List Row → ℚ} {dr : Draws} {d : Nat} {knn : Nat → List Row → List Row → List (List Nat)}
    {X : List Row} {y : List Int} {a b : Int} (hwf : WF d X y) (hk : KnnQueryOK knn)
    (hnorm : NormOK norm) (hns : NormScales norm) (harc : ArccosOK arccos) (he : ExpOK exp) (hsig : 0 < sigma)
    (heig : ∀ M, (eig M).1.length = M.length ∧ (eig M).2.length = M.length ∧ ∀ H ∈ (eig M).2, norm H ≠ 0)
    (hargs : ArgsortOK argsort) (hdr : dr.OK) (hu : ∀ i j, 0 < dr.simplexU i j) (hmin : IsMinority y a b)
    (hg : par.ss.gaussian = .none) (hvol : ∀ vs, 0 ≤ vol vs) (hd : 1 ≤ par.ss.nDim)
    (hwi : par.ss.within = .random ∨ (par.ss.within = .deterministic ∧ par.ss.nDim ≤ 2))
    (hmode : par.ss.simplexSampling = .random ∨ par.ss.simplexSampling = .deterministic ∨
      (par.ss.simplexSampling = .volume ∧ ∀ vs, 0 < vol vs))
    (h3 : 2 < y.count a) (h2 : 2 ≤ d) (hn : 0 < requested par.proportion (y.count b) (y.count a))
    (hnear : ∀ p ∈ classRows X y a, ∀ q ∈ classRows X y a, sqDist p q ≤ 1418 * sigma ^ 2)
    (hne : ∃ p ∈ classRows X y a, ∃ x ∈ p, x ≠ 0) :
    let A := classRows X y a
    let ind := knn (min (y.count a) (par.nNeighbors + 1)) A A
    ∃ (M : List Row) (i : Nat) (lam : ℚ) (H : Row), IsKernelOf exp sigma A M ∧ (eig M).1[i]? = some lam ∧ (∀ z ∈ (eig M).1, z ≤ lam) ∧
      (eig M).2[i]? = some H ∧
      ∃ X' y', sample gChecks d (gsmoteAlg par (gNonLinear norm arccos exp sigma eig) argsort vol dr d knn) X y = .ok (X', y') ∧
        OversampledBy X y a (requested par.proportion (y.count b) (y.count a))
          (SmallestAngles d (min (par.ss.nDim - 1) (min (y.count a - 1) par.nNeighbors)) A ind (negDistanceCosines norm H A ind)) X' y' := by
  intro A ind
  obtain ⟨kf, hM⟩ := kernel_fin he hsig hnear
  set M := (gKernel exp sigma A).map (fun r => r.map (fun x => x.getD 0)) with hMd
  have hAl : A.length = y.count a := classRows_length hwf.1 _
  have hMl : M.length = y.count a := by rw [← hAl]; exact hM.length_eq.symm
  obtain ⟨e1, e2, e3⟩ := heig M
  obtain ⟨i, lam, f1, f2, f3⟩ := firstMax_spec (l := (eig M).1) (by intro h; rw [h, List.length_nil] at e1; omega)
  have hi : i < (eig M).2.length := by
    have := (List.getElem?_eq_some_iff.1 f2).1
    omega
  refine ⟨M, i, lam, _, hM, f2, f3, List.getElem?_eq_getElem hi, ?_⟩
  have hH0 := e3 _ (List.getElem_mem hi)
  set H := (eig M).2[i] with hHd
  have hH : gDirectionNl exp sigma eig A = .ok H := by
    have kf' : (gKernel exp sigma A).any (fun r => r.any Option.isNone) = false := kf
    unfold gDirectionNl
    dsimp only
    rw [if_neg (by rw [kf']; exact Bool.false_ne_true), ← hMd, f1]
    exact getRow_ok.2 (List.getElem?_eq_getElem hi)
  obtain ⟨k1, k2⟩ := hk (min (y.count a) (par.nNeighbors + 1)) A A (by omega)
  have hlin := gNonLinear_spec (arccos := arccos) hH hns hsig hH0 (fun r hr => hwf.2 r (mem_of_mem_classRows hr)) hne
    (by omega : 1 ≤ min (y.count a) (par.nNeighbors + 1)) k2
  obtain ⟨X', y', r1, new, r2, r3, r4, r5⟩ := C68_gsmote (argsort := argsort) (vol := vol) (dr := dr) hwf hk hargs hdr hu hmin hg hvol
    hd hwi hmode h3 h2 hn hlin (by
      unfold AnglesOK
      rw [List.forall₂_map_right_iff]
      exact List.forall₂_same.2 (fun row _ => by simp))
  refine ⟨X', y', r1, new, r2, r3, r4, fun x hx => ?_⟩
  obtain ⟨bb, base, row, ps, nbrs, w, q1, q2, q3, q4, q5, q6, q7, q8⟩ := r5 x hx
  refine ⟨bb, base, row, ps, nbrs, w, q1, q2, q3, q4, q5, ?_, q7, q8⟩
  intro p hp q hq hn'
  have hle := q6 p hp q hq hn'
  have hp' := q5 p hp
  have hrow : ind.getD bb [] = row := by rw [List.getD_eq_getElem?_getD, q2]; rfl
  have hth : (ind.map (fun row => (row.drop 1).map (fun i =>
      arccos (distanceCosine norm H A (List.zipWith (· - ·) (A.getD i []) (A.getD (row.getD 0 0) [])))))).getD bb [] =
      (row.drop 1).map (fun i => arccos (distanceCosine norm H A (List.zipWith (· - ·) (A.getD i []) (A.getD (row.getD 0 0) [])))) := by
    rw [List.getD_eq_getElem?_getD, List.getElem?_map, q2]; rfl
  unfold negDistanceCosines
  rw [hrow]
  have hget : ∀ (f : Nat → ℚ) (p : Nat) (hp : p < (row.drop 1).length), ((row.drop 1).map f).getD p 0 = f ((row.drop 1)[p]) := by
    intro f p hp
    rw [List.getD_eq_getElem?_getD, List.getElem?_map, List.getElem?_eq_getElem hp]; rfl
  dsimp only at hle
  have hpl : p < (row.drop 1).length := by rw [List.length_drop]; omega
  have hql : q < (row.drop 1).length := by rw [List.length_drop]; omega
  rw [hth, hget _ p hpl, hget _ q hql] at hle
  rw [hget _ p hpl, hget _ q hql, neg_le_neg_iff]
  by_contra hlt
  push Not at hlt
  exact absurd hle (not_le.2 (harc _ _ (distanceCosine_bounds hnorm _ _ _).1 hlt (distanceCosine_bounds hnorm _ _ _).2))

/-- **The kernel grows with the distance.** In the matrix of the non-linear method the entry of two rows is at least one, one for equal rows, and not
smaller for rows further apart: a Gaussian kernel has its largest entries there. -/
theorem C143_grows {exp : ℚ → Option ℚ} (he : ExpOK exp) {sigma : ℚ} (hsig : 0 < sigma) {A M : List Row} (hM : IsKernelOf exp sigma A M)
    {i j k l : Nat} {p q r s : Row} (hp : A[i]? = some p) (hq : A[j]? = some q) (hr : A[k]? = some r) (hs : A[l]? = some s) :
    ∃ u v : ℚ, (M[i]?.bind (fun w => w[j]?)) = some u ∧ (M[k]?.bind (fun w => w[l]?)) = some v ∧ 1 ≤ u ∧ (p = q → u = 1) ∧
      (sqDist p q ≤ sqDist r s → u ≤ v) := by
  have h2 : (0 : ℚ) < 2 * sigma ^ 2 := by positivity
  have key : ∀ {i j : Nat} {p q : Row}, A[i]? = some p → A[j]? = some q →
      ∃ u, (M[i]?.bind (fun w => w[j]?)) = some u ∧ exp (sqDist p q / (2 * sigma ^ 2)) = some u := by
    intro i j p q hp hq
    obtain ⟨w, w1, w2⟩ := forall₂_get_left hM hp
    obtain ⟨u, u1, u2⟩ := forall₂_get_left w2 hq
    exact ⟨u, by rw [w1]; exact u1, u2⟩
  obtain ⟨u, u1, u2⟩ := key hp hq
  obtain ⟨v, v1, v2⟩ := key hr hs
  refine ⟨u, v, u1, v1, ?_, ?_, ?_⟩
  · exact he.mono (div_nonneg (gsq_nonneg p q) h2.le) he.zero u2
  · rintro rfl
    have : sqDist p p = 0 := by
      unfold sqDist
      apply List.sum_eq_zero
      intro x hx
      obtain ⟨t, ht, rfl⟩ := List.mem_map.1 hx
      rw [List.zipWith_self] at ht
      obtain ⟨z, _, rfl⟩ := List.mem_map.1 ht
      simp
    rw [this, zero_div, he.zero] at u2
    exact (Option.some.inj u2).symm
  · intro h
    exact he.mono (div_le_div_of_nonneg_right h h2.le) u2 v2

/-! ## The hypotheses are met -/

/-- One plus the argument, infinite above 709. -/
def nlExp (x : ℚ) : Option ℚ := if x ≤ 709 then some (1 + max x 0) else none

theorem nlExp_ok : ExpOK nlExp := by
  refine ⟨by simp [nlExp], ?_, ?_, ?_⟩
  · intro x z e f hxz hx hz
    unfold nlExp at hx hz
    split at hx
    · split at hz
      · injection hx with hx
        injection hz with hz
        rw [← hx, ← hz]
        have := max_le_max_right 0 hxz
        linarith
      · cases hz
    · cases hx
  · intro x hx
    exact ⟨_, if_pos hx⟩
  · intro x hx
    exact if_neg (by linarith)

theorem sumNorm_scales : NormScales (fun v => (v.map (fun x => |x|)).sum) := by
  constructor
  · intro c v
    induction v with
    | nil => simp [Row.smul]
    | cons a v ih =>
      have h : ((Row.smul c (a :: v)).map (fun x => |x|)).sum = |c * a| + ((Row.smul c v).map (fun x => |x|)).sum := by simp [Row.smul]
      rw [h, ih, abs_mul, List.map_cons, List.sum_cons]
      ring
  · intro v
    induction v with
    | nil => simp
    | cons a v ih =>
      intro h x hx
      rw [List.map_cons, List.sum_cons] at h
      have h0 := sumNorm_ok.1 v
      dsimp only at h0
      have h1 := abs_nonneg a
      rcases List.mem_cons.1 hx with rfl | hx
      · exact abs_eq_zero.1 (by linarith)
      · exact ih (by linarith) x hx

/-- The eigenvalues of nothing in particular, with a matrix of ones. -/
def nlEig (M : List Row) : List ℚ × List Row := (List.replicate M.length 1, List.replicate M.length [1])

/-- Non-vacuity: with `sigma = 1` the minority rows of `gsX` are close together, with `sigma = 1 / 10` (`"non-linear_0.1"`) they are not. -/
example : ExpOK nlExp ∧ NormScales (fun v => (v.map (fun x => |x|)).sum) ∧
    (∀ M, (nlEig M).1.length = M.length ∧ (nlEig M).2.length = M.length ∧ ∀ H ∈ (nlEig M).2, (H.map (fun x => |x|)).sum ≠ 0) ∧
    (∀ p ∈ classRows gsX gsY 1, ∀ q ∈ classRows gsX gsY 1, sqDist p q ≤ 1418 * 1 ^ 2) ∧
    (∃ p ∈ classRows gsX gsY 1, ∃ x ∈ p, x ≠ 0) ∧
    (∃ p ∈ classRows gsX gsY 1, ∃ q ∈ classRows gsX gsY 1, 1420 * (1 / 10) ^ 2 ≤ sqDist p q) := by
  refine ⟨nlExp_ok, sumNorm_scales, fun M => ⟨by simp [nlEig], by simp [nlEig], fun H hH => ?_⟩, by decide +kernel,
    ⟨[6, 8], by decide +kernel, 6, by decide, by decide⟩, ⟨[0, 0], by decide +kernel, [6, 8], by decide +kernel, by decide +kernel⟩⟩
  rw [List.eq_of_mem_replicate hH]
  simp

/-- One new row for the example. -/
example : sample gChecks 2 (gsmoteAlg gsPar (gNonLinear (fun v => (v.map (fun x => |x|)).sum) (fun x => 1 - x) nlExp 1
      (fun M => (List.replicate M.length 1, List.replicate M.length [1, 0, 0, 0, 0]))) gsArgsort (fun _ => 1)
      { choiceU := fun _ => 0, simplexU := fun _ _ => 1 / 2, normalU := fun _ _ => 0 } 2 gsKnn) gsX gsY =
    .ok (gsX ++ [[3, 4]], gsY ++ [1]) ∧
    sample gChecks 2 (gsmoteAlg gsPar (gNonLinear (fun v => (v.map (fun x => |x|)).sum) (fun x => 1 - x) nlExp (1 / 10)
      nlEig) gsArgsort (fun _ => 1) exDraws 2 gsKnn) gsX gsY = .error .valueError := by
  decide +kernel

end Verif

import Verif.Spec.Volume
import Verif.Props.C01
import Verif.Lemmas.Drawn
import Mathlib.LinearAlgebra.Matrix.ToLin
import Mathlib.LinearAlgebra.Matrix.Nondegenerate
import Mathlib.LinearAlgebra.Matrix.NonsingularInverse
import Mathlib.LinearAlgebra.Dimension.Constructions
import Mathlib.LinearAlgebra.FiniteDimensional.Basic
import Mathlib.Analysis.Matrix.PosDef
import Mathlib.Algebra.Order.Star.Real

/-!
# C116: sampling by volume

The volume of a simplex is what geometry says, and simplices without volume are never chosen.
-/

namespace Verif

open Matrix

variable {k d : Nat}

theorem gram_nonneg (vs : Fin (k + 1) → Fin d → ℝ) : 0 ≤ gramDet vs := by
  unfold gramDet
  have := Matrix.posSemidef_self_mul_conjTranspose (simplexEdges vs)
  rw [conjTranspose_eq_transpose_of_trivial] at this
  exact this.det_nonneg

/-- The determinant under the root is never negative, and the volume is not negative. -/
theorem C116_nonneg (vs : Fin (k + 1) → Fin d → ℝ) : 0 ≤ gramDet vs ∧ 0 ≤ simplexVolumeEntry vs := by
  refine ⟨gram_nonneg vs, ?_⟩
  unfold simplexVolumeEntry simplexVolume
  split
  · exact Real.sqrt_nonneg _
  · exact div_nonneg (Real.sqrt_nonneg _) (Nat.cast_nonneg _)

/-- The special case of two vertices agrees with the general formula. -/
theorem C116_entry (vs : Fin (k + 1) → Fin d → ℝ) : simplexVolumeEntry vs = simplexVolume vs := by
  unfold simplexVolumeEntry
  split
  · rename_i h
    obtain rfl : k = 1 := by omega
    unfold simplexVolume gramDet
    rw [det_fin_one, Nat.factorial_one, Nat.cast_one, div_one]
    congr 1
    rw [mul_apply]
    refine Finset.sum_congr rfl fun j _ => ?_
    simp only [simplexEdges, transpose_apply, of_apply]
    rw [show (0 : Fin 1).castSucc = (0 : Fin 2) from rfl]
    ring
  · rfl

/-- With as many edges as dimensions the volume is the determinant of the edges over the factorial. -/
theorem C116_determinant (vs : Fin (k + 1) → Fin k → ℝ) :
    simplexVolumeEntry vs = |det (simplexEdges vs)| / (k.factorial : ℝ) := by
  rw [C116_entry]
  unfold simplexVolume gramDet
  rw [det_mul, det_transpose, Real.sqrt_mul_self_eq_abs]

theorem gram_zero_iff {K : Type} [Field K] [LinearOrder K] [IsStrictOrderedRing K] (vs : Fin (k + 1) → Fin d → K) :
    gramDet vs = 0 ↔ ∃ u : Fin k → K, u ≠ 0 ∧ (simplexEdges vs).transpose *ᵥ u = 0 := by
  unfold gramDet
  rw [← exists_mulVec_eq_zero_iff]
  constructor
  · rintro ⟨u, hu, h⟩
    refine ⟨u, hu, ?_⟩
    have h0 : ((simplexEdges vs).transpose *ᵥ u) ⬝ᵥ ((simplexEdges vs).transpose *ᵥ u) = 0 := by
      rw [dotProduct_mulVec, ← mulVec_transpose, transpose_transpose, mulVec_mulVec, h, zero_dotProduct]
    exact dotProduct_self_eq_zero.1 h0
  · rintro ⟨u, hu, h⟩
    exact ⟨u, hu, by rw [← mulVec_mulVec, h, mulVec_zero]⟩

theorem volume_zero_iff (vs : Fin (k + 1) → Fin d → ℝ) : simplexVolumeEntry vs = 0 ↔ gramDet vs = 0 := by
  rw [C116_entry]
  unfold simplexVolume
  have hk : (k.factorial : ℝ) ≠ 0 := Nat.cast_ne_zero.2 (Nat.factorial_ne_zero k)
  rw [div_eq_zero_iff, Real.sqrt_eq_zero (gram_nonneg vs)]
  exact ⟨fun h => h.resolve_right hk, Or.inl⟩

theorem gram_zero_combination {K : Type} [Field K] [LinearOrder K] [IsStrictOrderedRing K] (vs : Fin (k + 1) → Fin d → K) :
    gramDet vs = 0 ↔ ∃ c : Fin (k + 1) → K, c ≠ 0 ∧ ∑ i, c i = 0 ∧ ∀ j, ∑ i, c i * vs i j = 0 := by
  rw [gram_zero_iff]
  constructor
  · rintro ⟨u, hu, h⟩
    refine ⟨Fin.snoc u (-∑ i, u i), ?_, ?_, fun j => ?_⟩
    · intro h0
      refine hu (funext fun i => ?_)
      have := congrFun h0 i.castSucc
      simpa using this
    · rw [Fin.sum_univ_castSucc]
      simp
    · have hj := congrFun h j
      rw [Fin.sum_univ_castSucc]
      simp only [Fin.snoc_castSucc, Fin.snoc_last]
      have e : ((simplexEdges vs).transpose *ᵥ u) j = ∑ i, (vs i.castSucc j - vs (Fin.last k) j) * u i := rfl
      rw [e] at hj
      simp only [sub_mul, Finset.sum_sub_distrib, Pi.zero_apply] at hj
      rw [← Finset.mul_sum] at hj
      have e2 : ∑ i, u i * vs i.castSucc j = ∑ i, vs i.castSucc j * u i := Finset.sum_congr rfl fun i _ => mul_comm _ _
      rw [e2]
      linarith
  · rintro ⟨c, hc, hs, h⟩
    refine ⟨fun i => c i.castSucc, ?_, ?_⟩
    · intro h0
      have hl : c (Fin.last k) = 0 := by
        rw [Fin.sum_univ_castSucc] at hs
        have : ∑ i : Fin k, c i.castSucc = 0 := Finset.sum_eq_zero fun i _ => congrFun h0 i
        linarith
      refine hc (funext fun i => ?_)
      refine Fin.lastCases hl (fun i => congrFun h0 i) i
    · ext j
      have hj := h j
      rw [Fin.sum_univ_castSucc] at hj hs
      show ∑ i : Fin k, (vs i.castSucc j - vs (Fin.last k) j) * c i.castSucc = 0
      simp only [sub_mul, Finset.sum_sub_distrib]
      rw [← Finset.mul_sum]
      have e2 : ∑ i : Fin k, c i.castSucc * vs i.castSucc j = ∑ i : Fin k, vs i.castSucc j * c i.castSucc :=
        Finset.sum_congr rfl fun i _ => mul_comm _ _
      rw [e2] at hj
      have e3 : ∑ i : Fin k, c i.castSucc = - c (Fin.last k) := by linarith
      rw [e3]
      linarith

/-- The volume is zero exactly if the vertices are affinely dependent: some combination of them with coefficients of sum zero, not all of
them zero, vanishes. -/
theorem C116_zero_iff (vs : Fin (k + 1) → Fin d → ℝ) :
    simplexVolumeEntry vs = 0 ↔ ∃ c : Fin (k + 1) → ℝ, c ≠ 0 ∧ ∑ i, c i = 0 ∧ ∀ j, ∑ i, c i * vs i j = 0 := by
  rw [volume_zero_iff, gram_zero_combination]

/-- So a repeated vertex makes the volume zero. -/
theorem C116_repeated (vs : Fin (k + 1) → Fin d → ℝ) {a b : Fin (k + 1)} (hab : a ≠ b) (h : vs a = vs b) : simplexVolumeEntry vs = 0 := by
  refine (C116_zero_iff vs).2 ⟨Pi.single a 1 - Pi.single b 1, ?_, ?_, fun j => ?_⟩
  · intro h0
    have := congrFun h0 a
    simp [hab] at this
  · simp [Finset.sum_sub_distrib]
  · simp [sub_mul, Finset.sum_sub_distrib, Pi.single_apply, h]

/-- With more edges than dimensions every volume is zero. -/
theorem C116_too_many (vs : Fin (k + 1) → Fin d → ℝ) (h : d < k) : simplexVolumeEntry vs = 0 := by
  rw [volume_zero_iff, gram_zero_iff]
  have hlt : Module.finrank ℝ (Fin d → ℝ) < Module.finrank ℝ (Fin k → ℝ) := by simpa using h
  have hk := LinearMap.ker_ne_bot_of_finrank_lt (f := (simplexEdges vs).transpose.mulVecLin) hlt
  obtain ⟨u, hu, h0⟩ := (Submodule.ne_bot_iff _).1 hk
  exact ⟨u, h0, LinearMap.mem_ker.1 hu⟩

/-- Moving all vertices by the same vector changes nothing. -/
theorem C116_translation (vs : Fin (k + 1) → Fin d → ℝ) (t : Fin d → ℝ) :
    simplexVolumeEntry (fun i j => vs i j + t j) = simplexVolumeEntry vs := by
  rw [C116_entry, C116_entry]
  unfold simplexVolume gramDet
  have : simplexEdges (fun i j => vs i j + t j) = simplexEdges vs := by
    ext i j
    simp [simplexEdges]
  rw [this]

/-- Stretching all vertices by a factor multiplies the volume with its power. -/
theorem C116_scaling (vs : Fin (k + 1) → Fin d → ℝ) (c : ℝ) :
    simplexVolumeEntry (fun i j => c * vs i j) = |c| ^ k * simplexVolumeEntry vs := by
  rw [C116_entry, C116_entry]
  unfold simplexVolume gramDet
  have : simplexEdges (fun i j => c * vs i j) = c • simplexEdges vs := by
    ext i j
    simp [simplexEdges, mul_sub]
  rw [this, transpose_smul, Matrix.smul_mul, Matrix.mul_smul, smul_smul, det_smul, Fintype.card_fin, ← sq, ← sq_abs, ← pow_mul,
    mul_comm 2 k, pow_mul, Real.sqrt_mul (sq_nonneg _), Real.sqrt_sq (pow_nonneg (abs_nonneg c) k), mul_div_assoc]

/-- How the edges change with the order of the vertices. -/
def permEdges (σ : Equiv.Perm (Fin (k + 1))) : Matrix (Fin k) (Fin k) ℝ :=
  of (fun i j => (if σ i.castSucc = j.castSucc then 1 else 0) - (if σ (Fin.last k) = j.castSucc then 1 else 0))

/-- A vertex relative to the last one, as a combination of the edges. -/
theorem vertex_edges (vs : Fin (k + 1) → Fin d → ℝ) (a : Fin (k + 1)) (j : Fin d) :
    ∑ i : Fin k, (if a = i.castSucc then (1 : ℝ) else 0) * (vs i.castSucc j - vs (Fin.last k) j) = vs a j - vs (Fin.last k) j := by
  refine Fin.lastCases ?_ (fun a => ?_) a
  · rw [sub_self]
    refine Finset.sum_eq_zero fun i _ => ?_
    rw [if_neg (Fin.castSucc_lt_last i).ne', zero_mul]
  · rw [Finset.sum_eq_single a]
    · rw [if_pos rfl, one_mul]
    · intro i _ hi
      rw [if_neg (fun h => hi (Fin.castSucc_injective k h).symm), zero_mul]
    · intro h; exact absurd (Finset.mem_univ a) h

theorem edges_perm (vs : Fin (k + 1) → Fin d → ℝ) (σ : Equiv.Perm (Fin (k + 1))) :
    simplexEdges (fun i => vs (σ i)) = permEdges σ * simplexEdges vs := by
  ext i j
  rw [mul_apply]
  simp only [simplexEdges, permEdges, of_apply, sub_mul, Finset.sum_sub_distrib]
  rw [vertex_edges, vertex_edges]
  ring

theorem permEdges_mul (σ τ : Equiv.Perm (Fin (k + 1))) : permEdges σ * permEdges τ = permEdges (τ * σ) := by
  have h := edges_perm (k := k) (d := k) (fun i j => if τ i = j.castSucc then 1 else 0) σ
  have e1 : simplexEdges (k := k) (d := k) (fun i j => if τ i = j.castSucc then 1 else 0) = permEdges τ := rfl
  have e2 : simplexEdges (k := k) (d := k) (fun i j => if τ (σ i) = j.castSucc then 1 else 0) = permEdges (τ * σ) := rfl
  rw [e1] at h
  rw [← h, ← e2]

theorem permEdges_one : permEdges (1 : Equiv.Perm (Fin (k + 1))) = (1 : Matrix (Fin k) (Fin k) ℝ) := by
  ext i j
  show (if i.castSucc = j.castSucc then (1 : ℝ) else 0) - (if Fin.last k = j.castSucc then 1 else 0) = _
  rw [if_neg (Fin.castSucc_lt_last j).ne', sub_zero, one_apply]
  by_cases h : i = j
  · rw [if_pos (by rw [h]), if_pos h]
  · rw [if_neg (fun e => h (Fin.castSucc_injective k e)), if_neg h]

/-- The determinant is a whole number and so is that of the inverse. -/
theorem permEdges_det (σ : Equiv.Perm (Fin (k + 1))) : det (permEdges σ) ^ 2 = 1 := by
  have hint : ∀ σ : Equiv.Perm (Fin (k + 1)), ∃ z : ℤ, det (permEdges σ) = (z : ℝ) := by
    intro σ
    refine ⟨det (of (fun i j : Fin k => (if σ i.castSucc = j.castSucc then (1 : ℤ) else 0) - (if σ (Fin.last k) = j.castSucc then 1 else 0))), ?_⟩
    rw [show ((det (of (fun i j : Fin k => (if σ i.castSucc = j.castSucc then (1 : ℤ) else 0) - (if σ (Fin.last k) = j.castSucc then 1 else 0))) : ℤ) : ℝ)
      = (Int.castRingHom ℝ) (det (of (fun i j : Fin k => (if σ i.castSucc = j.castSucc then (1 : ℤ) else 0) - (if σ (Fin.last k) = j.castSucc then 1 else 0)))) from rfl,
      RingHom.map_det]
    congr 1
    ext i j
    simp [permEdges, RingHom.mapMatrix_apply, Matrix.map_apply]
  obtain ⟨z, hz⟩ := hint σ
  obtain ⟨w, hw⟩ := hint σ⁻¹
  have hprod : det (permEdges σ) * det (permEdges σ⁻¹) = 1 := by
    rw [← det_mul, permEdges_mul, inv_mul_cancel, permEdges_one, det_one]
  rw [hz, hw] at hprod
  have hzw : z * w = 1 := by exact_mod_cast hprod
  rcases Int.eq_one_or_neg_one_of_mul_eq_one hzw with h | h <;> rw [hz, h] <;> norm_num

/-- The order of the vertices does not matter. -/
theorem C116_order (vs : Fin (k + 1) → Fin d → ℝ) (σ : Equiv.Perm (Fin (k + 1))) :
    simplexVolumeEntry (fun i => vs (σ i)) = simplexVolumeEntry vs := by
  rw [C116_entry, C116_entry]
  unfold simplexVolume gramDet
  rw [edges_perm, transpose_mul, show permEdges σ * simplexEdges vs * ((simplexEdges vs).transpose * (permEdges σ).transpose)
    = permEdges σ * (simplexEdges vs * (simplexEdges vs).transpose) * (permEdges σ).transpose from by simp only [Matrix.mul_assoc],
    det_mul, det_mul, det_transpose]
  congr 2
  have := permEdges_det σ
  linear_combination (det (simplexEdges vs * (simplexEdges vs).transpose)) * this

/-- A triangle of area three, with its vertices in another order. -/
example : gramDet (K := ℝ) ![![0, 0], ![2, 0], ![0, 3]] = 36 := by
  simp [gramDet, simplexEdges, det_fin_two]
  norm_num

/-- Computed volumes as the contract wants them exist. -/
theorem volumeOK_exists (d : Nat) : ∃ vol, VolumeOK d vol := by
  classical
  refine ⟨fun vs => if simplexVolumeEntry (realPoints (vs.length - 1) d vs) = 0 then 0 else 1, ⟨fun vs => ?_, fun k vs hk _ => ?_⟩⟩
  · split <;> norm_num
  · obtain rfl : k = vs.length - 1 := by omega
    split
    · rename_i h; exact ⟨fun _ => h, fun _ => rfl⟩
    · rename_i h; exact ⟨fun h1 => absurd h1 one_ne_zero, fun h1 => absurd h1 h⟩

theorem gram_rational (k d : Nat) (vs : List Row) :
    gramDet (realPoints k d vs) = ((gramDet (fun (i : Fin (k + 1)) (j : Fin d) => (vs.getD i []).getD j 0) : ℚ) : ℝ) := by
  unfold gramDet
  rw [show ∀ q : ℚ, ((q : ℚ) : ℝ) = (Rat.castHom ℝ) q from fun _ => rfl, RingHom.map_det]
  congr 1
  ext i j
  simp [mul_apply, simplexEdges, realPoints, RingHom.mapMatrix_apply, Matrix.map_apply]

/-- Simplices with a volume are those with affinely independent vertices. -/
theorem C116_independent {d k : Nat} {vs : List Row} (hk : vs.length = k + 1) :
    AffinelyIndependent d vs ↔ simplexVolumeEntry (realPoints k d vs) ≠ 0 := by
  rw [Ne, volume_zero_iff, gram_rational, Rat.cast_eq_zero, gram_zero_combination]
  constructor
  · rintro h ⟨c, hc, hs, h0⟩
    refine hc (funext fun i => ?_)
    have hcf : ∀ i : Fin (k + 1), (if hi : (i : Nat) < k + 1 then c ⟨i, hi⟩ else 0) = c i := fun i => dif_pos i.2
    have := h (fun i => if hi : i < k + 1 then c ⟨i, hi⟩ else 0)
      (by rw [hk, Finset.sum_range]; simp only [hcf]; exact hs)
      (fun j hj => by rw [hk, Finset.sum_range]; simp only [hcf]; exact h0 ⟨j, hj⟩) i (by omega)
    rw [← hcf i]
    exact this
  · intro h c hs hc i hi
    by_contra hne
    refine h ⟨fun i => c i, ?_, ?_, fun j => ?_⟩
    · intro h0
      exact hne (congrFun h0 ⟨i, by omega⟩)
    · rw [hk, Finset.sum_range] at hs
      exact hs
    · have := hc j j.2
      rw [hk, Finset.sum_range] at this
      exact this

/-- What a selection by volume selects. -/
theorem volume_selects {vol : List Row → ℚ} {cu : Nat → ℚ} {X : List Row} {n : Nat} {indices : List (List Nat)} {k nDim : Nat}
    {sel : List (List Nat)} (hu : ∀ i, 0 ≤ cu i ∧ cu i < 1) (hvol : ∀ vs, 0 ≤ vol vs)
    (h : simplicesSel .volume vol cu X n none indices k none none nDim = .ok sel) :
    ∀ s ∈ sel, ∃ vs, takeRows X s = .ok vs ∧ 0 < vol vs := by
  unfold simplicesSel at h
  rw [bind_ok] at h
  obtain ⟨all, hall, h⟩ := h
  rw [bind_ok] at h
  obtain ⟨nw, hnw, h⟩ := h
  rw [bind_ok] at h
  obtain ⟨wf, hwf, h⟩ := h
  by_cases hlw : wf.length ≠ nw.length
  · rw [if_pos hlw] at h
    simp [throw, throwThe, MonadExceptOf.throw, bind, Except.bind] at h
  rw [if_neg hlw] at h
  rw [bind_ok] at h
  obtain ⟨p, hp, h⟩ := h
  rw [if_neg (by decide)] at h
  rw [bind_ok] at h
  obtain ⟨js, hjs, h⟩ := h
  simp only [nodeWeights] at hnw
  injection hnw with hnw
  simp only [determineWeights, simplexDistribution] at hwf
  have hf := mapM_ok_iff.1 hwf
  have hzip : List.zipWith (· * ·) wf nw = wf := by
    have : nw = List.replicate wf.length 1 := by
      rw [← hnw]; congr 1; rw [not_not.1 hlw, ← hnw, List.length_replicate]
    rw [this]
    clear * -
    induction wf with
    | nil => rfl
    | cons a l ih => simp [List.replicate_succ, ih]
  rw [hzip] at hp
  have hw0 : ∀ x ∈ wf, 0 ≤ x := by
    intro x hx
    obtain ⟨s, _, hs⟩ := forall2_mem_right hf hx
    rw [bind_ok] at hs
    obtain ⟨vs, _, hs⟩ := hs
    simp only [pure_ok] at hs
    rw [← hs]; exact hvol vs
  obtain ⟨h0, h1, hpl, hpos⟩ := normalize_pos hw0 hp
  obtain ⟨js', hjs', _, hsel⟩ := npChoice_ok (m := all.length) (n := n) (by rw [hpl]; exact hf.length_eq.symm) h0 h1 hu
  rw [hjs] at hjs'
  injection hjs' with hjs'
  subst hjs'
  intro s hs
  obtain ⟨j, hj, hjs⟩ := forall2_mem_right (takeRows_forall h) hs
  obtain ⟨x, hx, hx0⟩ := hsel j hj
  obtain ⟨z, hz, hz0⟩ := hpos j x hx hx0
  obtain ⟨s', hs', hb⟩ := forall2_getElem_right hf hz
  rw [hjs] at hs'
  injection hs' with hs'
  subst hs'
  rw [bind_ok] at hb
  obtain ⟨vs, hvs, hb⟩ := hb
  simp only [pure_ok] at hb
  exact ⟨vs, hvs, by rw [hb]; exact hz0⟩

/-- In the selection by volume, every row that SMOTE adds is a convex combination of rows of the minority class which are affinely
independent, as many as asked for: a simplex without volume is never used. -/
theorem C116_smote {par : SmoteParams} {vol : List Row → ℚ} {dr : Draws} {d : Nat} {knn : Nat → List Row → List (List Nat)} {X : List Row}
    {y : List Int} {a b : Int} {r : List Row × List Int} (hwf : WF d X y) (hk : KnnOK knn) (hdr : dr.OK) (hmin : IsMinority y a b)
    (hvol : VolumeOK d vol) (hmode : par.ss.simplexSampling = .volume) (hwi : par.ss.within = .random) (hg : par.ss.gaussian = .none)
    (h : smoteSample par vol dr d knn X y = .ok r) :
    ∃ new, r.1 = X ++ new ∧ ∀ x ∈ new, ∃ vs w, (∀ v ∈ vs, v ∈ classRows X y a) ∧
      vs.length = min par.ss.nDim (min (y.count a) (par.nNeighbors + 1)) ∧ AffinelyIndependent d vs ∧ IsConvexComb d w vs x := by
  obtain ⟨s, hs, rfl, rfl⟩ := stats_of_isMinority hmin
  obtain ⟨hm, hM, hab⟩ := stats_min_mem hs
  unfold smoteSample at h
  by_cases h2 : y.count s.minLabel ≤ 2
  · rw [sample_default hs, if_pos h2] at h
    injection h with h
    exact ⟨[], by rw [← h]; simp, by simp⟩
  rw [sample_default hs, if_neg h2] at h
  unfold smoteAlg at h
  rw [stats_count hs hm, stats_count hs hM, detN_eq_requested, ok_bind] at h
  split at h
  · simp only [pure_ok] at h
    exact ⟨[], by rw [← h]; simp, by simp⟩
  simp only at h
  rw [bind_ok] at h
  obtain ⟨samples, hsam, h⟩ := h
  simp only [pure_ok] at h
  refine ⟨samples, by rw [← h], ?_⟩
  have hl := selectLabel_length hwf.1 s.minLabel
  have hkk := hk (min (selectLabel X y s.minLabel).length (par.nNeighbors + 1)) (selectLabel X y s.minLabel) (by omega)
  have hXm : ∀ q ∈ selectLabel X y s.minLabel, q.length = d := fun q hq => hwf.2 q (selectLabel_mem hq)
  unfold sampleSimplex at hsam
  split at hsam
  · simp only [pure_ok] at hsam; subst hsam; simp
  simp only at hsam
  rw [bind_ok] at hsam
  obtain ⟨sel, hsel, hsam⟩ := hsam
  rw [hmode] at hsel
  obtain ⟨_, _, hsh⟩ := simplicesSel_sound hsel
  have hv := volume_selects hdr.choice hvol.nonneg hsel
  rw [hwi] at hsam
  simp only at hsam
  rw [bind_ok] at hsam
  obtain ⟨smp, hsmp, hsam⟩ := hsam
  simp only [pure_ok, hg, addGaussianNoise] at hsam
  subst hsam
  unfold randomSamplesFromSimplices at hsmp
  intro x hx
  obtain ⟨⟨t, i⟩, hti, hgen⟩ := forall2_mem_right (mapM_ok_iff.1 hsmp) hx
  have htm : t ∈ sel := by
    have := List.mem_zipIdx hti
    rw [this.2.2]; exact List.getElem_mem _
  have hshape := hsh t htm
  obtain ⟨b, ns, rfl, base, nbrs, w0, wr, hbase, hnb, hcx, _⟩ := randomSample_mixed (so := false) (cap := fun _ => 1) hXm
    (by intro V hV; cases hV) (by intro ws hws; cases hws) (fun j => (hdr.simplex i j).1) (le_of_eq hkk.1) hshape
    ⟨fun _ _ => le_refl _, fun ws hws i c hc => by cases hws⟩ hgen
  obtain ⟨vs, hvs, hpos⟩ := hv _ htm
  have heq : vs = base :: nbrs := by
    have h1 := takeRows_forall hvs
    cases h1 with
    | cons h1 h2 =>
      rw [hbase] at h1
      injection h1 with h1
      subst h1
      congr 1
      clear * - h2 hnb
      induction h2 generalizing nbrs with
      | nil => cases hnb; rfl
      | cons g1 _ ih =>
        cases hnb with
        | cons g2 g3 =>
          rw [show (none : Option (List Row)).getD (selectLabel X y s.minLabel) = selectLabel X y s.minLabel from rfl, g1] at g2
          injection g2 with g2
          rw [g2, ih _ g3]
  have hmem : ∀ v ∈ vs, v ∈ selectLabel X y s.minLabel := by
    intro v hv
    obtain ⟨j, _, hj⟩ := forall2_mem_right (takeRows_forall hvs) hv
    exact List.mem_of_getElem? hj
  have hlen : vs.length = min par.ss.nDim (min (y.count s.minLabel) (par.nNeighbors + 1)) := by
    obtain ⟨b', vs', row, he, _, _, hlen⟩ := hshape
    rw [takeRows_length hvs, he, List.length_cons, hlen, hl]
  refine ⟨vs, w0 :: wr, ?_, hlen, ?_, by rw [heq]; exact hcx⟩
  · intro v hv; rw [← selectLabel_eq_classRows]; exact hmem v hv
  · have hl1 : vs.length = nbrs.length + 1 := by rw [heq]; rfl
    refine (C116_independent hl1).2 (fun h0 => ?_)
    rw [(hvol.zero _ vs hl1 (fun q hq => hXm q (hmem q hq))).2 h0] at hpos
    exact lt_irrefl _ hpos

/-- If no simplex has a volume there is nothing to select from. -/
theorem volume_nothing {vol : List Row → ℚ} {cu : Nat → ℚ} {X : List Row} {n : Nat} {indices : List (List Nat)} {k nDim : Nat}
    (ht : TableOK indices k X.length) (hI : indices.length ≤ X.length) (hd : 1 ≤ nDim)
    (h0 : ∀ vs : List Row, vs.length = nDim → (∀ v ∈ vs, v ∈ X) → vol vs = 0) :
    simplicesSel .volume vol cu X n none indices k none none nDim = .error .valueError := by
  by_cases hdk : indices.length ≠ 0 ∧ k - 1 < nDim - 1
  · unfold simplicesSel
    rw [allNeighbor_error hdk.1 hdk.2]
    rfl
  have hall : ∃ all, allNeighborSimplicesRealIdx nDim indices k = .ok all ∧ ∀ s ∈ all, ∃ b vs row, s = b :: vs ∧
      indices[b]? = some row ∧ (∀ v ∈ vs, v ∈ row) ∧ vs.length = nDim - 1 := by
    by_cases hi : indices.length = 0
    · refine ⟨[], ?_, by simp⟩
      have hn := List.length_eq_zero_iff.1 hi
      unfold allNeighborSimplicesRealIdx
      rw [baseIdx_eq hd (Or.inr hi)]
      unfold posSimplices
      rw [hi]
      rfl
    · obtain ⟨all, hall, _, hsh⟩ := allNeighbor_ok ht hd (by omega)
      exact ⟨all, hall, hsh⟩
  obtain ⟨all, hall, hsh⟩ := hall
  unfold simplicesSel
  rw [hall, ok_bind]
  simp only [nodeWeights, ok_bind]
  have hw : determineWeights .volume vol X none none all indices.length = .ok (List.replicate all.length 0) := by
    simp only [determineWeights, simplexDistribution]
    rw [mapM_ok_iff, List.forall₂_iff_get]
    refine ⟨by simp, fun i h1 h2 => ?_⟩
    obtain ⟨b, vs, row, hs, hrow, hvs, hl⟩ := hsh _ (List.get_mem all ⟨i, h1⟩)
    have hb : b < indices.length := (List.getElem?_eq_some_iff.1 hrow).1
    obtain ⟨q, hq⟩ := takeRows_ok_of_lt (X := X) (idx := all.get ⟨i, h1⟩) (by
      rw [hs]; intro j hj
      rcases List.mem_cons.1 hj with rfl | hj
      · omega
      · exact (ht row (List.mem_of_getElem? hrow)).2 j (hvs j hj))
    rw [hq, ok_bind]
    have hz := h0 q (by rw [takeRows_length hq, hs, List.length_cons, hl]; omega) (by
      intro v hv
      obtain ⟨j, _, hj⟩ := forall2_mem_right (takeRows_forall hq) hv
      exact List.mem_of_getElem? hj)
    rw [hz]
    simp
  rw [hw, ok_bind]
  simp only [List.length_replicate, ne_eq, not_true, if_false]
  have hsum : (List.zipWith (· * ·) (List.replicate all.length (0 : ℚ)) (List.replicate all.length 1)).sum = 0 := by
    clear * -
    induction all.length with
    | zero => rfl
    | succ m ih => simp [List.replicate_succ]
  unfold normalize
  rw [if_pos hsum]
  rfl

theorem smote_nothing {par : SmoteParams} {vol : List Row → ℚ} {dr : Draws} {d : Nat} {knn : Nat → List Row → List (List Nat)} {X : List Row}
    {y : List Int} {a b : Int} (hwf : WF d X y) (hk : KnnOK knn) (hmin : IsMinority y a b) (hmode : par.ss.simplexSampling = .volume)
    (hd : 1 ≤ par.ss.nDim) (hc : 2 < y.count a) (hn : requested par.proportion (y.count b) (y.count a) ≠ 0)
    (h0 : ∀ vs : List Row, vs.length = min par.ss.nDim (min (y.count a) (par.nNeighbors + 1)) → (∀ v ∈ vs, v ∈ classRows X y a) → vol vs = 0) :
    smoteSample par vol dr d knn X y = .error .valueError := by
  obtain ⟨s, hs, rfl, rfl⟩ := stats_of_isMinority hmin
  obtain ⟨hm, hM, hab⟩ := stats_min_mem hs
  unfold smoteSample
  rw [sample_default hs, if_neg (by omega)]
  unfold smoteAlg
  rw [stats_count hs hm, stats_count hs hM, detN_eq_requested, ok_bind, if_neg hn]
  have hl := selectLabel_length hwf.1 s.minLabel
  have hkk := hk (min (selectLabel X y s.minLabel).length (par.nNeighbors + 1)) (selectLabel X y s.minLabel) (by omega)
  simp only
  have : sampleSimplex par.ss vol dr d (selectLabel X y s.minLabel)
      (knn (min (selectLabel X y s.minLabel).length (par.nNeighbors + 1)) (selectLabel X y s.minLabel))
      (min (selectLabel X y s.minLabel).length (par.nNeighbors + 1)) (requested par.proportion (y.count s.majLabel) (y.count s.minLabel)) {}
      = .error .valueError := by
    unfold sampleSimplex
    rw [if_neg hn, hmode]
    simp only
    rw [volume_nothing hkk.2 (le_of_eq hkk.1) (by omega)]
    · rfl
    · intro vs h1 h2
      rw [hl] at h1
      exact h0 vs h1 (fun v hv => by rw [← selectLabel_eq_classRows]; exact h2 v hv)
  rw [this]
  rfl

/-- Simplices with more vertices than the number of features plus one: the selection by volume raises `ValueError` on every data set which
needs new rows. -/
theorem C116_too_many_vertices {par : SmoteParams} {vol : List Row → ℚ} {dr : Draws} {d : Nat} {knn : Nat → List Row → List (List Nat)}
    {X : List Row} {y : List Int} {a b : Int} (hwf : WF d X y) (hk : KnnOK knn) (hmin : IsMinority y a b) (hvol : VolumeOK d vol)
    (hmode : par.ss.simplexSampling = .volume) (hc : 2 < y.count a) (hn : requested par.proportion (y.count b) (y.count a) ≠ 0)
    (hd : d + 1 < min par.ss.nDim (min (y.count a) (par.nNeighbors + 1))) :
    smoteSample par vol dr d knn X y = .error .valueError := by
  refine smote_nothing hwf hk hmin hmode (by omega) hc hn (fun vs h1 h2 => ?_)
  refine (hvol.zero (vs.length - 1) vs (by omega) (fun r hr => ?_)).2 (C116_too_many _ (by omega))
  have := h2 r hr
  rw [← selectLabel_eq_classRows] at this
  exact hwf.2 r (selectLabel_mem this)

/-- If all rows of the minority class are equal, the selection by volume raises `ValueError`, unless single rows are asked for. -/
theorem C116_equal_rows {par : SmoteParams} {vol : List Row → ℚ} {dr : Draws} {d : Nat} {knn : Nat → List Row → List (List Nat)}
    {X : List Row} {y : List Int} {a b : Int} {p : Row} (hwf : WF d X y) (hk : KnnOK knn) (hmin : IsMinority y a b) (hvol : VolumeOK d vol)
    (hmode : par.ss.simplexSampling = .volume) (hc : 2 < y.count a) (hn : requested par.proportion (y.count b) (y.count a) ≠ 0)
    (hnd : 2 ≤ par.ss.nDim) (hnn : 1 ≤ par.nNeighbors) (hp : ∀ v ∈ classRows X y a, v = p) :
    smoteSample par vol dr d knn X y = .error .valueError := by
  refine smote_nothing hwf hk hmin hmode (by omega) hc hn (fun vs h1 h2 => ?_)
  refine (hvol.zero (vs.length - 1) vs (by omega) (fun r hr => ?_)).2 ?_
  · have := h2 r hr
    rw [← selectLabel_eq_classRows] at this
    exact hwf.2 r (selectLabel_mem this)
  · refine C116_repeated _ (a := ⟨0, by omega⟩) (b := ⟨1, by omega⟩) (by simp) ?_
    have hget : ∀ i < vs.length, vs.getD i [] = p := by
      intro i hi
      rw [show vs.getD i [] = vs[i] from by simp [hi]]
      exact hp _ (h2 _ (List.getElem_mem hi))
    funext j
    unfold realPoints
    simp only
    rw [hget 0 (by omega), hget 1 (by omega)]

theorem forall2_getElem_left {α β : Type} {R : α → β → Prop} {l : List α} {m : List β} (h : List.Forall₂ R l m) {i : Nat} {a : α}
    (ha : l[i]? = some a) : ∃ b, m[i]? = some b ∧ R a b := forall2_getElem_right h.flip ha

/-- A listed simplex is among those SMOTE selects from. -/
theorem listed_simplex {indices : List (List Nat)} {k m nDim b : Nat} {row ns : List Nat} {all : List (List Nat)} (ht : TableOK indices k m)
    (hall : allNeighborSimplicesRealIdx nDim indices k = .ok all) (hrow : indices[b]? = some row) (hns : ns.Sublist (row.drop 1))
    (hl : ns.length + 1 = nDim) : b :: ns ∈ all := by
  have hrl := (ht row (List.mem_of_getElem? hrow)).1
  have he : row.drop 1 = ((row.drop 1).zipIdx 1).map Prod.fst := by simp [List.zipIdx_map_fst]
  rw [he, List.sublist_map_iff] at hns
  obtain ⟨l', hl', rfl⟩ := hns
  have hps : (l'.map Prod.snd).Sublist (List.range' 1 (k - 1)) := by
    have := hl'.map Prod.snd
    rw [List.zipIdx_map_snd, List.length_drop, hrl] at this
    exact this
  rw [List.length_map] at hl
  have hmem : b :: l'.map Prod.snd ∈ posSimplices indices.length k nDim :=
    mem_posSimplices.2 ⟨b, _, rfl, (List.getElem?_eq_some_iff.1 hrow).1, hps, by rw [List.length_map]; omega⟩
  obtain ⟨-, -, hall⟩ := allNeighbor_unfold hall
  obtain ⟨i, hi⟩ := List.getElem?_of_mem hmem
  have hf := mapM_ok_iff.1 hall
  obtain ⟨t, ht1, ht2⟩ := forall2_getElem_left hf hi
  have hr : realIdxRow indices (b :: l'.map Prod.snd) = .ok (b :: l'.map Prod.fst) := by
    unfold realIdxRow
    simp only
    rw [getRow_ok.2 hrow, ok_bind]
    have : takeRows row (l'.map Prod.snd) = .ok (l'.map Prod.fst) := by
      unfold takeRows
      rw [mapM_ok_iff, List.forall₂_map_left_iff, List.forall₂_map_right_iff, List.forall₂_same]
      rintro ⟨x, p⟩ hp
      obtain ⟨h1, h2⟩ := List.mk_mem_zipIdx_iff_le_and_getElem?_sub.1 (hl'.subset hp)
      rw [List.getElem?_drop, show 1 + (p - 1) = p from by omega] at h2
      exact getRow_ok.2 h2
    rw [this, ok_bind]
    rfl
  rw [hr] at ht2
  injection ht2 with ht2
  rw [ht2]
  exact List.mem_of_getElem? ht1

/-- SMOTE with the selection by volume returns as soon as one row of the minority class and some of the neighbours the table lists for it
are affinely independent, as many as asked for. -/
theorem C116_returns {par : SmoteParams} {vol : List Row → ℚ} {dr : Draws} {d : Nat} {knn : Nat → List Row → List (List Nat)} {X : List Row}
    {y : List Int} {a b : Int} (hwf : WF d X y) (hk : KnnOK knn) (hdr : dr.OK) (hpos : ∀ i j, 0 < dr.simplexU i j) (hmin : IsMinority y a b)
    (hvol : VolumeOK d vol) (hmode : par.ss.simplexSampling = .volume) (hwi : par.ss.within = .random) {k : Nat}
    (hkk : k = min (y.count a) (par.nNeighbors + 1)) {p : Nat} {row ns : List Nat} {vs : List Row}
    (hrow : (knn k (classRows X y a))[p]? = some row) (hns : ns.Sublist (row.drop 1)) (hl : ns.length + 1 = min par.ss.nDim k)
    (hvs : List.Forall₂ (fun i v => (classRows X y a)[i]? = some v) (p :: ns) vs) (hind : AffinelyIndependent d vs) :
    ∃ r, smoteSample par vol dr d knn X y = .ok r := by
  obtain ⟨s, hs, rfl, rfl⟩ := stats_of_isMinority hmin
  obtain ⟨hm, hM, hab⟩ := stats_min_mem hs
  unfold smoteSample
  rw [sample_default hs]
  split
  · exact ⟨_, rfl⟩
  unfold smoteAlg
  rw [stats_count hs hm, stats_count hs hM, detN_eq_requested, ok_bind]
  split
  · exact ⟨_, rfl⟩
  simp only
  have hlen := selectLabel_length hwf.1 s.minLabel
  rw [← selectLabel_eq_classRows] at hrow hvs
  rw [← hlen] at hkk
  subst hkk
  generalize hXm : selectLabel X y s.minLabel = Xm at hrow hvs hl hlen ⊢
  have hd : ∀ q ∈ Xm, q.length = d := fun q hq => hwf.2 q (selectLabel_mem (hXm ▸ hq))
  have hkn := hk (min Xm.length (par.nNeighbors + 1)) Xm (by omega)
  generalize knn (min Xm.length (par.nNeighbors + 1)) Xm = indices at hrow hkn ⊢
  obtain ⟨out, hout⟩ := sampleSimplex_ok_of_sel (ss := par.ss) (vol := vol) (dr := dr) (d := d)
    (n := requested par.proportion (y.count s.majLabel) (y.count s.minLabel)) (a := {}) (X := Xm) hkn.2 (le_of_eq hkn.1)
    (by intro ws hws; cases hws) (by intro h; cases h) (by
      rw [hmode]
      obtain ⟨all, hall, hcnt, hsh⟩ := allNeighbor_ok (nDim := min par.ss.nDim (min Xm.length (par.nNeighbors + 1))) hkn.2 (by omega) (by omega)
      have hmem := listed_simplex hkn.2 hall hrow hns hl
      have hshd : ∀ t ∈ all, ∃ q, takeRows Xm t = .ok q := by
        intro t ht
        obtain ⟨b, us, row, rfl, hrow, hin, _⟩ := hsh t ht
        refine takeRows_ok_of_lt (fun i hi => ?_)
        rcases List.mem_cons.1 hi with rfl | hi
        · have := (List.getElem?_eq_some_iff.1 hrow).1
          have := hkn.1
          omega
        · exact (hkn.2 row (List.mem_of_getElem? hrow)).2 i (hin i hi)
      obtain ⟨w, hw⟩ : ∃ w, all.mapM (fun t => do let q ← takeRows Xm t; return vol q) = .ok w :=
        mapM_exists_ok (fun t ht => by obtain ⟨q, hq⟩ := hshd t ht; exact ⟨vol q, by rw [hq]; rfl⟩)
      have hf := mapM_ok_iff.1 hw
      have hw0 : ∀ x ∈ w, 0 ≤ x := by
        intro x hx
        obtain ⟨t, _, ht⟩ := forall2_mem_right hf hx
        rw [bind_ok] at ht
        obtain ⟨q, _, ht⟩ := ht
        simp only [pure_ok] at ht
        rw [← ht]; exact hvol.nonneg q
      have htk : takeRows Xm (p :: ns) = .ok vs := by
        unfold takeRows
        rw [mapM_ok_iff]
        exact hvs.imp (fun i v hv => getRow_ok.2 hv)
      have hv0 : 0 < vol vs := by
        refine lt_of_le_of_ne (hvol.nonneg vs) (fun h0 => ?_)
        have hvl : vs.length = ns.length + 1 := by rw [takeRows_length htk]; rfl
        refine (C116_independent hvl).1 hind ((hvol.zero _ vs hvl (fun q hq => ?_)).1 h0.symm)
        obtain ⟨i, _, hi⟩ := forall2_mem_right hvs hq
        exact hd q (List.mem_of_getElem? hi)
      have hws : 0 < w.sum := by
        obtain ⟨i, hi⟩ := List.getElem?_of_mem hmem
        obtain ⟨x, hx1, hx2⟩ := forall2_getElem_left hf hi
        rw [htk] at hx2
        injection hx2 with hx2
        exact lt_of_lt_of_le (by rw [← hx2]; exact hv0) (List.single_le_sum hw0 x (List.mem_of_getElem? hx1))
      obtain ⟨q, hq, hql, hq0, hqs⟩ := normalize_ok hw0 hws
      obtain ⟨js, hjs, _, hin⟩ := npChoice_ok (m := all.length) (n := requested par.proportion (y.count s.majLabel) (y.count s.minLabel))
        (by rw [hql]; exact hf.length_eq.symm) hq0 hqs hdr.choice
      obtain ⟨r, hr⟩ := takeRows_ok_of_lt (X := all) (idx := js) (fun i hi => by
        obtain ⟨x, hx, _⟩ := hin i hi
        have := (List.getElem?_eq_some_iff.1 hx).1
        rw [hql, ← hf.length_eq] at this
        exact this)
      refine ⟨r, ?_⟩
      unfold simplicesSel
      rw [hall, ok_bind]
      simp only [nodeWeights, ok_bind, determineWeights, simplexDistribution]
      rw [hw, ok_bind, if_neg (by simp [hf.length_eq])]
      have hmul : List.zipWith (· * ·) w (List.replicate all.length (1:ℚ)) = w := by
        rw [hf.length_eq]
        clear * -
        induction w with
        | nil => rfl
        | cons a w ih => simp [List.replicate_succ, ih]
      rw [hmul, hq, ok_bind, if_neg (by decide), hjs, ok_bind, hr]) hpos (Or.inl hwi)
  exact ⟨_, by rw [hout, ok_bind]; rfl⟩

/-- Parameters asking for triangles, selected by volume. -/
def triPar : SmoteParams :=
  { proportion := 1, nNeighbors := 2, ss := { nDim := 3, simplexSampling := .volume, within := .random, gaussian := .none } }

/-- Non-vacuity of `C116_smote` and `C116_returns`: the triangle of the three minority rows has a volume, SMOTE returns two new rows. -/
example : ∃ vol, VolumeOK 2 vol ∧ ∃ r, smoteSample triPar vol exDraws 2 exKnn exX exY = .ok r := by
  obtain ⟨vol, hvol⟩ := volumeOK_exists 2
  refine ⟨vol, hvol, C116_returns (a := 1) (b := 0) (k := 3) (p := 0) (row := [0, 1, 2]) (ns := [1, 2]) (vs := [[0, 0], [1, 0], [0, 1]])
    (by decide) exKnn_ok exDraws_ok (fun i j => ?_) exY_min hvol rfl rfl (by decide) (by decide +kernel) (by decide) (by decide) ?_ ?_⟩
  · simp only [exDraws]; positivity
  · exact .cons (by decide +kernel) (.cons (by decide +kernel) (.cons (by decide +kernel) .nil))
  · intro c hs hc i hi
    have h0 := hc 0 (by omega)
    have h1 := hc 1 (by omega)
    simp [Finset.sum_range_succ] at hs h0 h1
    have hi' : i = 0 ∨ i = 1 ∨ i = 2 := by simp at hi; omega
    rcases hi' with rfl | rfl | rfl <;> linarith

/-- Non-vacuity of `C116_too_many_vertices`: triangles of points on a line. -/
example : ∃ vol, VolumeOK 1 vol ∧
    smoteSample triPar vol exDraws 1 exKnn [[0], [1], [2], [5], [6], [7], [8], [9]] exY = .error .valueError := by
  obtain ⟨vol, hvol⟩ := volumeOK_exists 1
  exact ⟨vol, hvol, C116_too_many_vertices (a := 1) (b := 0) (by decide) exKnn_ok exY_min hvol rfl (by decide) (by decide +kernel) (by decide)⟩

/-- Non-vacuity of `C116_equal_rows`. -/
example : ∃ vol, VolumeOK 1 vol ∧
    smoteSample { triPar with ss := { triPar.ss with nDim := 2 } } vol exDraws 1 exKnn [[4], [4], [4], [5], [6], [7], [8], [9]] exY
      = .error .valueError := by
  obtain ⟨vol, hvol⟩ := volumeOK_exists 1
  exact ⟨vol, hvol, C116_equal_rows (a := 1) (b := 0) (p := [4]) (by decide) exKnn_ok exY_min hvol rfl (by decide) (by decide +kernel)
    (by decide) (by decide) (by decide +kernel)⟩

end Verif

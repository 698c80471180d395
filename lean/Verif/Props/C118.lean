import Verif.Lemmas.Affine
import Verif.Model.Smote
import Verif.Model.Borderline
import Verif.Model.Regions
import Verif.Model.Cleaning
import Verif.Props.C34
import Mathlib.Algebra.BigOperators.Ring.Finset
import Mathlib.Tactic.IntervalCases
import Mathlib.Tactic.NormNum

/-!
# C118: a change of coordinates which keeps the neighbours commutes with oversampling
-/

namespace Verif

variable {d : Nat} {g : Row → Row} {M : Nat → Nat → ℚ} {c : Nat → ℚ}

/-- **C118**, SMOTE. -/
theorem C118_smote (par : SmoteParams) (hgauss : par.ss.gaussian = .none) {vol : List Row → ℚ} (hv : VolScaled d (affineRow d M c) vol)
    (dr : Draws) {knn : Nat → List Row → List (List Nat)} (hk : SameTable d (affineRow d M c) knn) (checks : List Check) :
    CommutesWith d (affineRow d M c) (sample checks d (smoteAlg par vol dr d knn)) := by
  refine commutes_of_alg fun s X y hX => ?_
  have hS := selectLabel_len hX y s.minLabel
  unfold smoteAlg
  simp only [selectLabel_change, List.length_map, hk _ _ hS]
  rw [show ({} : SSArgs) = SSArgs.change (affineRow d M c) {} from rfl, change_bind]
  refine bind_congr fun n => ?_
  rw [change_ite, change_pure]
  refine if_congr Iff.rfl rfl ?_
  rw [sampleSimplex_affine (affineRow_affine d M c) hgauss hv dr hS _ _ _ _ (by intro V hV; cases hV), bind_map_left, change_bind]
  simp only [change_pure, List.map_append, SSArgs.change, Option.map_none]

/-- **C118**, ADASYN. -/
theorem C118_adasyn (par : AdasynParams) (hgauss : par.ss.gaussian = .none) {vol : List Row → ℚ} (hv : VolScaled d (affineRow d M c) vol)
    (dr : Draws) {knn : Nat → List Row → List Row → List (List Nat)} (hk : SameQuery d (affineRow d M c) knn) (checks : List Check) :
    CommutesWith d (affineRow d M c) (sample checks d (adasynAlg par vol dr d knn)) := by
  refine commutes_of_alg fun s X y hX => ?_
  have hS := selectLabel_len hX y s.minLabel
  unfold adasynAlg
  simp only [selectLabel_change, List.length_map, hk _ _ _ hS hS, hk _ _ _ hX hS, change_bind, change_ite, change_pure]
  refine bind_congr fun n => ?_
  refine if_congr Iff.rfl rfl ?_
  refine if_congr Iff.rfl rfl ?_
  refine if_congr Iff.rfl rfl ?_
  refine bind_congr fun r => ?_
  refine if_congr Iff.rfl rfl ?_
  have h := sampleSimplex_affine (affineRow_affine d M c) hgauss hv dr hS
    (knn (min (selectLabel X y s.minLabel).length (par.nNeighbors + 1)) (selectLabel X y s.minLabel) (selectLabel X y s.minLabel))
    (min (selectLabel X y s.minLabel).length (par.nNeighbors + 1)) n { baseWeights := some (r.map (· / r.sum)) } (by intro V hV; cases hV)
  simp only [SSArgs.change, Option.map_none] at h
  rw [h, bind_map_left]
  simp only [withSamples_change]

theorem rowsOfKind_change (g : Row → Row) (S : List Row) (kinds : List BorderKind) (p : BorderKind → Bool) :
    rowsOfKind (S.map g) kinds p = (rowsOfKind S kinds p).map g := by
  unfold rowsOfKind
  rw [List.zip_map_left, List.filter_map, List.map_map, List.map_map]
  rfl

theorem rowsOfKind_len {S : List Row} (h : ∀ r ∈ S, r.length = d) (kinds : List BorderKind) (p : BorderKind → Bool) :
    ∀ r ∈ rowsOfKind S kinds p, r.length = d := by
  intro r hr
  obtain ⟨q, hq, rfl⟩ := List.mem_map.1 hr
  exact h _ (List.of_mem_zip (List.mem_of_mem_filter hq)).1

/-- **C118**, Borderline_SMOTE1. -/
theorem C118_borderline1 (par : BorderParams) (hgauss : par.ss.gaussian = .none) {vol : List Row → ℚ} (hv : VolScaled d (affineRow d M c) vol)
    (dr : Draws) {knn : Nat → List Row → List Row → List (List Nat)} (hk : SameQuery d (affineRow d M c) knn) (checks : List Check) :
    CommutesWith d (affineRow d M c) (sample checks d (borderline1Alg par vol dr d knn)) := by
  refine commutes_of_alg fun s X y hX => ?_
  have hS := selectLabel_len hX y s.minLabel
  unfold borderline1Alg dangerRemoveNoise
  simp only [selectLabel_change, List.length_map, hk _ _ _ hX hS, change_bind, change_ite, change_pure, bind_assoc, pure_bind, rowsOfKind_change]
  refine bind_congr fun n => ?_
  refine if_congr Iff.rfl rfl ?_
  refine bind_congr fun kinds => ?_
  refine if_congr Iff.rfl rfl ?_
  have h1 := rowsOfKind_len hS kinds (fun q => q != .noise)
  have h2 := rowsOfKind_len hS kinds (fun q => q == .danger)
  rw [hk _ _ _ h1 h2]
  have h := fun ind k => sampleSimplex_affine (affineRow_affine d M c) hgauss hv dr h2 ind k n
    { Xv := some (rowsOfKind (selectLabel X y s.minLabel) kinds (fun q => q != .noise)) } (by intro V hV; cases hV; exact h1)
  simp only [SSArgs.change, Option.map_some] at h
  rw [h, bind_map_left]
  simp only [withSamples_change]

/-- **C118**, Borderline_SMOTE2. -/
theorem C118_borderline2 (par : BorderParams) (hgauss : par.ss.gaussian = .none) {vol : List Row → ℚ} (hv : VolScaled d (affineRow d M c) vol)
    (dr : Draws) {knn : Nat → List Row → List Row → List (List Nat)} (hk : SameQuery d (affineRow d M c) knn) (checks : List Check) :
    CommutesWith d (affineRow d M c) (sample checks d (borderline2Alg par vol dr d knn)) := by
  refine commutes_of_alg fun s X y hX => ?_
  have hS := selectLabel_len hX y s.minLabel
  unfold borderline2Alg dangerRemoveNoise
  simp only [selectLabel_change, List.length_map, hk _ _ _ hX hS, change_bind, change_ite, change_pure, bind_assoc, pure_bind, rowsOfKind_change]
  refine bind_congr fun n => ?_
  refine if_congr Iff.rfl rfl ?_
  refine bind_congr fun kinds => ?_
  refine if_congr Iff.rfl rfl ?_
  have h2 := rowsOfKind_len hS kinds (fun q => q == .danger)
  rw [hk _ _ _ hX h2]
  have h := fun ind k => sampleSimplex_affine (affineRow_affine d M c) hgauss hv dr h2 ind k n
    { Xv := some X, vertexWeights := some (y.map (fun l => if l = s.majLabel then (1 / 2 : ℚ) else 1)) } (by intro V hV; cases hV; exact hX)
  simp only [SSArgs.change, Option.map_some] at h
  rw [h, bind_map_left]
  simp only [withSamples_change]

/-- **C118**, NT_SMOTE. -/
theorem C118_nt (par : NbParams) (hgauss : par.ss.gaussian = .none) {vol : List Row → ℚ} (hv : VolScaled d (affineRow d M c) vol)
    (dr : Draws) {knn : Nat → List Row → List Row → List (List Nat)} (hk : SameQuery d (affineRow d M c) knn) (checks : List Check) :
    CommutesWith d (affineRow d M c) (sample checks d (ntSmoteAlg par vol dr d knn)) := by
  refine commutes_of_alg fun s X y hX => ?_
  have hS := selectLabel_len hX y s.minLabel
  unfold ntSmoteAlg
  simp only [selectLabel_change, List.length_map, hk _ _ _ hS hS, change_bind, change_ite, change_pure]
  refine bind_congr fun n => ?_
  refine if_congr Iff.rfl rfl ?_
  refine if_congr Iff.rfl rfl ?_
  have h := fun ind k => sampleSimplex_affine (affineRow_affine d M c) hgauss hv dr hS ind k n {} (by intro V hV; cases hV)
  simp only [SSArgs.change, Option.map_none] at h
  rw [h, bind_map_left]
  simp only [withSamples_change]

theorem ismoteOrder_scale {c : ℚ} (hc : 0 < c) (means : List ℚ) : ismoteOrder (means.map (c * ·)) = ismoteOrder means := by
  unfold ismoteOrder
  rw [List.length_map]
  have e : ∀ i j : Nat, ((means.map (c * ·)).getD j 0 ≤ (means.map (c * ·)).getD i 0) = (means.getD j 0 ≤ means.getD i 0) := by
    intro i j
    have h : ∀ i : Nat, (means.map (c * ·)).getD i 0 = c * means.getD i 0 := by
      intro i
      rw [List.getD_eq_getElem?_getD, List.getD_eq_getElem?_getD, List.getElem?_map]
      cases means[i]? <;> simp
    rw [h, h, eq_iff_iff]
    exact mul_le_mul_iff_right₀ hc
  have e1 : (fun i j : Nat => (means.map (c * ·)).getD j 0 ≤ (means.map (c * ·)).getD i 0)
      = fun i j => means.getD j 0 ≤ means.getD i 0 := funext₂ e
  congr!

/-- **C118**, ISMOTE. -/
theorem C118_ismote (par : IsmoteParams) (hgauss : par.ss.gaussian = .none) {vol : List Row → ℚ} (hv : VolScaled d (affineRow d M c) vol)
    (dr : Draws) {knn : Nat → List Row → List Row → List (List Nat)} (hk : SameQuery d (affineRow d M c) knn)
    {knnDist : Nat → List Row → List Row → List (List ℚ)} (hd : ScaledDist d (affineRow d M c) knnDist) (checks : List Check) :
    CommutesWith d (affineRow d M c) (sample checks d (ismoteAlg par vol dr d knn knnDist)) := by
  refine commutes_of_alg fun s X y hX => ?_
  obtain ⟨t, ht, hd⟩ := hd
  have hS := selectLabel_len hX y s.minLabel
  have hJ := selectLabel_len hX y s.majLabel
  have em : ∀ D : List (List ℚ), (D.map (List.map (t * ·))).map meanQ = (D.map meanQ).map (t * ·) := by
    intro D
    rw [List.map_map, List.map_map]
    refine List.map_congr_left fun l _ => ?_
    simp only [Function.comp_apply, meanQ, List.length_map]
    rw [List.sum_map_mul_left l (fun x => x) t, List.map_id', mul_div_assoc]
  unfold ismoteAlg
  simp only [selectLabel_change, List.length_map, hd _ _ _ hS hJ, em, ismoteOrder_scale ht, takeRows_rename, bind_map_left, change_bind, change_ite,
    change_pure]
  refine if_congr Iff.rfl rfl ?_
  match hK : takeRows (selectLabel X y s.majLabel)
      ((ismoteOrder (List.map meanQ (knnDist (selectLabel X y s.minLabel).length (selectLabel X y s.minLabel) (selectLabel X y s.majLabel)))).drop
        (((selectLabel X y s.majLabel).length - (selectLabel X y s.minLabel).length + 1) / 2)) with
  | .error e => rfl
  | .ok kept =>
    have hR : ∀ r ∈ kept ++ selectLabel X y s.minLabel, r.length = d := by
      intro r hr
      rcases List.mem_append.1 hr with h | h
      · exact takeRows_len hJ hK r h
      · exact hS r h
    simp only [ok_bind, ← List.map_append, List.length_map, hk _ _ _ hR hS]
    have h := fun ind k n vw => sampleSimplex_affine (affineRow_affine d M c) hgauss hv dr hS ind k n
      { Xv := some (kept ++ selectLabel X y s.minLabel), vertexWeights := some vw } (by intro V hV; cases hV; exact hR)
    simp only [SSArgs.change, Option.map_some] at h
    rw [h, bind_map_left]
    simp only [withSamples_change]

theorem meanRow_change (hg : AffineOn d g) {rows : List Row} (h : ∀ r ∈ rows, r.length = d) (hne : rows.length ≠ 0) :
    g (meanRow d rows) = meanRow d (rows.map g) := by
  have e : ∀ V : List Row, V.length = rows.length → (∀ r ∈ V, r.length = d) → meanRow d V
      = rowSum d (List.zipWith Row.smul (List.replicate rows.length (1 / (rows.length : ℚ))) V) := by
    intro V hV hd
    have e1 : List.zipWith Row.smul (List.replicate rows.length (1 / (rows.length : ℚ))) V = V.map (Row.smul (1 / (rows.length : ℚ))) := by
      rw [← hV]
      apply List.ext_getElem (by simp)
      intro i h1 h2
      simp
    have h1 : ∀ r ∈ V.map (Row.smul (1 / (rows.length : ℚ))), r.length = d := by
      intro r hr
      obtain ⟨v, hv, rfl⟩ := List.mem_map.1 hr
      rw [Row.smul_length, hd v hv]
    rw [e1, meanRow, hV]
    refine row_ext (by rw [Row.smul_length, rowSum_length hd]) (rowSum_length h1) fun j hj => ?_
    rw [Row.smul_getD, rowSum_getD hd hj, rowSum_getD h1 hj, List.map_map, ← List.sum_map_mul_left]
    refine congrArg _ (List.map_congr_left fun v _ => ?_)
    rw [Function.comp_apply, Row.smul_getD]
  rw [e rows rfl h, e _ (by simp) (affine_len hg h), hg.comb _ _ (by simp) (by
    rw [List.sum_replicate]
    simp [hne]) h]

/-- **C118**, distance_SMOTE. -/
theorem C118_distance (par : NbParams) (hgauss : par.ss.gaussian = .none) {vol : List Row → ℚ} (hv : VolScaled d (affineRow d M c) vol)
    (dr : Draws) {knn : Nat → List Row → List Row → List (List Nat)} (hk : SameQuery d (affineRow d M c) knn) (checks : List Check) :
    CommutesWith d (affineRow d M c) (sample checks d (distanceSmoteAlg par vol dr d knn)) := by
  refine commutes_of_alg fun s X y hX => ?_
  have hS := selectLabel_len hX y s.minLabel
  have hm : ∀ row, neighborMean d ((selectLabel X y s.minLabel).map (affineRow d M c)) row
      = affineRow d M c <$> neighborMean d (selectLabel X y s.minLabel) row := by
    intro row
    unfold neighborMean
    rw [takeRows_rename, bind_map_left, map_bind]
    match hT : takeRows (selectLabel X y s.minLabel) (row.drop 1) with
    | .error e => rfl
    | .ok rows =>
      simp only [ok_bind, List.length_map]
      split
      · rfl
      · rename_i h0
        rw [← meanRow_change (affineRow_affine d M c) (takeRows_len hS hT) h0]
        rfl
  unfold distanceSmoteAlg
  simp only [selectLabel_change, List.length_map, hk _ _ _ hS hS, change_bind, change_ite, change_pure, mapM_rename, bind_map_left,
    show neighborMean d ((selectLabel X y s.minLabel).map (affineRow d M c)) = _ from funext hm]
  refine bind_congr fun n => ?_
  refine if_congr Iff.rfl rfl ?_
  match hM : (knn (min (selectLabel X y s.minLabel).length (par.nNeighbors + 1)) (selectLabel X y s.minLabel) (selectLabel X y s.minLabel)).mapM
      (neighborMean d (selectLabel X y s.minLabel)) with
  | .error e => rfl
  | .ok means =>
    have hR : ∀ r ∈ means, r.length = d := by
      intro r hr
      obtain ⟨row, -, hrow⟩ := forall2_mem_right (mapM_ok_iff.1 hM) hr
      unfold neighborMean at hrow
      rw [bind_ok] at hrow
      obtain ⟨rows, hT, hrow⟩ := hrow
      split at hrow
      · exact absurd hrow (by intro h; cases h)
      · rw [pure_ok] at hrow
        subst hrow
        rw [meanRow, Row.smul_length, rowSum_length (takeRows_len hS hT)]
    simp only [ok_bind]
    have h := fun ind k => sampleSimplex_affine (affineRow_affine d M c) hgauss hv dr hR ind k n
      { Xv := some (selectLabel X y s.minLabel) } (by intro V hV; cases hV; exact hS)
    simp only [SSArgs.change, Option.map_some] at h
    rw [h, bind_map_left]
    simp only [withSamples_change]

/-- **C118**, the filter of edited nearest neighbours. -/
theorem C118_enn {g : Row → Row} {knn : Nat → List Row → List (List Nat)} (hk : SameTable d g knn) (r : EnnRemove) :
    CommutesWith d g (ennRemove r knn) := by
  intro X y hX
  unfold ennRemove kneighbors
  simp only [List.length_map, hk _ _ hX, npDelete_change, change_bind, change_ite, change_pure]

/-- **C118**, the filter of Tomek links. -/
theorem C118_tomek {g : Row → Row} {knn : Nat → List Row → List (List Nat)} (hk : SameTable d g knn) (t : TomekStrategy) :
    CommutesWith d g (tomekRemove t knn) := by
  intro X y hX
  unfold tomekRemove kneighbors
  simp only [List.length_map, hk _ _ hX, npDelete_change, change_bind, change_pure]

theorem smoteSample_rowlen {par : SmoteParams} (hgauss : par.ss.gaussian = .none) {vol : List Row → ℚ} {dr : Draws}
    {knn : Nat → List Row → List (List Nat)} {X : List Row} (hX : ∀ r ∈ X, r.length = d) {y : List Int} {R : List Row × List Int}
    (h : smoteSample par vol dr d knn X y = .ok R) : ∀ r ∈ R.1, r.length = d := by
  unfold smoteSample sample at h
  rw [bind_ok] at h
  obtain ⟨s, -, h⟩ := h
  split at h
  · rw [pure_ok] at h
    subst h
    exact hX
  · unfold smoteAlg at h
    rw [bind_ok] at h
    obtain ⟨n, -, h⟩ := h
    split at h
    · rw [pure_ok] at h
      subst h
      exact hX
    · rw [bind_ok] at h
      obtain ⟨S, hs, h⟩ := h
      rw [pure_ok] at h
      subst h
      intro r hr
      rcases List.mem_append.1 hr with hr | hr
      · exact hX r hr
      · exact sampleSimplex_rowlen hgauss (selectLabel_len hX y s.minLabel) (by intro V hV; cases hV) hs r hr

/-- **C118**, SMOTE_ENN. -/
theorem C118_smoteEnn (par : SmoteParams) (hgauss : par.ss.gaussian = .none) {vol : List Row → ℚ} (hv : VolScaled d (affineRow d M c) vol)
    (dr : Draws) {knn : Nat → List Row → List (List Nat)} (hk : SameTable d (affineRow d M c) knn) (checks : List Check) :
    CommutesWith d (affineRow d M c) (sample checks d (smoteEnnAlg par vol dr d knn)) := by
  refine commutes_of_alg fun s X y hX => ?_
  unfold smoteEnnAlg
  rw [show smoteSample par vol dr d knn (X.map (affineRow d M c)) y = changeRows (affineRow d M c) (smoteSample par vol dr d knn X y) from
    C118_smote par hgauss hv dr hk defaultChecks X y hX, change_bind]
  match hR : smoteSample par vol dr d knn X y with
  | .error e => rfl
  | .ok R =>
    show (do
      let res ← ennRemove .both knn (R.1.map (affineRow d M c)) R.2
      if res.2.count s.majLabel < res.2.count s.minLabel ∨ (npUnique res.2).length < 2 then return (X.map (affineRow d M c), y)
      return res : Res (List Row × List Int)) = changeRows (affineRow d M c) (do
      let res ← ennRemove .both knn R.1 R.2
      if res.2.count s.majLabel < res.2.count s.minLabel ∨ (npUnique res.2).length < 2 then return (X, y)
      return res)
    rw [C118_enn hk .both R.1 R.2 (smoteSample_rowlen hgauss hX hR), change_bind, changeRows, bind_map_left]
    simp only [change_ite, change_pure]

/-- **C118**, SMOTE_TomekLinks. -/
theorem C118_smoteTomek (par : SmoteParams) (hgauss : par.ss.gaussian = .none) {vol : List Row → ℚ} (hv : VolScaled d (affineRow d M c) vol)
    (dr : Draws) {knn : Nat → List Row → List (List Nat)} (hk : SameTable d (affineRow d M c) knn) (checks : List Check) :
    CommutesWith d (affineRow d M c) (sample checks d (smoteTomekAlg par vol dr d knn)) := by
  refine commutes_of_alg fun s X y hX => ?_
  unfold smoteTomekAlg
  rw [show smoteSample par vol dr d knn (X.map (affineRow d M c)) y = changeRows (affineRow d M c) (smoteSample par vol dr d knn X y) from
    C118_smote par hgauss hv dr hk defaultChecks X y hX, change_bind]
  match hR : smoteSample par vol dr d knn X y with
  | .error e => rfl
  | .ok R =>
    show (do
      let res ← tomekRemove .removeBoth knn (R.1.map (affineRow d M c)) R.2
      if res.1.length = 0 then return (X.map (affineRow d M c), y)
      return res : Res (List Row × List Int)) = changeRows (affineRow d M c) (do
      let res ← tomekRemove .removeBoth knn R.1 R.2
      if res.1.length = 0 then return (X, y)
      return res)
    rw [C118_tomek hk .removeBoth R.1 R.2 (smoteSample_rowlen hgauss hX hR), change_bind, changeRows, bind_map_left]
    simp only [change_ite, change_pure, List.length_map]

/-! ### Euclidean neighbours -/

theorem sqDist_coords {p q : Row} (hp : p.length = d) (hq : q.length = d) :
    sqDist p q = ∑ i ∈ Finset.range d, (p.getD i 0 - q.getD i 0) ^ 2 := by
  have e : (List.zipWith (· - ·) p q).map (fun t => t * t) = (List.range d).map (fun i => (p.getD i 0 - q.getD i 0) ^ 2) := by
    apply List.ext_getElem (by simp [hp, hq])
    intro i h1 h2
    simp only [List.length_map, List.length_range] at h2
    simp [List.getD, hp, hq, h2, pow_two]
  unfold sqDist
  rw [e]
  rfl

/-- Columns of `M` are orthogonal and of the same length: all distances are multiplied by the same number. -/
theorem sqDist_affine {t : ℚ} (hM : ∀ j k, j < d → k < d → ∑ i ∈ Finset.range d, M i j * M i k = if j = k then t else 0)
    {p q : Row} (hp : p.length = d) (hq : q.length = d) : sqDist (affineRow d M c p) (affineRow d M c q) = t * sqDist p q := by
  rw [sqDist_coords (affineRow_length ..) (affineRow_length ..), sqDist_coords hp hq]
  have e : ∀ i ∈ Finset.range d, ((affineRow d M c p).getD i 0 - (affineRow d M c q).getD i 0) ^ 2
      = ∑ j ∈ Finset.range d, ∑ k ∈ Finset.range d, (M i j * M i k) * ((p.getD j 0 - q.getD j 0) * (p.getD k 0 - q.getD k 0)) := by
    intro i hi
    rw [Finset.mem_range] at hi
    rw [affineRow_getD M c p hi, affineRow_getD M c q hi]
    have e1 : linForm d (M i) p + c i - (linForm d (M i) q + c i) = ∑ j ∈ Finset.range d, M i j * (p.getD j 0 - q.getD j 0) := by
      rw [show linForm d (M i) p = ∑ j ∈ Finset.range d, M i j * p.getD j 0 from rfl,
        show linForm d (M i) q = ∑ j ∈ Finset.range d, M i j * q.getD j 0 from rfl, add_sub_add_right_eq_sub, ← Finset.sum_sub_distrib]
      exact Finset.sum_congr rfl fun j _ => by ring
    rw [e1, pow_two, Finset.sum_mul_sum]
    exact Finset.sum_congr rfl fun j _ => Finset.sum_congr rfl fun k _ => by ring
  rw [Finset.sum_congr rfl e, Finset.sum_comm, Finset.mul_sum]
  refine Finset.sum_congr rfl fun j hj => ?_
  rw [Finset.sum_comm]
  have e2 : ∀ k ∈ Finset.range d, ∑ i ∈ Finset.range d, (M i j * M i k) * ((p.getD j 0 - q.getD j 0) * (p.getD k 0 - q.getD k 0))
      = if k = j then t * (p.getD j 0 - q.getD j 0) ^ 2 else 0 := by
    intro k hk
    rw [← Finset.sum_mul, hM j k (Finset.mem_range.1 hj) (Finset.mem_range.1 hk)]
    by_cases h : j = k
    · subst h
      simp [pow_two]
    · simp [h, Ne.symm h]
  rw [Finset.sum_congr rfl e2, Finset.sum_ite_eq' (Finset.range d) j, if_pos hj]

theorem nearestTo_scaled {t : ℚ} (ht : 0 < t) (hg : ∀ p q : Row, p.length = d → q.length = d → sqDist (g p) (g q) = t * sqDist p q)
    {Z : List Row} (hZ : ∀ r ∈ Z, r.length = d) (k : Nat) {x : Row} (hx : x.length = d) : nearestTo (Z.map g) k (g x) = nearestTo Z k x := by
  have h : ∀ a : Nat, sqDist (g x) ((Z.map g).getD a []) = t * sqDist x (Z.getD a []) := by
    intro a
    rw [List.getD_eq_getElem?_getD, List.getD_eq_getElem?_getD, List.getElem?_map]
    cases ha : Z[a]? with
    | none => simp [sqDist]
    | some z => exact hg x z hx (hZ z (List.mem_of_getElem? ha))
  have e : (fun a b : Nat => sqDist (g x) ((Z.map g).getD a []) ≤ sqDist (g x) ((Z.map g).getD b []))
      = fun a b => sqDist x (Z.getD a []) ≤ sqDist x (Z.getD b []) := by
    funext a b
    rw [h, h, eq_iff_iff]
    exact mul_le_mul_iff_right₀ ht
  unfold nearestTo
  rw [List.length_map]
  congr!

theorem bruteKnn_scaled {t : ℚ} (ht : 0 < t) (hg : ∀ p q : Row, p.length = d → q.length = d → sqDist (g p) (g q) = t * sqDist p q) :
    SameTable d g bruteKnn := by
  intro k Z hZ
  unfold bruteKnn
  rw [List.map_map]
  exact List.map_congr_left fun x hx => nearestTo_scaled ht hg hZ k (hZ x hx)

theorem bruteQuery_scaled {t : ℚ} (ht : 0 < t) (hg : ∀ p q : Row, p.length = d → q.length = d → sqDist (g p) (g q) = t * sqDist p q) :
    SameQuery d g bruteQuery := by
  intro k Z Q hZ hQ
  unfold bruteQuery
  rw [List.map_map]
  exact List.map_congr_left fun x hx => nearestTo_scaled ht hg hZ k (hQ x hx)

/-- **C118** for SMOTE with Euclidean neighbours: translations, rotations, reflections, a uniform change of units and all their compositions. -/
theorem C118_smote_euclid {t : ℚ} (ht : 0 < t) (hM : ∀ j k, j < d → k < d → ∑ i ∈ Finset.range d, M i j * M i k = if j = k then t else 0)
    (par : SmoteParams) (hgauss : par.ss.gaussian = .none) {vol : List Row → ℚ} (hv : VolScaled d (affineRow d M c) vol)
    (dr : Draws) (checks : List Check) :
    CommutesWith d (affineRow d M c) (sample checks d (smoteAlg par vol dr d bruteKnn)) :=
  C118_smote par hgauss hv dr (bruteKnn_scaled ht fun _ _ hp hq => sqDist_affine hM hp hq) checks

/-- **C118** for Borderline_SMOTE1 with Euclidean neighbours. -/
theorem C118_borderline1_euclid {t : ℚ} (ht : 0 < t) (hM : ∀ j k, j < d → k < d → ∑ i ∈ Finset.range d, M i j * M i k = if j = k then t else 0)
    (par : BorderParams) (hgauss : par.ss.gaussian = .none) {vol : List Row → ℚ} (hv : VolScaled d (affineRow d M c) vol)
    (dr : Draws) (checks : List Check) :
    CommutesWith d (affineRow d M c) (sample checks d (borderline1Alg par vol dr d bruteQuery)) :=
  C118_borderline1 par hgauss hv dr (bruteQuery_scaled ht fun _ _ hp hq => sqDist_affine hM hp hq) checks

/-! ### Witnesses -/

/-- The rotation with cosine 3/5 and sine 4/5, followed by a doubling of all lengths. -/
def turnM (i j : Nat) : ℚ :=
  match i, j with
  | 0, 0 => 6 / 5
  | 0, 1 => -8 / 5
  | 1, 0 => 8 / 5
  | 1, 1 => 6 / 5
  | _, _ => 0

theorem turnM_ok : ∀ j k, j < 2 → k < 2 → ∑ i ∈ Finset.range 2, turnM i j * turnM i k = if j = k then 4 else 0 := by
  intro j k hj hk
  interval_cases j <;> interval_cases k <;> simp [Finset.sum_range_succ, turnM] <;> norm_num

theorem volScaled_one (d : Nat) (g : Row → Row) : VolScaled d g (fun _ => 1) :=
  fun _ => ⟨1, one_ne_zero, fun _ _ _ => by simp⟩

/-- The volumes of simplices, when the sampler needs them. -/
example : VolScaled 2 (affineRow 2 turnM (fun _ => 7)) (fun vs => match vs with | [p, q] => sqDist p q | _ => 1) := by
  intro m
  by_cases hm : m = 2
  · refine ⟨4, by norm_num, fun vs hl hvs => ?_⟩
    obtain ⟨p, q, rfl⟩ := List.length_eq_two.1 (hl.trans hm)
    exact sqDist_affine turnM_ok (hvs p (by simp)) (hvs q (by simp))
  · refine ⟨1, one_ne_zero, fun vs hl _ => ?_⟩
    match vs with
    | [] => simp
    | [p] => simp
    | [p, q] => exact absurd hl.symm hm
    | p :: q :: r :: vs => simp

example : CommutesWith 2 (affineRow 2 turnM (fun i => i + 7)) (smoteSample exPar (fun _ => 1) exDraws 2 bruteKnn) ∧
    smoteSample exPar (fun _ => 1) exDraws 2 bruteKnn (exX.map (affineRow 2 turnM (fun i => i + 7))) exY
      = changeRows (affineRow 2 turnM (fun i => i + 7)) (.ok (exX ++ [[3/5, 2/5], [3/5, 2/5]], exY ++ [1, 1])) ∧
    affineRow 2 turnM (fun i => i + 7) [3/5, 2/5] = [177/25, 236/25] :=
  ⟨C118_smote_euclid (by norm_num) turnM_ok exPar rfl (volScaled_one _ _) exDraws defaultChecks, by decide +kernel, by decide +kernel⟩

/-- Different units for the columns change the neighbours. -/
def stretchM (i j : Nat) : ℚ := if i = j then (if i = 1 then 10 else 1) else 0

def stretchPar : SmoteParams := { exPar with nNeighbors := 1 }

def stretchX : List Row := [[0, 0], [3, 0], [0, 2], [5, 5], [6, 5], [5, 6], [6, 6], [7, 7]]

/-- Other units for one column: SMOTE then joins other rows, so that the same draws give other rows. -/
theorem C118_columns : ¬ CommutesWith 2 (affineRow 2 stretchM (fun _ => 0)) (smoteSample stretchPar (fun _ => 1) { exDraws with choiceU := fun _ => 0 } 2 bruteKnn) := by
  intro h
  have h1 := h stretchX exY (by decide +kernel)
  revert h1
  decide +kernel

/-- With a gaussian component the new rows do not follow a change of units. -/
theorem C118_noise : ¬ CommutesWith 2 (affineRow 2 turnM (fun _ => 0))
    (smoteSample { exPar with ss := { exPar.ss with gaussian := .sigma 1 } } (fun _ => 1) { exDraws with normalU := fun _ _ => 1 } 2 bruteKnn) := by
  intro h
  have h1 := h exX exY (by decide +kernel)
  revert h1
  decide +kernel

end Verif

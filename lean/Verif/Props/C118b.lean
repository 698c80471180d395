import Verif.Props.C118
import Verif.Model.Polynom
import Verif.Model.Clusters
import Verif.Model.Rejection
import Verif.Props.C51

/-!
# C118, continued: SPY, Stefanowski, the polynomial samplers, the cluster samplers and Supervised_SMOTE
-/

namespace Verif

variable {d : Nat} {g : Row → Row} {M : Nat → Nat → ℚ} {c : Nat → ℚ}

/-- **C118**, SPY: any change of coordinates which keeps the neighbours. -/
theorem C118_spy (threshold : ℚ) (nNeighbors : Nat) {knn : Nat → List Row → List Row → List (List Nat)} (hk : SameQuery d g knn)
    (checks : List Check) : CommutesWith d g (sample checks d (spyAlg threshold nNeighbors knn)) := by
  refine commutes_of_alg fun s X y hX => ?_
  have hS := selectLabel_len hX y s.minLabel
  unfold spyAlg
  simp only [selectLabel_change, List.length_map, hk _ _ _ hX hS, change_bind, change_pure]

theorem createMultiples_change (g : Row → Row) (X : List Row) (indices : List (List Nat)) (y : List Int) (safe : List Bool) (maj : Int)
    (pos : List Nat) : createMultiples (X.map g) indices y safe maj pos = (fun R => R.map g) <$> createMultiples X indices y safe maj pos := by
  unfold createMultiples
  have e : (fun i => (do
      let r ← getRow (X.map g) i
      let k ← copiesOf indices y safe maj i
      pure (List.replicate k r) : Res (List Row)))
      = fun i => List.map g <$> (do
      let r ← getRow X i
      let k ← copiesOf indices y safe maj i
      pure (List.replicate k r) : Res (List Row)) := by
    funext i
    simp only [getRow_rename, bind_map_left, map_bind, map_pure, List.map_replicate]
  rw [e, mapM_rename, bind_map_left, map_bind]
  simp only [map_pure, List.map_flatten]

theorem stefSamples_change (g : Row → Row) (st : StefStrategy) (X : List Row) (indices indices5 : List (List Nat)) (y : List Int)
    (safe : List Bool) (s : Stats) :
    st.samples (X.map g) indices indices5 y safe s = (fun R => R.map g) <$> st.samples X indices indices5 y safe s := by
  cases st with
  | strongAmp =>
    unfold StefStrategy.samples strongAmp
    simp only [createMultiples_change, bind_map_left, map_bind, map_pure, List.map_append]
  | weakAmp => exact createMultiples_change ..
  | weakAmpRelabel => exact createMultiples_change ..

/-- **C118**, Stefanowski: any change of coordinates which keeps the neighbours. -/
theorem C118_stefanowski (strategy : StefStrategy) {knn : Nat → List Row → List (List Nat)} (hk : SameTable d g knn) (checks : List Check) :
    CommutesWith d g (sample checks d (stefanowskiAlg strategy knn)) := by
  refine commutes_of_alg fun s X y hX => ?_
  unfold stefanowskiAlg kneighbors
  simp only [List.length_map, hk _ _ hX, change_bind, change_ite, change_pure, stefSamples_change, bind_map_left, npDelete_change, withSamples_change]

theorem mixRow_const_eq {p q : Row} (hp : p.length = d) (hq : q.length = d) (t : ℚ) :
    mixRow p q (fun _ => t) = Row.add (Row.smul t (Row.sub q p)) p := by
  unfold mixRow
  refine List.ext_getElem (by simp [hp, hq, Row.add, Row.smul, Row.sub]) fun i h1 h2 => ?_
  simp only [Row.add, Row.smul, Row.sub, List.getElem_map, List.getElem_zipIdx, List.getElem_zip, List.getElem_zipWith]
  ring

theorem splitPoints_change (hg : AffineOn d g) (k : Nat) {p q : Row} (hp : p.length = d) (hq : q.length = d) :
    splitPoints k (g p) (g q) = (splitPoints k p q).map g := by
  unfold splitPoints
  rw [List.map_map]
  refine List.map_congr_left fun j _ => ?_
  rw [Function.comp, mixRow_const_eq (hg.len p hp) (hg.len q hq), mixRow_const_eq hp hq, hg.seg p q _ hp hq]

theorem topology_change (hg : AffineOn d g) {t : Topology} (ht : t = .star ∨ t = .bus) (n : Nat) {S : List Row} (hS : ∀ r ∈ S, r.length = d) :
    t.samples d n (S.map g) = (t.samples d n S).map g := by
  rcases ht with rfl | rfl
  · simp only [Topology.samples, starSamples, List.length_map, List.flatMap_map, List.map_flatMap]
    refine List.flatMap_congr fun p hp => ?_
    have h0 : S.length ≠ 0 := by
      intro h
      rw [List.length_eq_zero_iff] at h
      subst h
      cases hp
    rw [← meanRow_change hg hS h0, splitPoints_change hg _ (hS p hp)]
    rw [meanRow, Row.smul_length, rowSum_length hS]
  · simp only [Topology.samples, busSamples, List.length_map, List.map_flatMap, ← List.map_tail, List.zip_map, List.flatMap_map]
    refine List.flatMap_congr fun p hp => ?_
    obtain ⟨h1, h2⟩ := List.of_mem_zip (a := p.1) (b := p.2) hp
    exact splitPoints_change hg _ (hS _ h1) (hS _ (List.mem_of_mem_tail h2))

theorem polynomAlg_change (hg : AffineOn d g) (proportion : ℚ) {t : Topology} (ht : t = .star ∨ t = .bus) (s : Stats) (X : List Row)
    (y : List Int) (hX : ∀ r ∈ X, r.length = d) :
    polynomAlg proportion t d s (X.map g) y = changeRows g (polynomAlg proportion t d s X y) := by
  unfold polynomAlg
  simp only [selectLabel_change, topology_change hg ht _ (selectLabel_len hX y s.minLabel), change_bind, change_ite, change_pure, withSamples_change]

/-- **C118**, polynom_fit_SMOTE with the topologies star and bus. -/
theorem C118_polynom (proportion : ℚ) {t : Topology} (ht : t = .star ∨ t = .bus) (checks : List Check) :
    CommutesWith d (affineRow d M c) (sample checks d (polynomAlg proportion t d)) :=
  commutes_of_alg fun s X y hX => polynomAlg_change (affineRow_affine d M c) proportion ht s X y hX

/-- **C118**, polynom_fit_SMOTE_star and polynom_fit_SMOTE_bus. -/
theorem C118_polynom_class (proportion : ℚ) {t : Topology} (ht : t = .star ∨ t = .bus) :
    CommutesWith d (affineRow d M c) (polynomClass proportion t d) :=
  commutes_of_alg fun _ X y hX => C118_polynom proportion ht defaultChecks X y hX

/-- **C118**, polynom_fit_SMOTE_mesh. -/
theorem C118_mesh (proportion : ℚ) {ss : SSParams} (hgauss : ss.gaussian = .none) {vol : List Row → ℚ} (hv : VolScaled d (affineRow d M c) vol)
    (dr : Draws) (nb : Nat → Nat → Nat) (checks : List Check) :
    CommutesWith d (affineRow d M c) (sample checks d (meshAlg proportion ss vol dr nb d)) := by
  refine commutes_of_alg fun s X y hX => ?_
  have hS := selectLabel_len hX y s.minLabel
  unfold meshAlg
  simp only [selectLabel_change, List.length_map, change_bind, change_ite, change_pure]
  refine bind_congr fun n => ?_
  refine if_congr Iff.rfl rfl ?_
  have h := fun ind k => sampleSimplex_affine (affineRow_affine d M c) hgauss hv dr hS ind k n {} (by intro V hV; cases hV)
  simp only [SSArgs.change, Option.map_none] at h
  rw [h, bind_map_left]
  simp only [withSamples_change]

theorem sampleInClusters_change (hg : AffineOn d g) {ss : SSParams} (hgauss : ss.gaussian = .none) {vol : List Row → ℚ}
    (hv : VolScaled d g vol) (drs : Nat → Draws) {k : Nat → Nat} {knn : Nat → List Row → List Row → List (List Nat)} (hk : SameQuery d g knn)
    {rows : List (List Row)} (hr : ∀ S ∈ rows, ∀ r ∈ S, r.length = d) (selected : List Nat) :
    sampleInClusters ss vol drs d (fun c => do
      let r ← getRow (rows.map (List.map g)) c
      return { rows := r, indices := knn (k r.length) r r, k := k r.length }) selected
    = (fun R => R.map g) <$> sampleInClusters ss vol drs d (fun c => do
      let r ← getRow rows c
      return { rows := r, indices := knn (k r.length) r r, k := k r.length }) selected := by
  unfold sampleInClusters
  have e : (fun p : (Nat × Nat) × Nat => (do
        let t ← (do
          let r ← getRow (rows.map (List.map g)) p.1.1
          return { rows := r, indices := knn (k r.length) r r, k := k r.length } : Res ClusterTask)
        sampleSimplex ss vol (drs p.2) d t.rows t.indices t.k p.1.2 t.args))
      = fun p => List.map g <$> (do
        let t ← (do
          let r ← getRow rows p.1.1
          return { rows := r, indices := knn (k r.length) r r, k := k r.length } : Res ClusterTask)
        sampleSimplex ss vol (drs p.2) d t.rows t.indices t.k p.1.2 t.args) := by
    funext p
    simp only [getRow_rename, bind_map_left, map_bind, bind_assoc, pure_bind, List.length_map]
    match hR : getRow rows p.1.1 with
    | .error e => rfl
    | .ok r =>
      have hS := hr r (getRow_mem hR)
      have h := sampleSimplex_affine hg hgauss hv (drs p.2) hS (knn (k r.length) r r) (k r.length) p.1.2 {} (by intro V hV; cases hV)
      simp only [SSArgs.change, Option.map_none] at h
      simp only [ok_bind, hk _ _ _ hS hS, h]
  rw [e, mapM_rename, bind_map_left, map_bind]
  refine bind_congr fun parts => ?_
  rw [List.length_map]
  split
  · rfl
  · simp only [map_pure, List.map_flatten]

/-- **C118**, cluster_SMOTE: the clusters are the same in the new coordinates. -/
theorem C118_cluster_smote (par : NbParams) (hgauss : par.ss.gaussian = .none) (nClusters : Nat) {vol : List Row → ℚ}
    (hv : VolScaled d (affineRow d M c) vol) (pick : Nat → Nat → List Nat) (drs : Nat → Draws) {kmeans : Nat → List Row → List Int}
    (hkm : ∀ (n : Nat) (Z : List Row), (∀ r ∈ Z, r.length = d) → kmeans n (Z.map (affineRow d M c)) = kmeans n Z)
    {knn : Nat → List Row → List Row → List (List Nat)} (hk : SameQuery d (affineRow d M c) knn) (checks : List Check) :
    CommutesWith d (affineRow d M c) (sample checks d (clusterSmoteAlg par nClusters vol pick drs d kmeans knn)) := by
  refine commutes_of_alg fun s X y hX => ?_
  have hS := selectLabel_len hX y s.minLabel
  unfold clusterSmoteAlg
  simp only [selectLabel_change, List.length_map, hkm _ _ hS, takeRows_rename, mapM_rename, change_bind, change_ite, change_pure]
  refine bind_congr fun n => ?_
  refine if_congr Iff.rfl rfl ?_
  split
  · rfl
  split
  · rfl
  simp only [bind_map_left, List.length_map]
  match hR : ((npUnique (kmeans (min (selectLabel X y s.minLabel).length nClusters) (selectLabel X y s.minLabel))).map
      (fun c => labelPositions (kmeans (min (selectLabel X y s.minLabel).length nClusters) (selectLabel X y s.minLabel)) c)).mapM
      (fun c => takeRows (selectLabel X y s.minLabel) c) with
  | .error e => rfl
  | .ok rows =>
    simp only [ok_bind]
    have hr : ∀ S ∈ rows, ∀ r ∈ S, r.length = d := by
      intro S hSm
      obtain ⟨q, -, hq⟩ := forall2_mem_right (mapM_ok_iff.1 hR) hSm
      exact takeRows_len hS hq
    rw [sampleInClusters_change (k := fun m => min par.nNeighbors m) (affineRow_affine d M c) hgauss hv drs hk hr, bind_map_left]
    simp only [withSamples_change]

theorem fixDensity_scale {e : ℚ} (he : e ≠ 0) (l : List ℚ) : fixDensity ((l.map (e * ·)).map XF.fin) = fixDensity (l.map XF.fin) := by
  have h1 : ∀ l : List ℚ, (l.map XF.fin).map XF.toNum = l := by
    intro l
    simp [Function.comp_def, XF.toNum]
  have h2 : (l.map (e * ·)).sum = e * l.sum := by rw [List.sum_map_mul_left, List.map_id']
  unfold fixDensity
  simp only [h1, List.length_map]
  by_cases h0 : l.sum = 0
  · rw [if_pos (by rw [h2, h0, mul_zero]), if_pos h0]
  · rw [if_neg (by rw [h2]; exact mul_ne_zero he h0), if_neg h0, h2, List.map_map]
    refine List.map_congr_left fun x _ => ?_
    simp only [Function.comp]
    exact mul_div_mul_left _ _ he

theorem clusterSparsity_scale {pdist : Row → Row → ℚ} {e : ℚ}
    (hp : ∀ p q : Row, p.length = d → q.length = d → pdist (g p) (g q) = e * pdist p q) {S : List Row} (hS : ∀ r ∈ S, r.length = d) :
    clusterSparsity pdist d (S.map g) = e ^ d * clusterSparsity pdist d S := by
  have e1 : ∀ p ∈ S, (S.map (fun q => pdist (g p) (g q))).sum = e * (S.map (fun q => pdist p q)).sum := by
    intro p hpS
    rw [← List.sum_map_mul_left]
    exact congrArg _ (List.map_congr_left fun q hqS => hp p q (hS p hpS) (hS q hqS))
  have e2 : (S.map (fun p => (S.map (fun q => pdist (g p) (g q))).sum)).sum = e * (S.map (fun p => (S.map (fun q => pdist p q)).sum)).sum := by
    rw [← List.sum_map_mul_left]
    exact congrArg _ (List.map_congr_left e1)
  have e3 : (S.map (fun p => pdist (g p) (g p))).sum = e * (S.map (fun p => pdist p p)).sum := by
    rw [← List.sum_map_mul_left]
    exact congrArg _ (List.map_congr_left fun p hpS => hp p p (hS p hpS) (hS p hpS))
  unfold clusterSparsity
  simp only [List.map_map, List.length_map, Function.comp_def, e2, e3]
  rw [← mul_sub, mul_div_assoc, mul_pow, mul_div_assoc]

/-- **C118**, kmeans_SMOTE: the clusters are the same in the new coordinates. The distances may change by a factor. -/
theorem C118_kmeans_smote (par : NbParams) (hgauss : par.ss.gaussian = .none) (nClusters : Nat) (irt : ℚ) {vol : List Row → ℚ}
    (hv : VolScaled d (affineRow d M c) vol) (cu : Nat → ℚ) (drs : Nat → Draws) {kmeans : Nat → List Row → List Int}
    (hkm : ∀ (n : Nat) (Z : List Row), (∀ r ∈ Z, r.length = d) → kmeans n (Z.map (affineRow d M c)) = kmeans n Z)
    {pdist : Row → Row → ℚ} {e : ℚ} (he : e ≠ 0)
    (hp : ∀ p q : Row, p.length = d → q.length = d → pdist (affineRow d M c p) (affineRow d M c q) = e * pdist p q)
    {knn : Nat → List Row → List Row → List (List Nat)} (hk : SameQuery d (affineRow d M c) knn) (checks : List Check) :
    CommutesWith d (affineRow d M c) (sample checks d (kmeansSmoteAlg par nClusters irt vol cu drs d kmeans pdist knn)) := by
  refine commutes_of_alg fun s X y hX => ?_
  unfold kmeansSmoteAlg
  have hE : (fun cluster => (do
      let ind ← clusterMinority y s.minLabel cluster
      takeRows (X.map (affineRow d M c)) ind : Res (List Row)))
      = fun cluster => List.map (affineRow d M c) <$> (do
      let ind ← clusterMinority y s.minLabel cluster
      takeRows X ind : Res (List Row)) := by
    funext cluster
    simp only [takeRows_rename, map_bind]
  simp only [List.length_map, hkm _ _ hX, hE, mapM_rename, change_bind, change_ite, change_pure]
  refine bind_congr fun n => ?_
  refine if_congr Iff.rfl rfl ?_
  refine bind_congr fun filt => ?_
  refine if_congr Iff.rfl rfl ?_
  simp only [bind_map_left]
  match hR : filt.mapM (fun cluster => (do
      let ind ← clusterMinority y s.minLabel cluster
      takeRows X ind : Res (List Row))) with
  | .error e => rfl
  | .ok rows =>
    simp only [ok_bind]
    have hr : ∀ S ∈ rows, ∀ r ∈ S, r.length = d := by
      intro S hSm
      obtain ⟨q, -, hq⟩ := forall2_mem_right (mapM_ok_iff.1 hR) hSm
      rw [bind_ok] at hq
      obtain ⟨ind, -, hq⟩ := hq
      exact takeRows_len hX hq
    have hw : fixDensity ((rows.map (List.map (affineRow d M c))).map (fun r => XF.fin (clusterSparsity pdist d r)))
        = fixDensity (rows.map (fun r => XF.fin (clusterSparsity pdist d r))) := by
      have e1 : (rows.map (List.map (affineRow d M c))).map (fun r => XF.fin (clusterSparsity pdist d r))
          = ((rows.map (fun r => clusterSparsity pdist d r)).map (e ^ d * ·)).map XF.fin := by
        simp only [List.map_map]
        exact List.map_congr_left fun S hSm => congrArg XF.fin (clusterSparsity_scale hp (hr S hSm))
      rw [e1, fixDensity_scale (pow_ne_zero d he), List.map_map]
      rfl
    rw [hw]
    refine bind_congr fun selected => ?_
    rw [sampleInClusters_change (k := fun m => min m (par.nNeighbors + 1)) (affineRow_affine d M c) hgauss hv drs hk hr, bind_map_left]
    simp only [withSamples_change]

theorem supLoop_change {gen gen' : Nat → Nat → Res (List Row)} (hgen : ∀ t q, gen' t q = (fun R => R.map g) <$> gen t q)
    (hlen : ∀ t q R, gen t q = .ok R → ∀ r ∈ R, r.length = d)
    {prob prob' : Row → ℚ} (hp : ∀ r : Row, r.length = d → prob' (g r) = prob r) (n f : Nat) :
    ∀ (t : Nat) (lo up : ℚ) (trials success : Nat) (S : List Row),
    supLoop gen' prob' n f t lo up trials success (S.map g) = (fun R => R.map g) <$> supLoop gen prob n f t lo up trials success S := by
  induction f with
  | zero => intros; rfl
  | succ f ih =>
    intro t lo up trials success S
    unfold supLoop
    rw [List.length_map]
    split
    · simp only [hgen, bind_map_left, map_bind]
      match hG : gen t (max ((n - S.length) * 4) 100) with
      | .error e => rfl
      | .ok batch =>
        simp only [ok_bind]
        have hf : (batch.map g).filter (fun x => decide (lo ≤ prob' x) && decide (prob' x ≤ up))
            = (batch.filter (fun x => decide (lo ≤ prob x) && decide (prob x ≤ up))).map g := by
          rw [List.filter_map]
          refine congrArg _ (List.filter_congr fun r hr => ?_)
          simp only [Function.comp, hp r (hlen _ _ _ hG r hr)]
        rw [hf, List.length_map, ← List.map_append, ih, ih]
        split <;> rfl
    · rfl

/-- **C118**, Supervised_SMOTE, when the classifier gives the same probabilities in the new coordinates. -/
theorem C118_supervised (par : SupParams) (hgauss : par.ss.gaussian = .none) {prob : List Row → List Int → Row → ℚ}
    (hp : ∀ (X : List Row) (y : List Int) (r : Row), (∀ q ∈ X, q.length = d) → r.length = d →
      prob (X.map (affineRow d M c)) y (affineRow d M c r) = prob X y r)
    {vol : List Row → ℚ} (hv : VolScaled d (affineRow d M c) vol) (drs : Nat → Draws) (checks : List Check) :
    CommutesWith d (affineRow d M c) (sample checks d (supervisedAlg par prob vol drs d)) := by
  refine commutes_of_alg fun s X y hX => ?_
  have hS := selectLabel_len hX y s.minLabel
  unfold supervisedAlg
  simp only [selectLabel_change, List.length_map, change_bind, change_ite, change_pure]
  refine bind_congr fun n => ?_
  refine if_congr Iff.rfl rfl ?_
  have h := supLoop_change (d := d) (g := affineRow d M c)
    (gen := fun t q => sampleSimplex par.ss vol (drs t) d (selectLabel X y s.minLabel) (circulant (selectLabel X y s.minLabel).length)
      (selectLabel X y s.minLabel).length q {})
    (gen' := fun t q => sampleSimplex par.ss vol (drs t) d ((selectLabel X y s.minLabel).map (affineRow d M c))
      (circulant (selectLabel X y s.minLabel).length) (selectLabel X y s.minLabel).length q {})
    (fun t q => by
      have h := sampleSimplex_affine (affineRow_affine d M c) hgauss hv (drs t) hS (circulant (selectLabel X y s.minLabel).length)
        (selectLabel X y s.minLabel).length q {} (by intro V hV; cases hV)
      simpa only [SSArgs.change, Option.map_none] using h)
    (fun t q R hR => sampleSimplex_rowlen hgauss hS (by intro V hV; cases hV) hR)
    (prob := prob X y) (prob' := prob (X.map (affineRow d M c)) y) (fun r hr => hp X y r hX hr) n
    (11 * (10 * n + 1) + 1) 0 par.thLower par.thUpper 1 1 []
  rw [List.map_nil] at h
  rw [h, bind_map_left]
  simp only [List.length_map, ← List.map_take, withSamples_change]

/-! ### Other units for every column -/

/-- The matrix only changes the units of the columns. -/
def DiagonalOn (d : Nat) (M : Nat → Nat → ℚ) : Prop := ∀ i j, i < d → j < d → i ≠ j → M i j = 0

theorem diag_getD (hM : DiagonalOn d M) (r : Row) {i : Nat} (hi : i < d) : (affineRow d M c r).getD i 0 = M i i * r.getD i 0 + c i := by
  rw [affineRow_getD M c r hi, linForm]
  congr 1
  have e : ((List.range d).map (fun j => M i j * r.getD j 0)).sum = ∑ j ∈ Finset.range d, M i j * r.getD j 0 := rfl
  rw [e, Finset.sum_eq_single i]
  · intro j hj hne
    rw [hM i j hi (Finset.mem_range.1 hj) hne.symm, zero_mul]
  · intro h
    exact absurd (Finset.mem_range.2 hi) h

theorem mixRow_diag (hM : DiagonalOn d M) {a b : Row} (ha : a.length = d) (hb : b.length = d) (u : Nat → ℚ) :
    mixRow (affineRow d M c a) (affineRow d M c b) u = affineRow d M c (mixRow a b u) := by
  refine row_ext (d := d) (mixRow_length (affineRow_length ..) (affineRow_length ..)) (affineRow_length ..) fun i hi => ?_
  rw [mixRow_getD (affineRow_length ..) (affineRow_length ..) hi, diag_getD hM _ hi, diag_getD hM _ hi, diag_getD hM _ hi, mixRow_getD ha hb hi]
  ring

/-- **C118**, Random_SMOTE, which draws a number for every feature: other units for the columns, when the neighbours stay the same. -/
theorem C118_random_smote (hM : DiagonalOn d M) (proportion : ℚ) (nNeighbors : Nat) (dr : RsDraws) {knn : Nat → List Row → List (List Nat)}
    (hk : SameTable d (affineRow d M c) knn) (checks : List Check) :
    CommutesWith d (affineRow d M c) (sample checks d (randomSmoteAlg proportion nNeighbors dr knn)) := by
  refine commutes_of_alg fun s X y hX => ?_
  have hS := selectLabel_len hX y s.minLabel
  unfold randomSmoteAlg
  have e : ∀ ind i, randomSmoteRow dr ((selectLabel X y s.minLabel).map (affineRow d M c)) ind i
      = affineRow d M c <$> randomSmoteRow dr (selectLabel X y s.minLabel) ind i := by
    intro ind i
    unfold randomSmoteRow
    simp only [getRow_rename, bind_map_left, map_bind]
    match h1 : getRow (selectLabel X y s.minLabel) (dr.base i) with
    | .error e => rfl
    | .ok base =>
      simp only [ok_bind]
      refine bind_congr fun nbs => bind_congr fun j1 => bind_congr fun j2 => ?_
      match h2 : getRow (selectLabel X y s.minLabel) j1 with
      | .error e => rfl
      | .ok y1 =>
        match h3 : getRow (selectLabel X y s.minLabel) j2 with
        | .error e => rfl
        | .ok y2 =>
          have l1 := hS _ (getRow_mem h2)
          have l2 := hS _ (getRow_mem h3)
          simp only [ok_bind, map_pure, mixRow_diag hM l1 l2, mixRow_diag hM (hS _ (getRow_mem h1)) (mixRow_length l1 l2)]
  simp only [selectLabel_change, List.length_map, hk _ _ hS, change_bind, change_ite, change_pure,
    show ∀ ind, randomSmoteRow dr ((selectLabel X y s.minLabel).map (affineRow d M c)) ind = _ from fun ind => funext (e ind), mapM_rename,
    bind_map_left, withSamples_change]

theorem inBox_diag (hM : DiagonalOn d M) (h0 : ∀ i, i < d → M i i ≠ 0) {p q x : Row} (hp : p.length = d) (hq : q.length = d) (hx : x.length = d) :
    inBox (affineRow d M c p) (affineRow d M c q) (affineRow d M c x) = inBox p q x := by
  have key : ∀ p q x : Row, p.length = d → q.length = d → x.length = d →
      (BoxBetween p q x ↔ ∀ t, t < d → min (p.getD t 0) (q.getD t 0) ≤ x.getD t 0 ∧ x.getD t 0 ≤ max (p.getD t 0) (q.getD t 0)) := by
    intro p q x hp hq hx
    constructor
    · intro h t ht
      refine h t _ _ _ ?_ ?_ ?_ <;> simp [List.getD, hp, hq, hx, ht]
    · intro h t a b c ha hb hc
      have ht : t < d := hp ▸ (List.getElem?_eq_some_iff.1 ha).1
      have := h t ht
      simpa [List.getD, ha, hb, hc] using this
  rw [Bool.eq_iff_iff, inBox_iff, inBox_iff, key _ _ _ (affineRow_length ..) (affineRow_length ..) (affineRow_length ..), key _ _ _ hp hq hx]
  refine forall_congr' fun t => forall_congr' fun ht => ?_
  rw [diag_getD hM _ ht, diag_getD hM _ ht, diag_getD hM _ ht]
  simp only [min_le_iff, le_max_iff, add_le_add_iff_right]
  rcases lt_or_gt_of_ne (h0 t ht) with h | h
  · simp only [mul_le_mul_left_of_neg h]
    tauto
  · simp only [mul_le_mul_iff_right₀ h]

theorem andRegions_diag (hM : DiagonalOn d M) (h0 : ∀ i, i < d → M i i ≠ 0) {X : List Row} (hX : ∀ r ∈ X, r.length = d) (y : List Int)
    (a b : Int) (i : Nat) (nbs js : List Nat) (acc : Option (Finset Nat × Finset Nat)) :
    andRegions (X.map (affineRow d M c)) y a b i nbs js acc = andRegions X y a b i nbs js acc := by
  have hr : ∀ j, rMinMaj (X.map (affineRow d M c)) y a b i nbs j = rMinMaj X y a b i nbs j := by
    intro j
    unfold rMinMaj
    have e : (fun v => getRow (X.map (affineRow d M c)) v) = fun v => affineRow d M c <$> getRow X v := funext fun v => getRow_rename ..
    simp only [getRow_rename, takeRows_rename, bind_map_left]
    match h1 : getRow X i with
    | .error e => rfl
    | .ok p =>
      match h2 : getRow nbs j with
      | .error e => rfl
      | .ok v =>
        simp only [ok_bind, getRow_rename, bind_map_left]
        match h3 : getRow X v with
        | .error e => rfl
        | .ok q =>
          match h4 : takeRows X (nbs.take (j + 1)) with
          | .error e => rfl
          | .ok rows =>
            simp only [ok_bind]
            refine bind_congr fun ls => ?_
            have hf : ∀ (reg : List Nat) (rows : List Row), (∀ r ∈ rows, r.length = d) → ∀ ls : List Int,
                ((List.zip reg (List.zip (rows.map (affineRow d M c)) ls)).filter
                  (fun t => inBox (affineRow d M c p) (affineRow d M c q) t.2.1)).map (fun t => (t.1, t.2.2))
                = ((List.zip reg (List.zip rows ls)).filter (fun t => inBox p q t.2.1)).map (fun t => (t.1, t.2.2)) := by
              intro reg rows hrows ls
              rw [List.zip_map_left, List.zip_map_right, List.filter_map, List.map_map]
              have : (fun t : Nat × Row × Int => inBox (affineRow d M c p) (affineRow d M c q) t.2.1) ∘ Prod.map id (Prod.map (affineRow d M c) id)
                  = fun t : Nat × Row × Int => inBox (affineRow d M c p) (affineRow d M c q) (affineRow d M c t.2.1) := rfl
              rw [this, List.filter_congr (q := fun t => inBox p q t.2.1)]
              · rfl
              · intro t ht
                exact inBox_diag hM h0 (hX _ (getRow_mem h1)) (hX _ (getRow_mem h3))
                  (hrows _ (List.of_mem_zip (List.of_mem_zip (a := t.1) (b := t.2) ht).2).1)
            have hpart : ∀ (l : List (Nat × Row × Int)) (z : Int), (l.filter (fun t => decide (t.2.2 = z))).map Prod.fst
                = ((l.map (fun t => (t.1, t.2.2))).filter (fun t => decide (t.2 = z))).map Prod.fst := by
              intro l z
              rw [List.filter_map, List.map_map]
              rfl
            rw [hpart, hpart, hpart, hpart, hf _ _ (takeRows_len hX h4)]
  induction js generalizing acc with
  | nil => rfl
  | cons j js ih =>
    unfold andRegions
    simp only [hr, ih]

/-- **C118**, AND_SMOTE, whose regions are boxes: other units for the columns, when the neighbours stay the same. -/
theorem C118_and_smote (hM : DiagonalOn d M) (h0 : ∀ i, i < d → M i i ≠ 0) (par : NbParams) (hgauss : par.ss.gaussian = .none) {vol : List Row → ℚ}
    (hv : VolScaled d (affineRow d M c) vol) (dr : Draws) {knn : Nat → List Row → List Row → List (List Nat)}
    (hk : SameQuery d (affineRow d M c) knn) (checks : List Check) :
    CommutesWith d (affineRow d M c) (sample checks d (andSmoteAlg par vol dr d knn)) := by
  refine commutes_of_alg fun s X y hX => ?_
  have hS := selectLabel_len hX y s.minLabel
  unfold andSmoteAlg andKappas andKappa
  simp only [selectLabel_change, List.length_map, hk _ _ _ hX hX, hk _ _ _ hS hS, andRegions_diag hM h0 hX, change_bind, change_ite, change_pure]
  refine bind_congr fun n => ?_
  refine if_congr Iff.rfl rfl ?_
  refine bind_congr fun kappa => ?_
  refine if_congr Iff.rfl rfl ?_
  have h := fun ind k a (ha : a.Xv = none) => sampleSimplex_affine (affineRow_affine d M c) hgauss hv dr hS ind k n a
    (by intro V hV; rw [ha] at hV; cases hV)
  have h' := h (knn (kappa.foldr max 0 + 1) (selectLabel X y s.minLabel) (selectLabel X y s.minLabel)) (kappa.foldr max 0 + 1)
    { simplexWeights := some (andWeights kappa (kappa.foldr max 0 + 1)) } rfl
  simp only [SSArgs.change, Option.map_none] at h'
  rw [h', bind_map_left]
  simp only [withSamples_change]

/-! ### Witnesses -/

def csRsDraws : RsDraws := { base := fun _ => 0, nb1 := fun _ => 1, nb2 := fun _ => 2, u1 := fun _ j => 1 / (j + 2), u2 := fun _ j => 1 / (j + 2) }

/-- Random_SMOTE draws a number for every feature, so that its rows do not follow a rotation which keeps all neighbours. -/
theorem C118_random_smote_rotation : SameTable 2 (affineRow 2 turnM (fun _ => 0)) bruteKnn ∧
    ¬ CommutesWith 2 (affineRow 2 turnM (fun _ => 0)) (sample defaultChecks 2 (randomSmoteAlg 1 2 csRsDraws bruteKnn)) := by
  refine ⟨bruteKnn_scaled (by norm_num) fun _ _ hp hq => sqDist_affine turnM_ok hp hq, fun h => ?_⟩
  have h1 := h exX exY (by decide +kernel)
  revert h1
  decide +kernel

def csAndX : List Row := [[4, 6], [4, 2], [3, 5], [2, 6], [1, 1], [5, 3], [6, 2], [5, 2], [1, 6], [6, 4], [4, 3], [7, 2], [5, 0]]
def csAndY : List Int := [1, 1, 1, 1, 1, 1, 0, 0, 0, 0, 0, 0, 0]
def csAndPar : NbParams := { proportion := 1, nNeighbors := 6, ss := exPar.ss }

/-- AND_SMOTE counts the rows in boxes along the axes, so that its rows do not follow a rotation which keeps all neighbours. -/
theorem C118_and_smote_rotation : SameQuery 2 (affineRow 2 turnM (fun _ => 0)) bruteQuery ∧
    ¬ CommutesWith 2 (affineRow 2 turnM (fun _ => 0))
      (sample defaultChecks 2 (andSmoteAlg csAndPar (fun _ => 1) { exDraws with choiceU := fun i => (i + 1) / 9 } 2 bruteQuery)) := by
  refine ⟨bruteQuery_scaled (by norm_num) fun _ _ hp hq => sqDist_affine turnM_ok hp hq, fun h => ?_⟩
  have h1 := h csAndX csAndY (by decide +kernel)
  revert h1
  decide +kernel

/-- SPY relabels the same rows after a rotation: here the three majority rows next to the minority. -/
example : CommutesWith 2 (affineRow 2 turnM (fun i => i + 7)) (sample defaultChecks 2 (spyAlg 1 5 bruteQuery)) ∧
    sample defaultChecks 2 (spyAlg 1 5 bruteQuery) (exX.map (affineRow 2 turnM (fun i => i + 7))) exY
      = .ok (exX.map (affineRow 2 turnM (fun i => i + 7)), [1, 1, 1, 1, 1, 1, 0, 0]) :=
  ⟨C118_spy 1 5 (bruteQuery_scaled (by norm_num) fun _ _ hp hq => sqDist_affine turnM_ok hp hq) _, by decide +kernel⟩

/-- The star: a new row half way from each minority row to the mean. -/
example : polynomClass 1 .star 2 (exX.map (affineRow 2 turnM (fun i => i + 7))) exY
      = changeRows (affineRow 2 turnM (fun i => i + 7)) (polynomClass 1 .star 2 exX exY) ∧
    polynomClass 1 .star 2 exX exY = .ok (exX ++ [[1/6, 1/6], [2/3, 1/6], [1/6, 2/3]], exY ++ [1, 1, 1]) :=
  ⟨C118_polynom_class 1 (Or.inl rfl) exX exY (by decide +kernel), by decide +kernel⟩

/-- One cluster of all minority rows. -/
example : CommutesWith 2 (affineRow 2 turnM (fun i => i + 7)) (sample defaultChecks 2 (clusterSmoteAlg csAndPar 1 (fun _ => 1)
      (fun _ n => List.replicate n 0) (fun _ => exDraws) 2 (fun _ Z => Z.map (fun _ => 0)) bruteQuery)) ∧
    ((sample defaultChecks 2 (clusterSmoteAlg csAndPar 1 (fun _ => 1) (fun _ n => List.replicate n 0) (fun _ => exDraws) 2
      (fun _ Z => Z.map (fun _ => 0)) bruteQuery) exX exY).map (fun p => p.1.length)) = .ok 10 :=
  ⟨C118_cluster_smote csAndPar rfl 1 (volScaled_one _ _) _ _ (by intro n Z _; rw [List.map_map]; rfl)
    (bruteQuery_scaled (by norm_num) fun _ _ hp hq => sqDist_affine turnM_ok hp hq) _, by decide +kernel⟩

/-- Halving the first column and mirroring the second is a change of units. -/
example : DiagonalOn 2 (fun i j => if i = j then (if i = 0 then 1 / 2 else -3) else 0) ∧
    (∀ i, i < 2 → (fun i j : Nat => if i = j then (if i = 0 then (1 : ℚ) / 2 else -3) else 0) i i ≠ 0) ∧
    CommutesWith 2 (affineRow 2 (fun i j => if i = j then (if i = 0 then 1 / 2 else -3) else 0) (fun _ => 4))
      (sample defaultChecks 2 (randomSmoteAlg 1 2 csRsDraws exKnn)) := by
  have h : DiagonalOn 2 (fun i j => if i = j then (if i = 0 then 1 / 2 else -3) else 0) := fun i j _ _ hne => if_neg hne
  refine ⟨h, fun i hi => ?_, C118_random_smote h 1 2 csRsDraws (fun k Z _ => by simp [exKnn]) _⟩
  interval_cases i <;> norm_num

end Verif

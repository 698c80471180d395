import Verif.Lemmas.Majority
import Verif.Lemmas.SmoteExample
import Verif.Spec.Neighbors
import Verif.Model.Adoms
import Verif.Model.Clusters
import Verif.Model.Deago
import Verif.Model.GSmote
import Verif.Model.Interp
import Verif.Model.Isomap
import Verif.Model.Lle
import Verif.Model.Lvq
import Verif.Model.Polynom
import Verif.Model.Regions
import Verif.Model.Selected
import Verif.Model.Smobd
import Verif.Model.Smote
import Verif.Model.SmoteD
import Verif.Model.SnSmmo
import Verif.Model.Weighted

/-!
# C119: the majority rows do not influence the new rows

For the samplers below the new rows are a function of the minority rows and of the number of majority rows.
-/

namespace Verif

theorem C119_smote (par : SmoteParams) (vol : List Row → ℚ) (dr : Draws) (d : Nat) (knn : Nat → List Row → List (List Nat)) (checks : List Check) (d0 : Nat) :
    IgnoresMajority (sample checks d0 (smoteAlg par vol dr d knn)) := by
  refine ignores_of_alg fun X X' y y' s s' h => ?_
  unfold smoteAlg
  simp only [h.minLabel, h.majLabel, h.countMin, h.countMaj, h.rows, new_bind, new_ite, new_pure, List.drop_length, List.drop_left]

theorem C119_adoms (proportion : ℚ) (nNeighbors : Nat) (pca : List Row → Row) (norm : Row → ℚ) (index nbIx : Nat → Nat → Nat) (rand : Nat → ℚ) (knn : Nat → List Row → List (List Nat)) (checks : List Check) (d0 : Nat) :
    IgnoresMajority (sample checks d0 (adomsAlg proportion nNeighbors pca norm index nbIx rand knn)) := by
  refine ignores_of_alg fun X X' y y' s s' h => ?_
  unfold adomsAlg
  simp only [h.minLabel, h.majLabel, h.countMin, h.countMaj, h.rows, new_bind, new_ite, new_pure, withSamples_new, List.drop_length]

theorem C119_clusterSmote (par : NbParams) (nClusters : Nat) (vol : List Row → ℚ) (pick : Nat → Nat → List Nat) (drs : Nat → Draws) (d : Nat) (kmeans : Nat → List Row → List Int) (knn : Nat → List Row → List Row → List (List Nat)) (checks : List Check) (d0 : Nat) :
    IgnoresMajority (sample checks d0 (clusterSmoteAlg par nClusters vol pick drs d kmeans knn)) := by
  refine ignores_of_alg fun X X' y y' s s' h => ?_
  unfold clusterSmoteAlg
  simp only [h.minLabel, h.majLabel, h.countMin, h.countMaj, h.rows, new_bind, new_ite, new_pure, withSamples_new, List.drop_length]

theorem C119_gsmote (par : NbParams) (angles : List Row → List (List Nat) → Res (List (List ℚ))) (argsort : List ℚ → List Nat) (vol : List Row → ℚ) (dr : Draws) (d : Nat) (knn : Nat → List Row → List Row → List (List Nat)) (checks : List Check) (d0 : Nat) :
    IgnoresMajority (sample checks d0 (gsmoteAlg par angles argsort vol dr d knn)) := by
  refine ignores_of_alg fun X X' y y' s s' h => ?_
  unfold gsmoteAlg
  simp only [h.minLabel, h.majLabel, h.countMin, h.countMaj, h.rows, new_bind, new_ite, new_pure, withSamples_new, List.drop_length]

theorem C119_randomSmote (proportion : ℚ) (nNeighbors : Nat) (dr : RsDraws) (knn : Nat → List Row → List (List Nat)) (checks : List Check) (d0 : Nat) :
    IgnoresMajority (sample checks d0 (randomSmoteAlg proportion nNeighbors dr knn)) := by
  refine ignores_of_alg fun X X' y y' s s' h => ?_
  unfold randomSmoteAlg
  simp only [h.minLabel, h.majLabel, h.countMin, h.countMaj, h.rows, new_bind, new_ite, new_pure, withSamples_new, List.drop_length]

theorem C119_noSmote (raiseValue raiseRuntime : Bool) (checks : List Check) (d0 : Nat) :
    IgnoresMajority (sample checks d0 (noSmoteAlg raiseValue raiseRuntime)) := by
  refine ignores_of_alg fun X X' y y' s s' h => ?_
  unfold noSmoteAlg
  simp only [new_ite, new_ok, new_error, List.drop_length]

theorem C119_lle (par : NbParams) (nComp : Nat) (lle : Nat → Nat → List Row → List Row) (solve : List Row → Row → Option Row) (vol : List Row → ℚ) (dr : Draws) (d : Nat) (knn : Nat → List Row → List Row → List (List Nat)) (checks : List Check) (d0 : Nat) :
    IgnoresMajority (sample checks d0 (lleAlg par nComp lle solve vol dr d knn)) := by
  refine ignores_of_alg fun X X' y y' s s' h => ?_
  unfold lleAlg
  simp only [h.minLabel, h.majLabel, h.countMin, h.countMaj, h.rows, new_bind, new_ite, new_pure, withSamples_new, List.drop_length]

theorem C119_lvq (proportion : ℚ) (nNeighbors nClusters : Nat) (kmeans : Nat → List Row → List Row) (norm : Row → ℚ) (codes : Nat → Nat → Nat × Nat) (coin : Nat → Nat → Nat → Bool) (pos : Nat → Nat → Nat) (knn : Nat → List Row → List Row → List (List Nat)) (checks : List Check) (d0 : Nat) :
    IgnoresMajority (sample checks d0 (lvqAlg proportion nNeighbors nClusters kmeans norm codes coin pos knn)) := by
  refine ignores_of_alg fun X X' y y' s s' h => ?_
  unfold lvqAlg
  simp only [h.minLabel, h.majLabel, h.countMin, h.countMaj, h.rows, new_bind, new_ite, new_pure, withSamples_new, List.drop_length]

theorem C119_polynom (proportion : ℚ) (t : Topology) (d : Nat) (checks : List Check) (d0 : Nat) :
    IgnoresMajority (sample checks d0 (polynomAlg proportion t d)) := by
  refine ignores_of_alg fun X X' y y' s s' h => ?_
  unfold polynomAlg
  simp only [h.minLabel, h.majLabel, h.countMin, h.countMaj, h.rows, new_bind, new_ite, new_pure, withSamples_new, List.drop_length]

theorem C119_mesh (proportion : ℚ) (ss : SSParams) (vol : List Row → ℚ) (dr : Draws) (nb : Nat → Nat → Nat) (d : Nat) (checks : List Check) (d0 : Nat) :
    IgnoresMajority (sample checks d0 (meshAlg proportion ss vol dr nb d)) := by
  refine ignores_of_alg fun X X' y y' s s' h => ?_
  unfold meshAlg
  simp only [h.minLabel, h.majLabel, h.countMin, h.countMaj, h.rows, new_bind, new_ite, new_pure, withSamples_new, List.drop_length]

theorem C119_distanceSmote (par : NbParams) (vol : List Row → ℚ) (dr : Draws) (d : Nat) (knn : Nat → List Row → List Row → List (List Nat)) (checks : List Check) (d0 : Nat) :
    IgnoresMajority (sample checks d0 (distanceSmoteAlg par vol dr d knn)) := by
  refine ignores_of_alg fun X X' y y' s s' h => ?_
  unfold distanceSmoteAlg
  simp only [h.minLabel, h.majLabel, h.countMin, h.countMaj, h.rows, new_bind, new_ite, new_pure, withSamples_new, List.drop_length]

theorem C119_ntSmote (par : NbParams) (vol : List Row → ℚ) (dr : Draws) (d : Nat) (knn : Nat → List Row → List Row → List (List Nat)) (checks : List Check) (d0 : Nat) :
    IgnoresMajority (sample checks d0 (ntSmoteAlg par vol dr d knn)) := by
  refine ignores_of_alg fun X X' y y' s s' h => ?_
  unfold ntSmoteAlg
  simp only [h.minLabel, h.majLabel, h.countMin, h.countMaj, h.rows, new_bind, new_ite, new_pure, withSamples_new, List.drop_length]

theorem C119_rwo (par : NbParams) (colStd : List Row → Nat → ℚ) (vol : List Row → ℚ) (dr : Draws) (walkU : Nat → Nat → ℚ) (d : Nat) (knn : Nat → List Row → List Row → List (List Nat)) (checks : List Check) (d0 : Nat) :
    IgnoresMajority (sample checks d0 (rwoAlg par colStd vol dr walkU d knn)) := by
  refine ignores_of_alg fun X X' y y' s s' h => ?_
  unfold rwoAlg
  simp only [h.minLabel, h.majLabel, h.countMin, h.countMaj, h.rows, new_bind, new_ite, new_pure, withSamples_new, List.drop_length]

theorem C119_smoteD (proportion : ℚ) (k : Nat) (std : List ℚ → XF) (u : Nat → Nat → Nat → ℚ) (knn : Nat → List Row → List (List Nat)) (knnDist : Nat → List Row → List (List ℚ)) (checks : List Check) (d0 : Nat) :
    IgnoresMajority (sample checks d0 (smoteDAlg proportion k std u knn knnDist)) := by
  refine ignores_of_alg fun X X' y y' s s' h => ?_
  unfold smoteDAlg
  simp only [h.minLabel, h.majLabel, h.countMin, h.countMaj, h.rows, new_bind, new_ite, new_pure, withSamples_new, List.drop_length]

theorem C119_snSmote (par : NbParams) (dist : Row → Row → ℚ) (vol : List Row → ℚ) (pick : Nat → Nat → List Nat) (drs : Nat → Draws) (d : Nat) (knn : Nat → List Row → List Row → List (List Nat)) (checks : List Check) (d0 : Nat) :
    IgnoresMajority (sample checks d0 (snSmoteAlg par dist vol pick drs d knn)) := by
  refine ignores_of_alg fun X X' y y' s s' h => ?_
  unfold snSmoteAlg
  simp only [h.minLabel, h.majLabel, h.countMin, h.countMaj, h.rows, new_bind, new_ite, new_pure, withSamples_new, List.drop_length]

theorem C119_mct (par : NbParams) (dist : Row → Row → ℚ) (vol : List Row → ℚ) (dr : Draws) (d : Nat) (knn : Nat → List Row → List Row → List (List Nat)) (checks : List Check) (d0 : Nat) :
    IgnoresMajority (sample checks d0 (mctAlg par dist vol dr d knn)) := by
  refine ignores_of_alg fun X X' y y' s s' h => ?_
  unfold mctAlg
  simp only [h.minLabel, h.majLabel, h.countMin, h.countMaj, h.rows, new_bind, new_ite, new_pure, withSamples_new, List.drop_length]

theorem C119_polynomClass (proportion : ℚ) (t : Topology) (d : Nat) : IgnoresMajority (polynomClass proportion t d) :=
  ignores_of_alg fun X X' y y' _ _ h =>
    C119_polynom proportion t d defaultChecks d X X' y y' _ _ h.labels h.labels' h.two h.two'
      (by rw [← selectLabel_eq_classRows, ← selectLabel_eq_classRows, h.rows]) h.ycountMaj.symm

theorem C119_rose (proportion : ℚ) (std : List ℚ → ℚ) (width : Nat → Nat → ℚ) (ix : Nat → Nat → Nat → Nat) (normal : Nat → Nat → ℚ) (d : Nat)
    (checks : List Check) (d0 : Nat) : IgnoresMajority (sample checks d0 (roseAlg proportion std width ix normal d)) := by
  refine ignores_of_alg fun X X' y y' s s' h => ?_
  unfold roseAlg
  simp only [h.minLabel, h.majLabel, h.countMin, h.countMaj, h.rows, new_bind, new_ite, new_pure, withSamples_new, List.drop_length]
  rw [h.length]

theorem C119_smobd (proportion eta1 t : ℚ) (minSamples : Nat) (optics : Nat → List Row → Res (List XF × List XF)) (radius : List Row → List Nat)
    (baseU : Nat → ℚ) (ix : Nat → Nat → Nat) (gap : Nat → Nat → ℚ) (knn : Nat → List Row → List (List Nat)) (checks : List Check) (d0 : Nat) :
    IgnoresMajority (sample checks d0 (smobdAlg proportion eta1 t minSamples optics radius baseU ix gap knn)) := by
  refine ignores_of_alg fun X X' y y' s s' h => ?_
  unfold smobdAlg
  simp only [h.minLabel, h.majLabel, h.countMin, h.countMaj, h.rows, new_bind, new_ite, new_pure, List.drop_length]
  refine bind_congr fun n => ?_
  split
  · rfl
  · split
    · simp only [new_pure, List.drop_length]
    · rfl
    · simp only [new_bind, new_ite, new_pure, withSamples_new]

theorem C119_deago (par : DeagoParams) (fitScaler : List Row → Row × Row)
    (fit : (units epochs : Nat) → (train : List Row) → (val : Option (List Row)) → DeagoNet) (vol : List Row → ℚ) (dr : Draws) (d : Nat)
    (knn : Nat → List Row → List (List Nat)) (checks : List Check) (d0 : Nat) :
    IgnoresMajority (sample checks d0 (deagoAlg par fitScaler fit vol dr d knn)) := by
  refine ignores_of_alg fun X X' y y' s s' h => ?_
  have hs := C119_smote par.smote vol dr d knn defaultChecks d X X' y y' _ _ h.labels h.labels' h.two h.two'
    (by rw [← selectLabel_eq_classRows, ← selectLabel_eq_classRows, h.rows]) h.ycountMaj.symm
  have e : ∀ (m m' : Res (List Row × List Int)) (f : List Row → List Row), newRows X m = newRows X' m' →
      (m >>= fun r => pure (f (r.1.drop X.length))) = (m' >>= fun r => pure (f (r.1.drop X'.length)) : Res (List Row)) := by
    intro m m' f hm
    have : ∀ (Z : List Row) (m : Res (List Row × List Int)), (m >>= fun r => pure (f (r.1.drop Z.length)) : Res (List Row)) = f <$> newRows Z m := by
      intro Z m
      cases m <;> rfl
    rw [this, this, hm]
  unfold deagoAlg
  simp only [h.minLabel, h.majLabel, h.countMin, h.countMaj, h.rows, new_bind, new_ite, new_pure, withSamples_new, List.drop_length]
  refine bind_congr fun n => ?_
  split
  · rfl
  · exact e _ _ (fun D => List.map _ (List.map _ D)) hs

/-! ### Witnesses -/

/-- Other majority rows, in other places. -/
def otherX : List Row := [[9, 9], [0, 0], [0, 0], [1, 0], [-7, 3], [0, 1], [1, 1], [1 / 2, 1]]

example : newRows exX (smoteSample exPar (fun _ => 1) exDraws 2 bruteKnn exX exY) = .ok [[3/5, 2/5], [3/5, 2/5]] ∧
    newRows otherX (smoteSample exPar (fun _ => 1) exDraws 2 bruteKnn otherX [0, 1, 0, 1, 0, 1, 0, 0]) = .ok [[3/5, 2/5], [3/5, 2/5]] := by
  have h1 : newRows exX (smoteSample exPar (fun _ => 1) exDraws 2 bruteKnn exX exY) = .ok [[3/5, 2/5], [3/5, 2/5]] := by decide +kernel
  exact ⟨h1, (C119_smote exPar (fun _ => 1) exDraws 2 bruteKnn defaultChecks 2 exX otherX exY [0, 1, 0, 1, 0, 1, 0, 0] 1 0 rfl rfl
    ⟨by decide, by decide, by decide, Or.inl (by decide)⟩ ⟨by decide, by decide, by decide, Or.inl (by decide)⟩ (by decide +kernel)
    (by decide)).symm.trans h1⟩

/-- A scaler by the smallest value and the range of each column. -/
def rangeScaler (X : List Row) : Row × Row :=
  ((List.range 2).map (fun j => (X.map (fun r => r.getD j 0)).foldr min 0),
    (List.range 2).map (fun j => (X.map (fun r => r.getD j 0)).foldr max 0 - (X.map (fun r => r.getD j 0)).foldr min 0))

/-- Gaussian_SMOTE fits its scaler to all rows, so the size of its noise depends on the majority rows: not ignored. -/
theorem C119_gaussian_not : ¬ IgnoresMajority (sample defaultChecks 2 (gaussianSmoteAlg { exPar with ss := { exPar.ss with gaussian := .sigma 1 } }
    rangeScaler (fun _ => 1) { exDraws with normalU := fun _ _ => 1 } 2 (fun k rows _ => exKnn k rows))) := by
  intro h
  have h1 := h exX [[0, 0], [1, 0], [0, 1], [5, 5], [6, 5], [5, 6], [6, 6], [9, 9]] exY exY 1 0 rfl rfl
    ⟨by decide, by decide, by decide, Or.inl (by decide)⟩ ⟨by decide, by decide, by decide, Or.inl (by decide)⟩ (by decide +kernel) rfl
  revert h1
  decide +kernel

end Verif

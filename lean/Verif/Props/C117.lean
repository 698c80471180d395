import Verif.Lemmas.RenameHelpers
import Verif.Model.Adoms
import Verif.Model.Ahc
import Verif.Model.Amsr
import Verif.Model.Asmobd
import Verif.Model.Borderline
import Verif.Model.Ccr
import Verif.Model.CeNras
import Verif.Model.Cleaning
import Verif.Model.Clusters
import Verif.Model.Cure
import Verif.Model.Dbsmote
import Verif.Model.Deago
import Verif.Model.Dsmote
import Verif.Model.GSmote
import Verif.Model.Interp
import Verif.Model.Isomap
import Verif.Model.Lle
import Verif.Model.LnSmote
import Verif.Model.Lvq
import Verif.Model.Mdo
import Verif.Model.MergeAlgs
import Verif.Model.Mot2ld
import Verif.Model.Msyn
import Verif.Model.Mwmote
import Verif.Model.Polynom
import Verif.Model.ProWSyn
import Verif.Model.Regions
import Verif.Model.Rejection
import Verif.Model.Rsb
import Verif.Model.Selected
import Verif.Model.Smobd
import Verif.Model.Smote
import Verif.Model.SmoteD
import Verif.Model.SmoteOut
import Verif.Model.SnSmmo
import Verif.Model.Somo
import Verif.Model.Sundo
import Verif.Model.Symprod
import Verif.Model.Weighted
import Verif.Props.C93
import Verif.Props.C62
import Verif.Props.C48

/-!
# C117: the names of the classes do not matter

Two data sets which differ only in how the two classes are called are oversampled alike: the same rows, the same labels up to the names, and the
same exception if there is one. The tables of neighbours, the random numbers and the other parameters of the models do not depend on the labels.
-/

namespace Verif

/-! ## Any other names -/

theorem C117_smote (par : SmoteParams) (vol : List Row → ℚ) (dr : Draws) (d : Nat) (knn : Nat → List Row → List (List Nat)) (checks : List Check)
    (d0 : Nat) :
    NamesDontMatter (sample checks d0 (smoteAlg par vol dr d knn)) := by
  refine names_of_alg fun f hf X y s s' h _ _ => ?_
  unfold smoteAlg
  simp only [h.minLabel, h.majLabel, h.countMin, h.countMaj, selectLabel_rename hf, rename_bind, rename_ite, rename_pure, List.map_append,
    List.map_replicate]

theorem C117_adoms (proportion : ℚ) (nNeighbors : Nat) (pca : List Row → Row) (norm : Row → ℚ) (index nbIx : Nat → Nat → Nat) (rand : Nat → ℚ)
    (knn : Nat → List Row → List (List Nat)) (checks : List Check) (d0 : Nat) :
    NamesDontMatter (sample checks d0 (adomsAlg proportion nNeighbors pca norm index nbIx rand knn)) := by
  refine names_of_alg fun f hf X y s s' h _ _ => ?_
  unfold adomsAlg
  simp only [h.minLabel, h.majLabel, h.countMin, h.countMaj, selectLabel_rename hf, withSamples_rename, rename_bind, rename_ite, rename_pure]

theorem C117_asmobd (proportion : ℚ) (ss : SSParams) (par : AsmobdParams) (fitScaler : List Row → Row × Row) (sig : Option ℚ → ℚ)
    (optics : ℚ → Nat → List Row → Res (List XF × List XF)) (ball : List Row → Row → XF → List Nat) (vol : List Row → ℚ) (dr : Draws) (d : Nat)
    (knn : Nat → List Row → List (List Nat)) (checks : List Check) (d0 : Nat) :
    NamesDontMatter (sample checks d0 (asmobdAlg proportion ss par fitScaler sig optics ball vol dr d knn)) := by
  refine names_of_alg fun f hf X y s s' h _ _ => ?_
  unfold asmobdAlg
  simp only [h.minLabel, h.majLabel, h.countMin, h.countMaj, selectLabel_rename hf, withSamples_rename, rename_bind, rename_ite, rename_pure,
    asmobdRound_rename hf]

theorem C117_adasyn (par : AdasynParams) (vol : List Row → ℚ) (dr : Draws) (d : Nat) (knn : Nat → List Row → List Row → List (List Nat))
    (checks : List Check) (d0 : Nat) :
    NamesDontMatter (sample checks d0 (adasynAlg par vol dr d knn)) := by
  refine names_of_alg fun f hf X y s s' h _ _ => ?_
  unfold adasynAlg
  simp only [h.minLabel, h.majLabel, h.countMin, h.countMaj, selectLabel_rename hf, withSamples_rename, rename_bind, rename_ite, rename_pure,
    adasynRatio_rename hf]

theorem C117_ccr (proportion E : ℚ) (dr : CcrDraws) (checks : List Check) (d0 : Nat) :
    NamesDontMatter (sample checks d0 (ccrAlg proportion E dr)) := by
  refine names_of_alg fun f hf X y s s' h _ _ => ?_
  unfold ccrAlg
  simp only [h.minLabel, h.majLabel, h.countMin, h.countMaj, selectLabel_rename hf, withSamples_rename, rename_bind, rename_ite, rename_pure]

theorem C117_spy (threshold : ℚ) (nNeighbors : Nat) (knn : Nat → List Row → List Row → List (List Nat)) (checks : List Check) (d0 : Nat) :
    NamesDontMatter (sample checks d0 (spyAlg threshold nNeighbors knn)) := by
  refine names_of_alg fun f hf X y s s' h _ _ => ?_
  unfold spyAlg
  simp only [h.minLabel, h.majLabel, selectLabel_rename hf, rename_bind, rename_pure, assignAt_rename, spyFlips_rename hf]

theorem C117_kmeansSmote (par : NbParams) (nClusters : Nat) (irt : ℚ) (vol : List Row → ℚ) (cu : Nat → ℚ) (drs : Nat → Draws) (d : Nat)
    (kmeans : Nat → List Row → List Int) (pdist : Row → Row → ℚ) (knn : Nat → List Row → List Row → List (List Nat)) (checks : List Check)
    (d0 : Nat) :
    NamesDontMatter (sample checks d0 (kmeansSmoteAlg par nClusters irt vol cu drs d kmeans pdist knn)) := by
  refine names_of_alg fun f hf X y s s' h _ _ => ?_
  unfold kmeansSmoteAlg
  simp only [h.minLabel, h.majLabel, h.countMin, h.countMaj, withSamples_rename, rename_bind, rename_ite, rename_pure, kmClusters_rename hf,
    clusterMinority_rename hf]

theorem C117_clusterSmote (par : NbParams) (nClusters : Nat) (vol : List Row → ℚ) (pick : Nat → Nat → List Nat) (drs : Nat → Draws) (d : Nat)
    (kmeans : Nat → List Row → List Int) (knn : Nat → List Row → List Row → List (List Nat)) (checks : List Check) (d0 : Nat) :
    NamesDontMatter (sample checks d0 (clusterSmoteAlg par nClusters vol pick drs d kmeans knn)) := by
  refine names_of_alg fun f hf X y s s' h _ _ => ?_
  unfold clusterSmoteAlg
  simp only [h.minLabel, h.majLabel, h.countMin, h.countMaj, selectLabel_rename hf, withSamples_rename, rename_bind, rename_ite, rename_pure,
    List.length_map, List.all_map, Function.comp_def]

theorem C117_cureSmote (par : CureParams) (fitScaler : List Row → Row × Row) (small : Nat → List Nat → Nat) (dist : Row → Row → ℚ)
    (vol : List Row → ℚ) (pick : Nat → Nat → List Nat) (drs : Nat → Draws) (d : Nat) (checks : List Check) (d0 : Nat) :
    NamesDontMatter (sample checks d0 (cureSmoteAlg par fitScaler small dist vol pick drs d)) := by
  refine names_of_alg fun f hf X y s s' h _ _ => ?_
  unfold cureSmoteAlg
  simp only [h.minLabel, h.majLabel, h.countMin, h.countMaj, selectLabel_rename hf, withSamples_rename, rename_bind, rename_ite, rename_pure]

theorem C117_dbsmote (par : DbParams) (fitScaler : List Row → Row × Row) (dbscan : List Row → ℚ → Int → Res (List Int)) (nn : ClusterNN)
    (dr : DbDraws) (checks : List Check) (d0 : Nat) :
    NamesDontMatter (sample checks d0 (dbsmoteAlg par fitScaler dbscan nn dr)) := by
  refine names_of_alg fun f hf X y s s' h _ _ => ?_
  unfold dbsmoteAlg
  simp only [h.minLabel, h.majLabel, h.countMin, h.countMaj, selectLabel_rename hf, withSamples_rename, rename_bind, rename_ite, rename_pure]

theorem C117_deago (par : DeagoParams) (fitScaler : List Row → Row × Row)
    (fit : (units epochs : Nat) → (train : List Row) → (val : Option (List Row)) → DeagoNet) (vol : List Row → ℚ) (dr : Draws) (d : Nat)
    (knn : Nat → List Row → List (List Nat)) (checks : List Check) (d0 : Nat) :
    NamesDontMatter (sample checks d0 (deagoAlg par fitScaler fit vol dr d knn)) := by
  refine names_of_alg fun f hf X y s s' h h1 h2 => ?_
  unfold deagoAlg
  simp only [h.minLabel, h.majLabel, h.countMin, h.countMaj, selectLabel_rename hf, withSamples_rename, rename_bind, rename_ite, rename_pure,
    renamed_bind, List.length_map, List.map_map, Function.comp_def, smoteSample_names hf (h1 := h1) (h2 := h2)]

theorem C117_dsmote (par : DsParams) (fn : DsFun) (dist : Row → Row → ℚ) (pick : Nat → Nat → Nat → Nat × Nat × Nat) (d : Nat) (checks : List Check)
    (d0 : Nat) :
    NamesDontMatter (sample checks d0 (dsmoteAlg par fn dist pick d)) := by
  refine names_of_alg fun f hf X y s s' h _ _ => ?_
  unfold dsmoteAlg
  simp only [h.minLabel, h.majLabel, h.countMin, h.countMaj, selectLabel_rename hf, rename_bind, rename_ite, rename_pure, List.map_append,
    List.map_replicate, List.length_map]

theorem C117_gsmote (par : NbParams) (angles : List Row → List (List Nat) → Res (List (List ℚ))) (argsort : List ℚ → List Nat) (vol : List Row → ℚ)
    (dr : Draws) (d : Nat) (knn : Nat → List Row → List Row → List (List Nat)) (checks : List Check) (d0 : Nat) :
    NamesDontMatter (sample checks d0 (gsmoteAlg par angles argsort vol dr d knn)) := by
  refine names_of_alg fun f hf X y s s' h _ _ => ?_
  unfold gsmoteAlg
  simp only [h.minLabel, h.majLabel, h.countMin, h.countMaj, selectLabel_rename hf, withSamples_rename, rename_bind, rename_ite, rename_pure]

theorem C117_randomSmote (proportion : ℚ) (nNeighbors : Nat) (dr : RsDraws) (knn : Nat → List Row → List (List Nat)) (checks : List Check)
    (d0 : Nat) :
    NamesDontMatter (sample checks d0 (randomSmoteAlg proportion nNeighbors dr knn)) := by
  refine names_of_alg fun f hf X y s s' h _ _ => ?_
  unfold randomSmoteAlg
  simp only [h.minLabel, h.majLabel, h.countMin, h.countMaj, selectLabel_rename hf, withSamples_rename, rename_bind, rename_ite, rename_pure]

theorem C117_msmote (proportion : ℚ) (nNeighbors : Nat) (dr : MsDraws) (knn : Nat → List Row → List Row → List (List Nat)) (checks : List Check)
    (d0 : Nat) :
    NamesDontMatter (sample checks d0 (msmoteAlg proportion nNeighbors dr knn)) := by
  refine names_of_alg fun f hf X y s s' h _ _ => ?_
  unfold msmoteAlg
  simp only [h.minLabel, h.majLabel, h.countMin, h.countMaj, selectLabel_rename hf, withSamples_rename, rename_bind, rename_ite, rename_pure, ne_eq,
    List.length_map, List.filter_map, Function.comp_def, msTypeOf_rename hf]

theorem C117_safeLevel (proportion : ℚ) (nNeighbors : Nat) (dr : SlDraws) (knn : Nat → List Row → List (List Nat)) (checks : List Check) (d0 : Nat) :
    NamesDontMatter (sample checks d0 (safeLevelAlg proportion nNeighbors dr knn)) := by
  refine names_of_alg fun f hf X y s s' h _ _ => ?_
  unfold safeLevelAlg
  simp only [h.minLabel, h.majLabel, h.countMin, h.countMaj, withSamples_rename, rename_bind, rename_ite, rename_pure, slpSln_rename hf]

theorem C117_noSmote (raiseValue raiseRuntime : Bool) (checks : List Check) (d0 : Nat) :
    NamesDontMatter (sample checks d0 (noSmoteAlg raiseValue raiseRuntime)) := by
  refine names_of_alg fun f hf X y s s' h _ _ => ?_
  unfold noSmoteAlg
  simp only [rename_ite, rename_ok, rename_error]

theorem C117_lle (par : NbParams) (nComp : Nat) (lle : Nat → Nat → List Row → List Row) (solve : List Row → Row → Option Row) (vol : List Row → ℚ)
    (dr : Draws) (d : Nat) (knn : Nat → List Row → List Row → List (List Nat)) (checks : List Check) (d0 : Nat) :
    NamesDontMatter (sample checks d0 (lleAlg par nComp lle solve vol dr d knn)) := by
  refine names_of_alg fun f hf X y s s' h _ _ => ?_
  unfold lleAlg
  simp only [h.minLabel, h.majLabel, h.countMin, h.countMaj, selectLabel_rename hf, withSamples_rename, rename_bind, rename_ite, rename_pure]

theorem C117_lnSmote (proportion : ℚ) (nNeighbors : Nat) (ix : Nat → Nat → Nat) (gap : Nat → Nat → ℚ) (knn : Nat → List Row → List (List Nat))
    (checks : List Check) (d0 : Nat) :
    NamesDontMatter (sample checks d0 (lnSmoteAlg proportion nNeighbors ix gap knn)) := by
  refine names_of_alg fun f hf X y s s' h _ _ => ?_
  unfold lnSmoteAlg
  simp only [h.minLabel, h.majLabel, h.countMin, h.countMaj, withSamples_rename, rename_bind, rename_ite, rename_pure, getElem?_rename hf,
    List.length_map, lnPairs_rename hf, lnRow_rename hf]

theorem C117_lvq (proportion : ℚ) (nNeighbors nClusters : Nat) (kmeans : Nat → List Row → List Row) (norm : Row → ℚ)
    (codes : Nat → Nat → Nat × Nat) (coin : Nat → Nat → Nat → Bool) (pos : Nat → Nat → Nat) (knn : Nat → List Row → List Row → List (List Nat))
    (checks : List Check) (d0 : Nat) :
    NamesDontMatter (sample checks d0 (lvqAlg proportion nNeighbors nClusters kmeans norm codes coin pos knn)) := by
  refine names_of_alg fun f hf X y s s' h _ _ => ?_
  unfold lvqAlg
  simp only [h.minLabel, h.majLabel, h.countMin, h.countMaj, selectLabel_rename hf, withSamples_rename, rename_bind, rename_ite, rename_pure]

theorem C117_mdo (proportion : ℚ) (k2 : Nat) (frac : ℚ) (pca : Nat → List Row → List Row) (sqrt : ℚ → ℚ) (pick : Nat → ℚ) (u : Nat → Nat → ℚ)
    (knn : Nat → List Row → List Row → List (List Nat)) (d : Nat) (checks : List Check) (d0 : Nat) :
    NamesDontMatter (sample checks d0 (mdoAlg proportion k2 frac pca sqrt pick u knn d)) := by
  refine names_of_alg fun f hf X y s s' h _ _ => ?_
  unfold mdoAlg
  simp only [h.minLabel, h.majLabel, h.countMin, h.countMaj, selectLabel_rename hf, withSamples_rename, rename_bind, rename_ite, rename_pure,
    bind_map_left, takeRows_rename, count_map_inj hf, List.map_map, Function.comp_def]

theorem C117_cbso (par : NbParams) (cp : ℚ) (vol : List Row → ℚ) (cu : Nat → ℚ) (drs : Nat → Draws) (d : Nat) (dist : Row → Row → ℚ)
    (knn : Nat → List Row → List Row → List (List Nat)) (checks : List Check) (d0 : Nat) :
    NamesDontMatter (sample checks d0 (cbsoAlg par cp vol cu drs d dist knn)) := by
  refine names_of_alg fun f hf X y s s' h _ _ => ?_
  unfold cbsoAlg
  simp only [h.minLabel, h.majLabel, h.countMin, h.countMaj, selectLabel_rename hf, withSamples_rename, rename_bind, rename_ite, rename_pure,
    bind_map_left, takeRows_rename, count_map_inj hf]

theorem C117_assembled (par : NbParams) (pop : Nat) (aligned : List Row → List Row → Bool) (vol : List Row → ℚ) (cu : Nat → ℚ) (drs : Nat → Draws)
    (d : Nat) (dist : Row → Row → ℚ) (knn : Nat → List Row → List Row → List (List Nat)) (checks : List Check) (d0 : Nat) :
    NamesDontMatter (sample checks d0 (assembledAlg par pop aligned vol cu drs d dist knn)) := by
  refine names_of_alg fun f hf X y s s' h _ _ => ?_
  unfold assembledAlg
  simp only [h.minLabel, h.majLabel, h.countMin, h.countMaj, selectLabel_rename hf, withSamples_rename, rename_bind, rename_ite, rename_pure,
    List.length_map, assembledBorder_rename hf]

theorem C117_msyn (par : SmoteParams) (dist : Row → Row → ℚ) (vol : List Row → ℚ) (dr : Draws) (d : Nat) (knn : Nat → List Row → List (List Nat))
    (checks : List Check) (d0 : Nat) :
    NamesDontMatter (sample checks d0 (msynAlg par dist vol dr d knn)) := by
  refine names_of_alg fun f hf X y s s' h h1 h2 => ?_
  unfold msynAlg
  simp only [h.minLabel, h.majLabel, h.countMin, h.countMaj, rename_bind, rename_ite, rename_pure, renamed_bind, labelPositions_rename hf,
    List.map_append, List.map_replicate, List.length_map, msynHitMiss_rename hf, smoteSample_names hf (h1 := h1) (h2 := h2)]

theorem C117_polynom (proportion : ℚ) (t : Topology) (d : Nat) (checks : List Check) (d0 : Nat) :
    NamesDontMatter (sample checks d0 (polynomAlg proportion t d)) := by
  refine names_of_alg fun f hf X y s s' h _ _ => ?_
  unfold polynomAlg
  simp only [h.minLabel, h.majLabel, h.countMin, h.countMaj, selectLabel_rename hf, withSamples_rename, rename_bind, rename_ite, rename_pure]

theorem C117_mesh (proportion : ℚ) (ss : SSParams) (vol : List Row → ℚ) (dr : Draws) (nb : Nat → Nat → Nat) (d : Nat) (checks : List Check)
    (d0 : Nat) :
    NamesDontMatter (sample checks d0 (meshAlg proportion ss vol dr nb d)) := by
  refine names_of_alg fun f hf X y s s' h _ _ => ?_
  unfold meshAlg
  simp only [h.minLabel, h.majLabel, h.countMin, h.countMaj, selectLabel_rename hf, withSamples_rename, rename_bind, rename_ite, rename_pure]

theorem C117_prowsyn (par : ProParams) (vol : List Row → ℚ) (clusterU : Nat → ℚ) (dr : Nat → Draws) (d : Nat)
    (knn : Nat → List Row → List Row → List (List Nat)) (checks : List Check) (d0 : Nat) :
    NamesDontMatter (sample checks d0 (prowsynAlg par vol clusterU dr d knn)) := by
  refine names_of_alg fun f hf X y s s' h _ _ => ?_
  unfold prowsynAlg
  simp only [h.minLabel, h.majLabel, h.countMin, h.countMaj, selectLabel_rename hf, rename_bind, rename_ite, rename_pure, labelPositions_rename hf,
    List.map_append, List.map_replicate]

theorem C117_sdsmote (par : NbParams) (vol : List Row → ℚ) (dr : Draws) (d : Nat) (knn : Nat → List Row → List Row → List (List Nat))
    (knnDist : Nat → List Row → List Row → List (List ℚ)) (radius : List Row → List Row → ℚ → List (List Nat)) (checks : List Check) (d0 : Nat) :
    NamesDontMatter (sample checks d0 (sdsmoteAlg par vol dr d knn knnDist radius)) := by
  refine names_of_alg fun f hf X y s s' h _ _ => ?_
  unfold sdsmoteAlg
  simp only [h.minLabel, h.majLabel, h.countMin, h.countMaj, selectLabel_rename hf, withSamples_rename, rename_bind, rename_ite, rename_pure]

theorem C117_andSmote (par : NbParams) (vol : List Row → ℚ) (dr : Draws) (d : Nat) (knn : Nat → List Row → List Row → List (List Nat))
    (checks : List Check) (d0 : Nat) :
    NamesDontMatter (sample checks d0 (andSmoteAlg par vol dr d knn)) := by
  refine names_of_alg fun f hf X y s s' h _ _ => ?_
  unfold andSmoteAlg
  simp only [h.minLabel, h.majLabel, h.countMin, h.countMaj, selectLabel_rename hf, withSamples_rename, rename_bind, rename_ite, rename_pure,
    andKappas_rename hf]

theorem C117_ans (par : NbParams) (vol : List Row → ℚ) (dr : Draws) (d : Nat) (knn : Nat → List Row → List Row → List (List Nat))
    (knnDist : Nat → List Row → List Row → List (List ℚ)) (radius : List Row → List Row → ℚ → List (List Nat)) (checks : List Check) (d0 : Nat) :
    NamesDontMatter (sample checks d0 (ansAlg par vol dr d knn knnDist radius)) := by
  refine names_of_alg fun f hf X y s s' h _ _ => ?_
  unfold ansAlg
  simp only [h.minLabel, h.majLabel, h.countMin, h.countMaj, selectLabel_rename hf, withSamples_rename, rename_bind, rename_ite, rename_pure,
    List.map_map, Function.comp_def, ansOuterBorder_rename hf]

theorem C117_distanceSmote (par : NbParams) (vol : List Row → ℚ) (dr : Draws) (d : Nat) (knn : Nat → List Row → List Row → List (List Nat))
    (checks : List Check) (d0 : Nat) :
    NamesDontMatter (sample checks d0 (distanceSmoteAlg par vol dr d knn)) := by
  refine names_of_alg fun f hf X y s s' h _ _ => ?_
  unfold distanceSmoteAlg
  simp only [h.minLabel, h.majLabel, h.countMin, h.countMaj, selectLabel_rename hf, withSamples_rename, rename_bind, rename_ite, rename_pure]

theorem C117_gaussianSmote (par : NbParams) (fitScaler : List Row → Row × Row) (vol : List Row → ℚ) (dr : Draws) (d : Nat)
    (knn : Nat → List Row → List Row → List (List Nat)) (checks : List Check) (d0 : Nat) :
    NamesDontMatter (sample checks d0 (gaussianSmoteAlg par fitScaler vol dr d knn)) := by
  refine names_of_alg fun f hf X y s s' h _ _ => ?_
  unfold gaussianSmoteAlg
  simp only [h.minLabel, h.majLabel, h.countMin, h.countMaj, selectLabel_rename hf, withSamples_rename, rename_bind, rename_ite, rename_pure]

theorem C117_ntSmote (par : NbParams) (vol : List Row → ℚ) (dr : Draws) (d : Nat) (knn : Nat → List Row → List Row → List (List Nat))
    (checks : List Check) (d0 : Nat) :
    NamesDontMatter (sample checks d0 (ntSmoteAlg par vol dr d knn)) := by
  refine names_of_alg fun f hf X y s s' h _ _ => ?_
  unfold ntSmoteAlg
  simp only [h.minLabel, h.majLabel, h.countMin, h.countMaj, selectLabel_rename hf, withSamples_rename, rename_bind, rename_ite, rename_pure]

theorem C117_rwo (par : NbParams) (colStd : List Row → Nat → ℚ) (vol : List Row → ℚ) (dr : Draws) (walkU : Nat → Nat → ℚ) (d : Nat)
    (knn : Nat → List Row → List Row → List (List Nat)) (checks : List Check) (d0 : Nat) :
    NamesDontMatter (sample checks d0 (rwoAlg par colStd vol dr walkU d knn)) := by
  refine names_of_alg fun f hf X y s s' h _ _ => ?_
  unfold rwoAlg
  simp only [h.minLabel, h.majLabel, h.countMin, h.countMaj, selectLabel_rename hf, withSamples_rename, rename_bind, rename_ite, rename_pure]

theorem C117_rsb (levels : List ℚ) (par : SmoteParams) (vol : List Row → ℚ) (dr : Draws) (d : Nat) (knn : Nat → List Row → List (List Nat))
    (checks : List Check) (d0 : Nat) :
    NamesDontMatter (sample checks d0 (rsbAlg levels par vol dr d knn)) := by
  refine names_of_alg fun f hf X y s s' h h1 h2 => ?_
  unfold rsbAlg
  simp only [h.minLabel, h.majLabel, selectLabel_rename hf, rename_bind, rename_ite, rename_pure, renamed_bind, List.map_append, List.map_replicate,
    smoteSample_names hf (h1 := h1) (h2 := h2)]

theorem C117_selected (proportion : ℚ) (nNeighbors : Nat) (share : ℚ) (ix : Nat → Nat → Nat → Nat) (un : Nat → Nat → ℚ) (d : Nat)
    (knn : Nat → List Row → List Row → List (List Nat)) (checks : List Check) (d0 : Nat) :
    NamesDontMatter (sample checks d0 (selectedAlg proportion nNeighbors share ix un d knn)) := by
  refine names_of_alg fun f hf X y s s' h _ _ => ?_
  unfold selectedAlg
  simp only [h.minLabel, h.majLabel, h.countMin, h.countMaj, selectLabel_rename hf, withSamples_rename, rename_bind, rename_ite, rename_pure]

theorem C117_rose (proportion : ℚ) (std : List ℚ → ℚ) (width : Nat → Nat → ℚ) (ix : Nat → Nat → Nat → Nat) (normal : Nat → Nat → ℚ) (d : Nat)
    (checks : List Check) (d0 : Nat) :
    NamesDontMatter (sample checks d0 (roseAlg proportion std width ix normal d)) := by
  refine names_of_alg fun f hf X y s s' h _ _ => ?_
  unfold roseAlg
  simp only [h.minLabel, h.majLabel, h.countMin, h.countMaj, selectLabel_rename hf, withSamples_rename, rename_bind, rename_ite, rename_pure]

theorem C117_smoteD (proportion : ℚ) (k : Nat) (std : List ℚ → XF) (u : Nat → Nat → Nat → ℚ) (knn : Nat → List Row → List (List Nat))
    (knnDist : Nat → List Row → List (List ℚ)) (checks : List Check) (d0 : Nat) :
    NamesDontMatter (sample checks d0 (smoteDAlg proportion k std u knn knnDist)) := by
  refine names_of_alg fun f hf X y s s' h _ _ => ?_
  unfold smoteDAlg
  simp only [h.minLabel, h.majLabel, h.countMin, h.countMaj, selectLabel_rename hf, withSamples_rename, rename_bind, rename_ite, rename_pure]

theorem C117_smoteOut (proportion : ℚ) (nNeighbors : Nat) (ix : Nat → Nat → Nat → Nat) (un : Nat → Nat → Nat → ℚ)
    (knn : Nat → List Row → List Row → List (List Nat)) (checks : List Check) (d0 : Nat) :
    NamesDontMatter (sample checks d0 (smoteOutAlg proportion nNeighbors ix un knn)) := by
  refine names_of_alg fun f hf X y s s' h _ _ => ?_
  unfold smoteOutAlg
  simp only [h.minLabel, h.majLabel, h.countMin, h.countMaj, selectLabel_rename hf, rename_bind, rename_ite, rename_pure,
    outGenerate_rename hf (h := h)]

theorem C117_smoteCosine (proportion : ℚ) (nNeighbors : Nat) (ix : Nat → Nat → Nat → Nat) (un : Nat → Nat → Nat → ℚ)
    (knn cosKnn : Nat → List Row → List Row → List (List Nat)) (argsort : List ℚ → List Nat) (checks : List Check) (d0 : Nat) :
    NamesDontMatter (sample checks d0 (smoteCosineAlg proportion nNeighbors ix un knn cosKnn argsort)) := by
  refine names_of_alg fun f hf X y s s' h _ _ => ?_
  unfold smoteCosineAlg
  simp only [h.minLabel, h.majLabel, h.countMin, h.countMaj, selectLabel_rename hf, rename_bind, rename_ite, rename_pure,
    outGenerate_rename hf (h := h)]

theorem C117_snSmote (par : NbParams) (dist : Row → Row → ℚ) (vol : List Row → ℚ) (pick : Nat → Nat → List Nat) (drs : Nat → Draws) (d : Nat)
    (knn : Nat → List Row → List Row → List (List Nat)) (checks : List Check) (d0 : Nat) :
    NamesDontMatter (sample checks d0 (snSmoteAlg par dist vol pick drs d knn)) := by
  refine names_of_alg fun f hf X y s s' h _ _ => ?_
  unfold snSmoteAlg
  simp only [h.minLabel, h.majLabel, h.countMin, h.countMaj, selectLabel_rename hf, withSamples_rename, rename_bind, rename_ite, rename_pure]

theorem C117_somo (par : NbParams) (som : List Row → Row → MapCell) (pdist : Row → Row → ℚ) (vol : List Row → ℚ) (cu cu' : Nat → ℚ)
    (drs drs' : Nat → Draws) (d : Nat) (checks : List Check) (d0 : Nat) :
    NamesDontMatter (sample checks d0 (somoAlg par som pdist vol cu cu' drs drs' d)) := by
  refine names_of_alg fun f hf X y s s' h _ _ => ?_
  unfold somoAlg
  simp only [h.minLabel, h.majLabel, h.countMin, h.countMaj, withSamples_rename, rename_bind, rename_ite, rename_pure, somoDensities_rename hf,
    somoGenIntra_rename hf, somoGenInter_rename hf]

theorem C117_sundo (d : Nat) (std : List Row → Row) (toMaj : List Row → Row → ℚ) (distm : List Row → List (List ℚ)) (bases : Nat → Nat → Nat)
    (normal : Nat → Nat → Nat → ℚ) (checks : List Check) (d0 : Nat) :
    NamesDontMatter (sample checks d0 (sundoAlg d std toMaj distm bases normal)) := by
  refine names_of_alg fun f hf X y s s' h _ _ => ?_
  unfold sundoAlg
  simp only [h.minLabel, h.majLabel, selectLabel_rename hf, rename_bind, rename_ite, rename_pure, List.map_append, List.map_replicate]

theorem C117_mct (par : NbParams) (dist : Row → Row → ℚ) (vol : List Row → ℚ) (dr : Draws) (d : Nat)
    (knn : Nat → List Row → List Row → List (List Nat)) (checks : List Check) (d0 : Nat) :
    NamesDontMatter (sample checks d0 (mctAlg par dist vol dr d knn)) := by
  refine names_of_alg fun f hf X y s s' h _ _ => ?_
  unfold mctAlg
  simp only [h.minLabel, h.majLabel, h.countMin, h.countMaj, selectLabel_rename hf, withSamples_rename, rename_bind, rename_ite, rename_pure]

theorem C117_ahc (strategy : AhcStrategy) (children : List Row → List (Nat × Nat)) (kmeans : Nat → List Row → List Row) (depth : Nat)
    (checks : List Check) (d0 : Nat) : NamesDontMatter (sample checks d0 (ahcAlg strategy children kmeans depth)) := by
  refine names_of_alg fun f hf X y s s' h _ _ => ?_
  unfold ahcAlg
  cases strategy <;>
    simp only [h.minLabel, h.majLabel, selectLabel_rename hf, rename_bind, rename_pure, List.map_append, List.map_replicate]

theorem C117_amsr (env : AmsrEnv) (proportion : ℚ) (top : AmsrTopology) (d : Nat) (checks : List Check) (d0 : Nat) :
    NamesDontMatter (sample checks d0 (amsrAlg env proportion top d)) := by
  refine names_of_alg fun f hf X y s s' h _ _ => ?_
  unfold amsrAlg
  cases top <;>
    simp only [h.minLabel, h.majLabel, h.countMin, h.countMaj, selectLabel_rename hf, rename_bind, rename_ite, rename_pure, List.map_append,
      List.map_replicate]

theorem C117_mot (par : MotParams) (env : MotEnv) (vol : List Row → ℚ) (cu : Nat → ℚ) (drs : Nat → Draws) (d : Nat) (checks : List Check)
    (d0 : Nat) : NamesDontMatter (sample checks d0 (motAlg par env vol cu drs d)) := by
  refine names_of_alg fun f hf X y s s' h _ _ => ?_
  unfold motAlg
  simp only [h.minLabel, h.majLabel, h.countMin, h.countMaj, selectLabel_rename hf, withSamples_rename, motClustering_rename hf,
    npDelete_rename, rename_bind, rename_ite, rename_pure]
  refine bind_congr fun n => ?_
  split
  · rfl
  · split
    · rfl
    · rfl
    · simp only [rename_bind, rename_pure]

theorem C117_smobd (proportion eta1 t : ℚ) (minSamples : Nat) (optics : Nat → List Row → Res (List XF × List XF)) (radius : List Row → List Nat)
    (baseU : Nat → ℚ) (ix : Nat → Nat → Nat) (gap : Nat → Nat → ℚ) (knn : Nat → List Row → List (List Nat)) (checks : List Check) (d0 : Nat) :
    NamesDontMatter (sample checks d0 (smobdAlg proportion eta1 t minSamples optics radius baseU ix gap knn)) := by
  refine names_of_alg fun f hf X y s s' h _ _ => ?_
  unfold smobdAlg
  simp only [h.minLabel, h.majLabel, h.countMin, h.countMaj, selectLabel_rename hf, withSamples_rename, rename_bind, rename_ite, rename_pure]
  refine bind_congr fun n => ?_
  split
  · rfl
  · split
    · rfl
    · rfl
    · simp only [rename_bind, rename_pure, rename_ite]

theorem C117_symprod (env : SyEnv) (par : SyParams) (d : Nat) (checks : List Check) (d0 : Nat) :
    NamesDontMatter (sample checks d0 (syAlg env par d)) := by
  refine names_of_alg fun f hf X y s s' h _ _ => ?_
  unfold syAlg
  simp only [h.minLabel, h.majLabel, h.countMin, h.countMaj, selectLabel_rename hf, withSamples_rename, rename_bind, rename_ite, rename_pure]
  refine bind_congr fun n => ?_
  split
  · rfl
  · unfold syTry
    split
    · dsimp only
      split <;> rfl
    · rfl
    · rfl

theorem C117_mwmote (par : MwParams) (vol : List Row → ℚ) (cu : Nat → ℚ) (drs : Nat → Draws) (d : Nat) (kmeans : Nat → List Row → List Int)
    (dist : Row → Row → ℚ) (knn : Nat → List Row → List Row → List (List Nat)) (checks : List Check) (d0 : Nat) :
    NamesDontMatter (sample checks d0 (mwmoteAlg par vol cu drs d kmeans dist knn)) := by
  refine names_of_alg fun f hf X y s s' h _ _ => ?_
  unfold mwmoteAlg
  simp only [h.minLabel, h.majLabel, h.countMin, h.countMaj, selectLabel_rename hf, withSamples_rename, mwFiltered_rename hf, rename_bind,
    rename_ite, rename_pure]
  refine bind_congr fun n => ?_
  split
  · rfl
  · refine bind_congr fun fl => ?_
    split
    · rfl
    · iterate 4 refine bind_congr fun _ => ?_
      split
      · rfl
      · simp only [rename_bind, rename_pure]

theorem C117_ismote (par : IsmoteParams) (vol : List Row → ℚ) (dr : Draws) (d : Nat) (knn : Nat → List Row → List Row → List (List Nat))
    (knnDist : Nat → List Row → List Row → List (List ℚ)) (checks : List Check) (d0 : Nat) :
    NamesDontMatter (sample checks d0 (ismoteAlg par vol dr d knn knnDist)) := by
  refine names_of_alg fun f hf X y s s' h _ _ => ?_
  unfold ismoteAlg
  have e : ∀ n m, (List.replicate n (f s.majLabel) ++ List.replicate m (f s.minLabel))
      = (List.replicate n s.majLabel ++ List.replicate m s.minLabel).map f := by
    intro n m
    rw [List.map_append, List.map_replicate, List.map_replicate]
  simp only [h.minLabel, h.majLabel, selectLabel_rename hf, e, List.map_map, Function.comp_def, hf.eq_iff, withSamples_rename, rename_bind,
    rename_ite, rename_pure]

theorem polynomClass_names {f : Int → Int} (hf : Function.Injective f) (proportion : ℚ) (t : Topology) (d : Nat) (X : List Row) {y : List Int} {a b : Int}
    (h1 : IsMinority y a b) (h2 : IsMinority (y.map f) (f a) (f b)) :
    polynomClass proportion t d X (y.map f) = renameLabels f (polynomClass proportion t d X y) :=
  sample_rename hf h1 h2 fun _ _ _ h3 h4 => sample_rename hf h3 h4 fun s s' h _ _ => by
    unfold polynomAlg
    simp only [h.minLabel, h.majLabel, h.countMin, h.countMaj, selectLabel_rename hf, withSamples_rename, rename_bind, rename_ite, rename_pure]

theorem C117_gazzah (proportion : ℚ) (far : List Row → List Nat) (d : Nat) (checks : List Check) (d0 : Nat) :
    NamesDontMatter (sample checks d0 (gazzahAlg proportion far d)) := by
  refine names_of_alg fun f hf X y s s' h h1 h2 => ?_
  unfold gazzahAlg
  simp only [h.minLabel, h.majLabel, selectLabel_rename hf, polynomClass_names hf proportion .star d X h1 h2, renamed_bind, rename_bind, rename_ite,
    rename_pure, List.map_append, List.map_replicate]

/-! ## Names in the same order

These oversamplers ask for the most frequent label among neighbours, and of two equally frequent ones the smaller is taken. -/

theorem C117_borderline1 (par : BorderParams) (vol : List Row → ℚ) (dr : Draws) (d : Nat) (knn : Nat → List Row → List Row → List (List Nat))
    (checks : List Check) (d0 : Nat) :
    OnlyOrderMatters (sample checks d0 (borderline1Alg par vol dr d knn)) := by
  refine order_of_alg fun f hf X y s s' h => ?_
  have hi := hf.injective
  unfold borderline1Alg
  simp only [h.minLabel, h.majLabel, h.countMin, h.countMaj, selectLabel_rename hi, withSamples_rename, rename_bind, rename_ite, rename_pure,
    dangerRemoveNoise_rename hf]

theorem C117_borderline2 (par : BorderParams) (vol : List Row → ℚ) (dr : Draws) (d : Nat) (knn : Nat → List Row → List Row → List (List Nat))
    (checks : List Check) (d0 : Nat) :
    OnlyOrderMatters (sample checks d0 (borderline2Alg par vol dr d knn)) := by
  refine order_of_alg fun f hf X y s s' h => ?_
  have hi := hf.injective
  unfold borderline2Alg
  simp only [h.minLabel, h.majLabel, h.countMin, h.countMaj, selectLabel_rename hi, withSamples_rename, rename_bind, rename_ite, rename_pure,
    hi.eq_iff, List.map_map, Function.comp_def, dangerRemoveNoise_rename hf]

theorem C117_stefanowski (strategy : StefStrategy) (knn : Nat → List Row → List (List Nat)) (checks : List Check) (d0 : Nat) :
    OnlyOrderMatters (sample checks d0 (stefanowskiAlg strategy knn)) := by
  refine order_of_alg fun f hf X y s s' h => ?_
  have hi := hf.injective
  unfold stefanowskiAlg
  simp only [h.minLabel, h.majLabel, withSamples_rename, rename_bind, rename_ite, rename_pure, npDelete_rename, assignAt_rename,
    labelPositions_rename hi, npUnique_length_rename hi, safeFlags_rename hf, StefStrategy.samples_rename hf (h := h),
    StefStrategy.flips_rename hf (h := h)]

theorem C117_smoteEnn (par : SmoteParams) (vol : List Row → ℚ) (dr : Draws) (d : Nat) (knn : Nat → List Row → List (List Nat))
    (checks : List Check) (d0 : Nat) :
    OnlyOrderMatters (sample checks d0 (smoteEnnAlg par vol dr d knn)) := by
  refine order_of_alg fun f hf X y s s' h => ?_
  have hi := hf.injective
  unfold smoteEnnAlg
  simp only [h.minLabel, h.majLabel, rename_bind, rename_ite, rename_pure, renamed_bind, npUnique_length_rename hi, count_map_inj hi,
    ennRemove_rename hf, smoteSample_rename hf]

theorem C117_smoteTomek (par : SmoteParams) (vol : List Row → ℚ) (dr : Draws) (d : Nat) (knn : Nat → List Row → List (List Nat))
    (checks : List Check) (d0 : Nat) :
    OnlyOrderMatters (sample checks d0 (smoteTomekAlg par vol dr d knn)) := by
  refine order_of_alg fun f hf X y s s' h => ?_
  have hi := hf.injective
  unfold smoteTomekAlg
  simp only [rename_bind, rename_ite, rename_pure, renamed_bind, tomekRemove_rename hf, smoteSample_rename hf]

/-- With a classifier whose probabilities do not depend on the names. -/
theorem C117_nras (par : NbParams) (t : ℚ) (fitScaler : List Row → Row × Row) (propensity : List Row → List Int → List ℚ)
    (vol : List Row → ℚ) (dr : Draws) (d : Nat) (knn : Nat → List Row → List Row → List (List Nat)) (checks : List Check) (d0 : Nat)
    (hp : ∀ f : Int → Int, StrictMono f → ∀ X y, propensity X (y.map f) = propensity X y) :
    OnlyOrderMatters (sample checks d0 (nrasAlg par t fitScaler propensity vol dr d knn)) := by
  refine order_of_alg fun f hf X y s s' h => ?_
  have hi := hf.injective
  unfold nrasAlg
  simp only [h.minLabel, h.majLabel, h.countMin, h.countMaj, selectLabel_rename hi, hp f hf, nrasNoise_rename hi, count_map_inj hi, rename_bind,
    rename_ite, rename_pure, List.map_append, List.map_replicate]

theorem C117_supervised (par : SupParams) (prob : List Row → List Int → Row → ℚ) (vol : List Row → ℚ) (drs : Nat → Draws) (d : Nat)
    (checks : List Check) (d0 : Nat) (hp : ∀ f : Int → Int, StrictMono f → ∀ X y, prob X (y.map f) = prob X y) :
    OnlyOrderMatters (sample checks d0 (supervisedAlg par prob vol drs d)) := by
  refine order_of_alg fun f hf X y s s' h => ?_
  have hi := hf.injective
  unfold supervisedAlg
  simp only [h.minLabel, h.majLabel, h.countMin, h.countMaj, selectLabel_rename hi, hp f hf, withSamples_rename, rename_bind, rename_ite, rename_pure]

/-! ## Where the names matter -/

def evenPar : BorderParams := { borPar with nNeighbors := 2 }

/-- **Borderline_SMOTE1 and Borderline_SMOTE2.** With an even number of neighbours a tie makes the row a borderline row only if the majority has the
smaller label: the same rows give two new rows, or none after the names are exchanged. -/
theorem C117_borderline_ties :
    ¬ NamesDontMatter (sample defaultChecks 1 (borderline1Alg evenPar (fun _ => 1) exDraws 1 bruteQuery)) ∧
    ¬ NamesDontMatter (sample defaultChecks 1 (borderline2Alg evenPar (fun _ => 1) exDraws 1 bruteQuery)) := by
  have hf : Function.Injective (fun l : Int => 1 - l) := fun a b h => by
    simp only at h
    omega
  have h1 : IsMinority borY 1 0 := ⟨by decide, by decide, by decide, Or.inl (by decide)⟩
  have h2 : IsMinority (borY.map (fun l : Int => 1 - l)) (1 - 1) (1 - 0) := ⟨by decide, by decide, by decide, Or.inl (by decide)⟩
  constructor
  · intro h
    have h3 := h _ hf borX borY 1 0 h1 h2
    revert h3
    decide +kernel
  · intro h
    have h3 := h _ hf borX borY 1 0 h1 h2
    revert h3
    decide +kernel

/-- **NEATER** labels its new rows 0 and 1, whatever the classes are called. -/
theorem C117_neater : ¬ OnlyOrderMatters (sample defaultChecks 1
    (neaterAlg (neaterPar 1) (fun _ => 1) exDraws exDraws 1 bruteKnn bruteQuery neaterDist)) := by
  intro h
  have h1 := h (fun l => l + 2) (fun a b hab => by simpa using hab) adaX adaY
  revert h1
  decide +kernel

/-- **SMMO** compares the mean of the predicted labels with one half: with perfect classifiers there is nothing to do if the labels are 0 and 1, but
every minority row counts as misclassified if they are called 5 and 6. -/
theorem C117_smmo : ¬ OnlyOrderMatters (sample defaultChecks 2
    (smmoAlg (snPar 2) (fun _ y => [y]) (fun _ => 1) clPick (fun _ => exDraws) 2 bruteQuery)) := by
  intro h
  have h1 := h (fun l => l + 5) (fun a b hab => by simpa using hab) wtX wtY
  revert h1
  decide +kernel

/-! ## The hypotheses are met -/

example : Function.Injective (fun l : Int => 7 - 3 * l) ∧ IsMinority exY 1 0 ∧ IsMinority (exY.map (fun l : Int => 7 - 3 * l)) 4 7 ∧
    (match smoteSample exPar (fun _ => 1) exDraws 2 exKnn exX (exY.map (fun l : Int => 7 - 3 * l)) with
     | .ok r => decide (r.2 = [4, 4, 4, 7, 7, 7, 7, 7, 4, 4])
     | .error _ => false) = true := by
  refine ⟨fun a b h => ?_, ⟨by decide, by decide, by decide, Or.inl (by decide)⟩, ⟨by decide, by decide, by decide, Or.inl (by decide)⟩,
    by decide +kernel⟩
  simp only at h
  omega

example : StrictMono (fun l : Int => 3 * l - 1) ∧
    (match sample defaultChecks 1 (borderline1Alg borPar (fun _ => 1) exDraws 1 bruteQuery) borX (borY.map (fun l : Int => 3 * l - 1)) with
     | .ok r => decide (r.2 = borY.map (fun l : Int => 3 * l - 1) ++ [2, 2])
     | .error _ => false) = true :=
  ⟨fun a b h => by simp only; omega, by decide +kernel⟩

end Verif

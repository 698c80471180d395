import Verif.Lemmas.ExtendsAll
import Verif.Props.C19
import Verif.Props.C82
import Verif.Props.C106

/-!
# C113: the oversamplers which keep their input

`KeepsInput` lists 62 of the oversamplers and the mesh variant of polynom_fit_SMOTE, with arbitrary parameters. Whatever their neighbour
searches, clusterings, scalers and random draws return, the data set they return is the input followed by rows of the minority class. Those
of `multiclass_filter` which are not in the list: `Lee` (below), `DSRBF` (C110, if its scaler is undone exactly), `A_SUWO`, `MOT2LD`, `NRAS`,
which drop rows, and `ADG`, `KernelADASYN`, which may return other rows (C106, C82, C59, C109, C89).
-/

namespace Verif

/-- The oversamplers. The parameters which stand for external calls are arbitrary functions. -/
inductive KeepsInput : (Stats → List Row → List Int → Res (List Row × List Int)) → Prop
  /-- `SMOTE` -/
  | smote (par : SmoteParams) (vol : List Row → ℚ) (dr : Draws) (d : Nat) (knn : Nat → List Row → List (List Nat)) :
    KeepsInput (smoteAlg par vol dr d knn)
  /-- `Borderline_SMOTE1` -/
  | borderline1 (par : BorderParams) (vol : List Row → ℚ) (dr : Draws) (d : Nat) (knn : Nat → List Row → List Row → List (List Nat)) :
    KeepsInput (borderline1Alg par vol dr d knn)
  /-- `Safe_Level_SMOTE` -/
  | safeLevel (proportion : ℚ) (nNeighbors : Nat) (dr : SlDraws) (knn : Nat → List Row → List (List Nat)) :
    KeepsInput (safeLevelAlg proportion nNeighbors dr knn)
  /-- `ADASYN` -/
  | adasyn (par : AdasynParams) (vol : List Row → ℚ) (dr : Draws) (d : Nat) (knn : Nat → List Row → List Row → List (List Nat)) :
    KeepsInput (adasynAlg par vol dr d knn)
  /-- `ADOMS` -/
  | adoms (proportion : ℚ) (nNeighbors : Nat) (pca : List Row → Row) (norm : Row → ℚ) (index nbIx : Nat → Nat → Nat) (rand : Nat → ℚ)
    (knn : Nat → List Row → List (List Nat)) :
    KeepsInput (adomsAlg proportion nNeighbors pca norm index nbIx rand knn)
  /-- `AND_SMOTE` -/
  | andSmote (par : NbParams) (vol : List Row → ℚ) (dr : Draws) (d : Nat) (knn : Nat → List Row → List Row → List (List Nat)) :
    KeepsInput (andSmoteAlg par vol dr d knn)
  /-- `ANS` -/
  | ans (par : NbParams) (vol : List Row → ℚ) (dr : Draws) (d : Nat) (knn : Nat → List Row → List Row → List (List Nat))
    (knnDist : Nat → List Row → List Row → List (List ℚ)) (radius : List Row → List Row → ℚ → List (List Nat)) :
    KeepsInput (ansAlg par vol dr d knn knnDist radius)
  /-- `ASMOBD` -/
  | asmobd (proportion : ℚ) (ss : SSParams) (par : AsmobdParams) (fitScaler : List Row → Row × Row) (sig : Option ℚ → ℚ)
    (optics : ℚ → Nat → List Row → Res (List XF × List XF)) (ball : List Row → Row → XF → List Nat) (vol : List Row → ℚ) (dr : Draws)
    (d : Nat) (knn : Nat → List Row → List (List Nat)) :
    KeepsInput (asmobdAlg proportion ss par fitScaler sig optics ball vol dr d knn)
  /-- `Assembled_SMOTE` -/
  | assembled (par : NbParams) (pop : Nat) (aligned : List Row → List Row → Bool) (vol : List Row → ℚ) (cu : Nat → ℚ) (drs : Nat → Draws)
    (d : Nat) (dist : Row → Row → ℚ) (knn : Nat → List Row → List Row → List (List Nat)) :
    KeepsInput (assembledAlg par pop aligned vol cu drs d dist knn)
  /-- `Borderline_SMOTE2` -/
  | borderline2 (par : BorderParams) (vol : List Row → ℚ) (dr : Draws) (d : Nat) (knn : Nat → List Row → List Row → List (List Nat)) :
    KeepsInput (borderline2Alg par vol dr d knn)
  /-- `CBSO` -/
  | cbso (par : NbParams) (cp : ℚ) (vol : List Row → ℚ) (cu : Nat → ℚ) (drs : Nat → Draws) (d : Nat) (dist : Row → Row → ℚ)
    (knn : Nat → List Row → List Row → List (List Nat)) :
    KeepsInput (cbsoAlg par cp vol cu drs d dist knn)
  /-- `CCR` -/
  | ccr (proportion E : ℚ) (dr : CcrDraws) :
    KeepsInput (ccrAlg proportion E dr)
  /-- `CE_SMOTE` -/
  | ceSmote (par : CeParams) (vol : List Row → ℚ) (dr : Draws) (d : Nat) (clusterings : List Row → List (List Int))
    (knn : Nat → List Row → List Row → List (List Nat)) :
    KeepsInput (ceSmoteAlg par vol dr d clusterings knn)
  /-- `cluster_SMOTE` -/
  | clusterSmote (par : NbParams) (nClusters : Nat) (vol : List Row → ℚ) (pick : Nat → Nat → List Nat) (drs : Nat → Draws) (d : Nat)
    (kmeans : Nat → List Row → List Int) (knn : Nat → List Row → List Row → List (List Nat)) :
    KeepsInput (clusterSmoteAlg par nClusters vol pick drs d kmeans knn)
  /-- `CURE_SMOTE` -/
  | cureSmote (par : CureParams) (fitScaler : List Row → Row × Row) (small : Nat → List Nat → Nat) (dist : Row → Row → ℚ)
    (vol : List Row → ℚ) (pick : Nat → Nat → List Nat) (drs : Nat → Draws) (d : Nat) :
    KeepsInput (cureSmoteAlg par fitScaler small dist vol pick drs d)
  /-- `DBSMOTE` -/
  | dbsmote (par : DbParams) (fitScaler : List Row → Row × Row) (dbscan : List Row → ℚ → Int → Res (List Int)) (nn : ClusterNN)
    (dr : DbDraws) :
    KeepsInput (dbsmoteAlg par fitScaler dbscan nn dr)
  /-- `DEAGO` -/
  | deago (par : DeagoParams) (fitScaler : List Row → Row × Row)
    (fit : (units epochs : Nat) → (train : List Row) → (val : Option (List Row)) → DeagoNet) (vol : List Row → ℚ) (dr : Draws) (d : Nat)
    (knn : Nat → List Row → List (List Nat)) :
    KeepsInput (deagoAlg par fitScaler fit vol dr d knn)
  /-- `distance_SMOTE` -/
  | distanceSmote (par : NbParams) (vol : List Row → ℚ) (dr : Draws) (d : Nat) (knn : Nat → List Row → List Row → List (List Nat)) :
    KeepsInput (distanceSmoteAlg par vol dr d knn)
  /-- `Edge_Det_SMOTE` -/
  | edgeDet (par : NbParams) (sqrt : ℚ → ℚ) (vol : List Row → ℚ) (dr : Draws) (d : Nat)
    (knn : Nat → List Row → List Row → List (List Nat)) :
    KeepsInput (edgeDetAlg par sqrt vol dr d knn)
  /-- `G_SMOTE` -/
  | gsmote (par : NbParams) (angles : List Row → List (List Nat) → Res (List (List ℚ))) (argsort : List ℚ → List Nat) (vol : List Row → ℚ)
    (dr : Draws) (d : Nat) (knn : Nat → List Row → List Row → List (List Nat)) :
    KeepsInput (gsmoteAlg par angles argsort vol dr d knn)
  /-- `Gaussian_SMOTE` -/
  | gaussianSmote (par : NbParams) (fitScaler : List Row → Row × Row) (vol : List Row → ℚ) (dr : Draws) (d : Nat)
    (knn : Nat → List Row → List Row → List (List Nat)) :
    KeepsInput (gaussianSmoteAlg par fitScaler vol dr d knn)
  /-- `polynom_fit_SMOTE` -/
  | polynom (proportion : ℚ) (t : Topology) (d : Nat) :
    KeepsInput (polynomAlg proportion t d)
  /-- `polynom_fit_SMOTE_mesh` -/
  | mesh (proportion : ℚ) (ss : SSParams) (vol : List Row → ℚ) (dr : Draws) (nb : Nat → Nat → Nat) (d : Nat) :
    KeepsInput (meshAlg proportion ss vol dr nb d)
  /-- `kmeans_SMOTE` -/
  | kmeansSmote (par : NbParams) (nClusters : Nat) (irt : ℚ) (vol : List Row → ℚ) (cu : Nat → ℚ) (drs : Nat → Draws) (d : Nat)
    (kmeans : Nat → List Row → List Int) (pdist : Row → Row → ℚ) (knn : Nat → List Row → List Row → List (List Nat)) :
    KeepsInput (kmeansSmoteAlg par nClusters irt vol cu drs d kmeans pdist knn)
  /-- `LN_SMOTE` -/
  | lnSmote (proportion : ℚ) (nNeighbors : Nat) (ix : Nat → Nat → Nat) (gap : Nat → Nat → ℚ) (knn : Nat → List Row → List (List Nat)) :
    KeepsInput (lnSmoteAlg proportion nNeighbors ix gap knn)
  /-- `LVQ_SMOTE` -/
  | lvq (proportion : ℚ) (nNeighbors nClusters : Nat) (kmeans : Nat → List Row → List Row) (norm : Row → ℚ)
    (codes : Nat → Nat → Nat × Nat) (coin : Nat → Nat → Nat → Bool) (pos : Nat → Nat → Nat)
    (knn : Nat → List Row → List Row → List (List Nat)) :
    KeepsInput (lvqAlg proportion nNeighbors nClusters kmeans norm codes coin pos knn)
  /-- `MCT` -/
  | mct (par : NbParams) (dist : Row → Row → ℚ) (vol : List Row → ℚ) (dr : Draws) (d : Nat)
    (knn : Nat → List Row → List Row → List (List Nat)) :
    KeepsInput (mctAlg par dist vol dr d knn)
  /-- `MSYN` -/
  | msyn (par : SmoteParams) (dist : Row → Row → ℚ) (vol : List Row → ℚ) (dr : Draws) (d : Nat) (knn : Nat → List Row → List (List Nat)) :
    KeepsInput (msynAlg par dist vol dr d knn)
  /-- `MWMOTE` -/
  | mwmote (par : MwParams) (vol : List Row → ℚ) (cu : Nat → ℚ) (drs : Nat → Draws) (d : Nat) (kmeans : Nat → List Row → List Int)
    (dist : Row → Row → ℚ) (knn : Nat → List Row → List Row → List (List Nat)) :
    KeepsInput (mwmoteAlg par vol cu drs d kmeans dist knn)
  /-- `NDO_sampling` -/
  | ndo (par : SmoteParams) (T : ℚ) (dist : Row → Row → ℚ) (vol : List Row → ℚ) (dr : Draws) (d : Nat) (pick nbr : Nat → Nat → Nat)
    (u : Nat → Nat → ℚ) (query : Nat → List Row → List Row → List (List Nat)) (knn : Nat → List Row → List (List Nat)) :
    KeepsInput (ndoAlg par T dist vol dr d pick nbr u query knn)
  /-- `NRSBoundary_SMOTE` -/
  | nrs (par : NrsParams) (dist : Row → Row → ℚ) (radius : List Row → Row → ℚ → List Nat) (vol : List Row → ℚ) (drs : Nat → Draws)
    (d : Nat) (knn : Nat → List Row → List Row → List (List Nat)) :
    KeepsInput (nrsAlg par dist radius vol drs d knn)
  /-- `NT_SMOTE` -/
  | ntSmote (par : NbParams) (vol : List Row → ℚ) (dr : Draws) (d : Nat) (knn : Nat → List Row → List Row → List (List Nat)) :
    KeepsInput (ntSmoteAlg par vol dr d knn)
  /-- `OUPS` -/
  | oups (par : NbParams) (sorting : List Row → List Int → List Nat) (vol : List Row → ℚ) (dr : Draws) (d : Nat) :
    KeepsInput (oupsAlg par sorting vol dr d)
  /-- `PDFOS` -/
  | pd (env : PdEnv) (proportion : ℚ) (d : Nat) :
    KeepsInput (pdAlg env proportion d)
  /-- `ProWSyn` -/
  | prowsyn (par : ProParams) (vol : List Row → ℚ) (clusterU : Nat → ℚ) (dr : Nat → Draws) (d : Nat)
    (knn : Nat → List Row → List Row → List (List Nat)) :
    KeepsInput (prowsynAlg par vol clusterU dr d knn)
  /-- `Random_SMOTE` -/
  | randomSmote (proportion : ℚ) (nNeighbors : Nat) (dr : RsDraws) (knn : Nat → List Row → List (List Nat)) :
    KeepsInput (randomSmoteAlg proportion nNeighbors dr knn)
  /-- `ROSE` -/
  | rose (proportion : ℚ) (std : List ℚ → ℚ) (width : Nat → Nat → ℚ) (ix : Nat → Nat → Nat → Nat) (normal : Nat → Nat → ℚ) (d : Nat) :
    KeepsInput (roseAlg proportion std width ix normal d)
  /-- `RWO_sampling` -/
  | rwo (par : NbParams) (colStd : List Row → Nat → ℚ) (vol : List Row → ℚ) (dr : Draws) (walkU : Nat → Nat → ℚ) (d : Nat)
    (knn : Nat → List Row → List Row → List (List Nat)) :
    KeepsInput (rwoAlg par colStd vol dr walkU d knn)
  /-- `SDSMOTE` -/
  | sdsmote (par : NbParams) (vol : List Row → ℚ) (dr : Draws) (d : Nat) (knn : Nat → List Row → List Row → List (List Nat))
    (knnDist : Nat → List Row → List Row → List (List ℚ)) (radius : List Row → List Row → ℚ → List (List Nat)) :
    KeepsInput (sdsmoteAlg par vol dr d knn knnDist radius)
  /-- `Selected_SMOTE` -/
  | selected (proportion : ℚ) (nNeighbors : Nat) (share : ℚ) (ix : Nat → Nat → Nat → Nat) (un : Nat → Nat → ℚ) (d : Nat)
    (knn : Nat → List Row → List Row → List (List Nat)) :
    KeepsInput (selectedAlg proportion nNeighbors share ix un d knn)
  /-- `SL_graph_SMOTE` -/
  | slGraph (proportion : ℚ) (nNeighbors : Nat) (ss : SSParams) (vol : List Row → ℚ) (slDr : SlDraws) (dr : Draws) (d : Nat)
    (knn : Nat → List Row → List Row → List (List Nat)) :
    KeepsInput (slGraphAlg proportion nNeighbors ss vol slDr dr d knn)
  /-- `SMMO` -/
  | smmo (par : NbParams) (predict : List Row → List Int → List (List Int)) (vol : List Row → ℚ) (pick : Nat → Nat → List Nat)
    (drs : Nat → Draws) (d : Nat) (knn : Nat → List Row → List Row → List (List Nat)) :
    KeepsInput (smmoAlg par predict vol pick drs d knn)
  /-- `SMOBD` -/
  | smobd (proportion eta1 t : ℚ) (minSamples : Nat) (optics : Nat → List Row → Res (List XF × List XF)) (radius : List Row → List Nat)
    (baseU : Nat → ℚ) (ix : Nat → Nat → Nat) (gap : Nat → Nat → ℚ) (knn : Nat → List Row → List (List Nat)) :
    KeepsInput (smobdAlg proportion eta1 t minSamples optics radius baseU ix gap knn)
  /-- `SMOTE_Cosine` -/
  | smoteCosine (proportion : ℚ) (nNeighbors : Nat) (ix : Nat → Nat → Nat → Nat) (un : Nat → Nat → Nat → ℚ)
    (knn cosKnn : Nat → List Row → List Row → List (List Nat)) (argsort : List ℚ → List Nat) :
    KeepsInput (smoteCosineAlg proportion nNeighbors ix un knn cosKnn argsort)
  /-- `SMOTE_D` -/
  | smoteD (proportion : ℚ) (k : Nat) (std : List ℚ → XF) (u : Nat → Nat → Nat → ℚ) (knn : Nat → List Row → List (List Nat))
    (knnDist : Nat → List Row → List (List ℚ)) :
    KeepsInput (smoteDAlg proportion k std u knn knnDist)
  /-- `SMOTE_OUT` -/
  | smoteOut (proportion : ℚ) (nNeighbors : Nat) (ix : Nat → Nat → Nat → Nat) (un : Nat → Nat → Nat → ℚ)
    (knn : Nat → List Row → List Row → List (List Nat)) :
    KeepsInput (smoteOutAlg proportion nNeighbors ix un knn)
  /-- `SMOTE_RSB` -/
  | rsb (levels : List ℚ) (par : SmoteParams) (vol : List Row → ℚ) (dr : Draws) (d : Nat) (knn : Nat → List Row → List (List Nat)) :
    KeepsInput (rsbAlg levels par vol dr d knn)
  /-- `SN_SMOTE` -/
  | snSmote (par : NbParams) (dist : Row → Row → ℚ) (vol : List Row → ℚ) (pick : Nat → Nat → List Nat) (drs : Nat → Draws) (d : Nat)
    (knn : Nat → List Row → List Row → List (List Nat)) :
    KeepsInput (snSmoteAlg par dist vol pick drs d knn)
  /-- `SOI_CJ` -/
  | soi (par : NbParams) (method : SoiMethod) (env : SoiEnv) (vol : List Row → ℚ) (fuel d : Nat) :
    KeepsInput (soiAlg par method env vol fuel d)
  /-- `SOMO` -/
  | somo (par : NbParams) (som : List Row → Row → MapCell) (pdist : Row → Row → ℚ) (vol : List Row → ℚ) (cu cu' : Nat → ℚ)
    (drs drs' : Nat → Draws) (d : Nat) :
    KeepsInput (somoAlg par som pdist vol cu cu' drs drs' d)
  /-- `SSO` -/
  | sso (env : SsoEnv) (proportion : ℚ) (k h nIter d : Nat) :
    KeepsInput (ssoAlg env proportion k h nIter d)
  /-- `Supervised_SMOTE` -/
  | supervised (par : SupParams) (prob : List Row → List Int → Row → ℚ) (vol : List Row → ℚ) (drs : Nat → Draws) (d : Nat) :
    KeepsInput (supervisedAlg par prob vol drs d)
  /-- `SYMPROD` -/
  | sy (env : SyEnv) (par : SyParams) (d : Nat) :
    KeepsInput (syAlg env par d)
  /-- `TRIM_SMOTE` -/
  | trimSmote (par : TrimParams) (vol : List Row → ℚ) (dr : Draws) (d : Nat) (knn : Nat → List Row → List Row → List (List Nat)) :
    KeepsInput (trimSmoteAlg par vol dr d knn)
  /-- `V_SYNTH` -/
  | vs (env : VsEnv) (par : VsParams) (d : Nat) :
    KeepsInput (vsAlg env par d)
  /-- `MSMOTE` -/
  | msmote (proportion : ℚ) (nNeighbors : Nat) (dr : MsDraws) (knn : Nat → List Row → List Row → List (List Nat)) :
    KeepsInput (msmoteAlg proportion nNeighbors dr knn)
  /-- `SMOTE_AMSR` -/
  | amsr (env : AmsrEnv) (proportion : ℚ) (top : AmsrTopology) (d : Nat) :
    KeepsInput (amsrAlg env proportion top d)
  /-- `SMOTEWB` -/
  | wb (env : WbEnv) (par : WbParams) (vol : List Row → ℚ) (dr : Draws) (d : Nat) :
    KeepsInput (wbAlg env par vol dr d)
  /-- `LLE_SMOTE` -/
  | lle (par : NbParams) (nComp : Nat) (lle : Nat → Nat → List Row → List Row) (solve : List Row → Row → Option Row) (vol : List Row → ℚ)
    (dr : Draws) (d : Nat) (knn : Nat → List Row → List Row → List (List Nat)) :
    KeepsInput (lleAlg par nComp lle solve vol dr d knn)
  /-- `MDO` -/
  | mdo (proportion : ℚ) (k2 : Nat) (frac : ℚ) (pca : Nat → List Row → List Row) (sqrt : ℚ → ℚ) (pick : Nat → ℚ) (u : Nat → Nat → ℚ)
    (knn : Nat → List Row → List Row → List (List Nat)) (d : Nat) :
    KeepsInput (mdoAlg proportion k2 frac pca sqrt pick u knn d)
  /-- `GASMOTE` -/
  | ga (env : GaEnv) (par : GaParams) (vol : List Row → ℚ) (d : Nat) :
    KeepsInput (gaAlg env par vol d)
  /-- `SMOTE_PSO` -/
  | pso (env : PsoEnv) (par : PsoParams) :
    KeepsInput (psoAlg env par)
  /-- `SMOTE_PSOBAT` -/
  | psobat (env : PbEnv) (par : PbParams) (hi0 : Nat) (ss : SSParams) (vol : List Row → ℚ) (dr : Draws) (d : Nat)
    (knn : Nat → List Row → List (List Nat)) :
    KeepsInput (psobatAlg env par hi0 ss vol dr d knn)

theorem keepsInput_extends {alg : Stats → List Row → List Int → Res (List Row × List Int)} (h : KeepsInput alg) : AlgExtends alg := by
  cases h with
  | smote => exact smoteAlg_extends _ _ _ _ _
  | borderline1 => exact borderline1Alg_extends _ _ _ _ _
  | safeLevel => exact safeLevelAlg_extends _ _ _ _
  | adasyn => exact adasynAlg_extends _ _ _ _ _
  | adoms => exact adomsAlg_extends _ _ _ _ _ _ _ _
  | andSmote => exact andSmoteAlg_extends _ _ _ _ _
  | ans => exact ansAlg_extends _ _ _ _ _ _ _
  | asmobd => exact asmobdAlg_extends _ _ _ _ _ _ _ _ _ _ _
  | assembled => exact assembledAlg_extends _ _ _ _ _ _ _ _ _
  | borderline2 => exact borderline2Alg_extends _ _ _ _ _
  | cbso => exact cbsoAlg_extends _ _ _ _ _ _ _ _
  | ccr => exact ccrAlg_extends _ _ _
  | ceSmote => exact ceSmoteAlg_extends _ _ _ _ _ _
  | clusterSmote => exact clusterSmoteAlg_extends _ _ _ _ _ _ _ _
  | cureSmote => exact cureSmoteAlg_extends _ _ _ _ _ _ _ _
  | dbsmote => exact dbsmoteAlg_extends _ _ _ _ _
  | deago => exact deagoAlg_extends _ _ _ _ _ _ _
  | distanceSmote => exact distanceSmoteAlg_extends _ _ _ _ _
  | edgeDet => exact edgeDetAlg_extends _ _ _ _ _ _
  | gsmote => exact gsmoteAlg_extends _ _ _ _ _ _ _
  | gaussianSmote => exact gaussianSmoteAlg_extends _ _ _ _ _ _
  | polynom => exact polynomAlg_extends _ _ _
  | mesh => exact meshAlg_extends _ _ _ _ _ _
  | kmeansSmote => exact kmeansSmoteAlg_extends _ _ _ _ _ _ _ _ _ _
  | lnSmote => exact lnSmoteAlg_extends _ _ _ _ _
  | lvq => exact lvqAlg_extends _ _ _ _ _ _ _ _ _
  | mct => exact mctAlg_extends _ _ _ _ _ _
  | msyn => exact msynAlg_extends _ _ _ _ _ _
  | mwmote => exact mwmoteAlg_extends _ _ _ _ _ _ _ _
  | ndo => exact ndoAlg_extends _ _ _ _ _ _ _ _ _ _ _
  | nrs => exact nrsAlg_extends _ _ _ _ _ _ _
  | ntSmote => exact ntSmoteAlg_extends _ _ _ _ _
  | oups => exact oupsAlg_extends _ _ _ _ _
  | pd => exact pdAlg_extends _ _ _
  | prowsyn => exact prowsynAlg_extends _ _ _ _ _ _
  | randomSmote => exact randomSmoteAlg_extends _ _ _ _
  | rose => exact roseAlg_extends _ _ _ _ _ _
  | rwo => exact rwoAlg_extends _ _ _ _ _ _ _
  | sdsmote => exact sdsmoteAlg_extends _ _ _ _ _ _ _
  | selected => exact selectedAlg_extends _ _ _ _ _ _ _
  | slGraph => exact slGraphAlg_extends _ _ _ _ _ _ _ _
  | smmo => exact smmoAlg_extends _ _ _ _ _ _ _
  | smobd => exact smobdAlg_extends _ _ _ _ _ _ _ _ _ _
  | smoteCosine => exact smoteCosineAlg_extends _ _ _ _ _ _ _
  | smoteD => exact smoteDAlg_extends _ _ _ _ _ _
  | smoteOut => exact smoteOutAlg_extends _ _ _ _ _
  | rsb => exact rsbAlg_extends _ _ _ _ _ _
  | snSmote => exact snSmoteAlg_extends _ _ _ _ _ _ _
  | soi => exact soiAlg_extends _ _ _ _ _ _
  | somo => exact somoAlg_extends _ _ _ _ _ _ _ _ _
  | sso => exact ssoAlg_extends _ _ _ _ _ _
  | supervised => exact supervisedAlg_extends _ _ _ _ _
  | sy => exact syAlg_extends _ _ _
  | trimSmote => exact trimSmoteAlg_extends _ _ _ _ _
  | vs => exact vsAlg_extends _ _ _
  | msmote => exact msmoteAlg_extends _ _ _ _
  | amsr => exact amsrAlg_extends _ _ _ _
  | wb => exact wbAlg_extends _ _ _ _ _
  | lle => exact lleAlg_extends _ _ _ _ _ _ _ _
  | mdo => exact mdoAlg_extends _ _ _ _ _ _ _ _ _
  | ga => exact gaAlg_extends _ _ _ _
  | pso => exact psoAlg_extends _ _
  | psobat => exact psobatAlg_extends _ _ _ _ _ _ _ _

/-- C113: each of the oversamplers returns its input followed by rows of the minority class, or raises. The rows and labels of the input are
neither changed nor moved nor removed. -/
theorem C113_keeps {alg : Stats → List Row → List Int → Res (List Row × List Int)} (ha : KeepsInput alg) {checks : List Check} {d : Nat}
    {X X' : List Row} {y y' : List Int} {a b : Int} (hmin : IsMinority y a b) (h : sample checks d alg X y = .ok (X', y')) :
    ∃ new, X' = X ++ new ∧ y' = y ++ List.replicate new.length a := by
  obtain ⟨s, hs, rfl, rfl⟩ := stats_of_isMinority hmin
  exact sample_extends (keepsInput_extends ha) hs h

/-- C113: the same for more than two classes: all new rows have one label of the data. -/
theorem C113_keeps_any {alg : Stats → List Row → List Int → Res (List Row × List Int)} (ha : KeepsInput alg) {checks : List Check} {d : Nat}
    {X X' : List Row} {y y' : List Int} (h : sample checks d alg X y = .ok (X', y')) :
    ∃ l ∈ y, ∃ new, X' = X ++ new ∧ y' = y ++ List.replicate new.length l := by
  have h0 := h
  unfold sample at h0
  obtain ⟨s, hs, _⟩ := bind_ok.1 h0
  exact ⟨s.minLabel, (stats_min_mem hs).1, sample_extends (keepsInput_extends ha) hs h⟩

/-- C113: `Lee`, whose loop need not end: if it ends, its input comes first. -/
theorem C113_lee {fuel : Nat} {par : LeeParams} {vol : List Row → ℚ} {dr : Nat → Draws} {d : Nat} {knn : Nat → List Row → List (List Nat)}
    {query : Nat → List Row → Row → List Nat} {X X' : List Row} {y y' : List Int} {a b : Int} (hmin : IsMinority y a b)
    (h : leeSample fuel par vol dr d knn query X y = .ok (some (X', y'))) : ∃ new, X' = X ++ new ∧ y' = y ++ List.replicate new.length a := by
  obtain ⟨s, hs, rfl, rfl⟩ := stats_of_isMinority hmin
  unfold leeSample at h
  rw [hs, ok_bind] at h
  split at h
  · cases h
    exact ⟨[], by simp, by simp⟩
  · unfold leeAlg at h
    obtain ⟨n, _, h⟩ := bind_ok.1 h
    split at h
    · cases h
      exact ⟨[], by simp, by simp⟩
    · obtain ⟨o, _, h⟩ := bind_ok.1 h
      cases o with
      | none => cases h
      | some S =>
        cases h
        exact ⟨S, rfl, rfl⟩

/-! ## Several classes -/

/-- The inner oversampler of `MulticlassOversampling`, as the listed oversampler `alg q` with proportion `q`; a proportion which is not a
number raises. -/
def keepOver (checks : List Check) (d : Nat) (alg : Nat → ℚ → Stats → List Row → List Int → Res (List Row × List Int)) : BinOver :=
  fun i p X y => match p with
  | .fin q => sample checks d (alg i q) X y
  | _ => .error .valueError

/-- The rows and labels of the one-versus-rest problem of class `c`. -/
def oneVsRest (X : List Row) (y : List Int) (c : Int) : List Row × List Int :=
  (selectNotLabel X y c ++ classRows X y c,
   List.replicate (selectNotLabel X y c).length 0 ++ List.replicate (classRows X y c).length 1)

theorem newOnes_all {Z S : List Row} {z : List Int} (hz : Z.length = z.length) :
    newOnes Z.length (Z ++ S, z ++ List.replicate S.length 1) = S := by
  unfold newOnes
  dsimp only
  rw [List.drop_left, hz, List.drop_left, selectLabel_eq_classRows]
  unfold classRows
  rw [show (S.zip (List.replicate S.length (1 : Int))).filter (fun p => decide (p.2 = 1)) = S.zip (List.replicate S.length 1) from
    List.filter_eq_self.2 (fun p hp => by
      have := List.eq_of_mem_replicate (List.of_mem_zip hp).2
      simp [this])]
  exact List.map_fst_zip (by simp)

theorem count_two_labels {a b : Int} (hab : a ≠ b) : ∀ {y : List Int}, y.count a + y.count b ≤ y.length
  | [] => by simp
  | l :: y => by
    have := count_two_labels hab (y := y)
    rw [List.count_cons, List.count_cons, List.length_cons]
    by_cases h1 : l = a
    · subst h1
      simp [hab]
      omega
    · simp [h1]
      split <;> omega

theorem equalizeLoop_mem {over : BinOver} {X : List Row} {y : List Int} {nMaj : Nat} : ∀ {idx : Nat} {cs : List (Int × Nat)}
    {results : List (Int × List Row)}, equalizeLoop over X y nMaj idx cs = .ok results → ∀ p ∈ results,
      ∃ i, ∃ c ∈ cs, ∃ r, p.1 = c.1 ∧ over i (proportion1VsMany nMaj c.2) (oneVsRest X y c.1).1 (oneVsRest X y c.1).2 = .ok r ∧
        p.2 = newOnes (oneVsRest X y c.1).1.length r
  | idx, [], results, h => by cases h; simp
  | idx, c :: cs, results, h => by
    unfold equalizeLoop at h
    obtain ⟨r, hr, h⟩ := bind_ok.1 h
    obtain ⟨more, hmore, h⟩ := bind_ok.1 h
    cases h
    intro p hp
    rcases List.mem_cons.1 hp with rfl | hp
    · refine ⟨idx, c, by simp, r, rfl, ?_, ?_⟩
      · rw [selectLabel_eq_classRows] at hr
        exact hr
      · rw [selectLabel_eq_classRows]
        rfl
    · obtain ⟨i, c', hc', r', h1, h2, h3⟩ := equalizeLoop_mem hmore p hp
      exact ⟨i, c', List.mem_cons_of_mem _ hc', r', h1, h2, h3⟩

/-- C113: with one of these oversamplers `MulticlassOversampling` passes on every generated row: the rows added for a class are exactly the
rows its oversampler added to the one-versus-rest problem of the class. -/
theorem C113_multiclass {checks : List Check} {d : Nat} {alg : Nat → ℚ → Stats → List Row → List Int → Res (List Row × List Int)}
    (ha : ∀ i q, KeepsInput (alg i q)) {X X' : List Row} {y y' : List Int} (hxy : X.length = y.length)
    (h : multiclassSample .equalize (keepOver checks d alg) X y = .ok (X', y')) :
    ∃ added : List (Int × List Row), X' = X ++ added.flatMap Prod.snd ∧
      y' = y ++ added.flatMap (fun p => List.replicate p.2.length p.1) ∧
      ∀ p ∈ added, p.1 ∈ y ∧ ∃ i q, sample checks d (alg i q) (oneVsRest X y p.1).1 (oneVsRest X y p.1).2 =
        .ok ((oneVsRest X y p.1).1 ++ p.2, (oneVsRest X y p.1).2 ++ List.replicate p.2.length 1) := by
  unfold multiclassSample at h
  obtain ⟨s, hs, h⟩ := bind_ok.1 h
  obtain ⟨maj, cs, hsc, hmc, hmy, hmax, hcs, hnd, _, _, _⟩ := sortedClasses_shape hs
  rw [hsc] at h
  dsimp only at h
  obtain ⟨results, hres, h⟩ := bind_ok.1 h
  cases h
  refine ⟨results, by rw [List.flatMap_def], by rw [List.flatMap_def], ?_⟩
  intro p hp
  obtain ⟨i, c, hc, r, e1, e2, e3⟩ := equalizeLoop_mem hres p hp
  obtain ⟨hc1, hc2, hc3⟩ := hcs c hc
  rw [e1]
  refine ⟨hc2, ?_⟩
  have hpos : 0 < y.count c.1 := List.count_pos_iff.2 hc2
  have hlen : (classRows X y c.1).length = y.count c.1 := by
    rw [← selectLabel_eq_classRows, selectLabel_length hxy]
  have hle : y.count c.1 ≤ (selectNotLabel X y c.1).length := by
    rw [(selectNot_length hxy c.1).1, hxy]
    have h1 : y.count c.1 ≤ y.count maj.1 := by rw [← hmc]; exact hmax _ hc2
    have h2 := count_two_labels (y := y) hc3
    omega
  obtain ⟨hmin, _, _⟩ := train_isMinority (m := (selectNotLabel X y c.1).length) (n := (classRows X y c.1).length)
    (by rw [hlen]; exact hpos) (by rw [hlen]; exact hle)
  unfold keepOver at e2
  split at e2
  · next q _ =>
    obtain ⟨S, hS1, hS2⟩ := C113_keeps (X' := r.1) (y' := r.2) (ha i q) hmin e2
    have hr : r = (_, _) := Prod.ext hS1 hS2
    have hz : (oneVsRest X y c.1).1.length = (oneVsRest X y c.1).2.length := by simp [oneVsRest]
    have hp2 : p.2 = S := by
      rw [e3, hr]
      exact newOnes_all hz
    refine ⟨i, q, ?_⟩
    rw [hp2, e2, hr]
    rfl
  · cases e2

theorem selectLabel_ones (S : List Row) : selectLabel S (List.replicate S.length 1) 1 = S := by
  have := newOnes_all (Z := []) (z := []) (S := S) rfl
  simpa [newOnes] using this

/-- C113: if the inner oversampler removes `q` rows of the problem it is given, `q` of the rows it generated are lost, and the removed rows
are part of the result nevertheless: the first `q` generated rows are taken for rows of the problem. -/
theorem C113_removed {K S : List Row} {kl : List Int} {N q : Nat} (hk : K.length = kl.length) (hN : K.length + q = N) :
    newOnes N (K ++ S, kl ++ List.replicate S.length 1) = S.drop q := by
  subst hN
  have h1 : (K ++ S).drop (K.length + q) = S.drop q := by rw [List.drop_append, List.drop_of_length_le (by omega)]; simp
  have h2 : (kl ++ List.replicate S.length (1 : Int)).drop (K.length + q) = List.replicate (S.drop q).length 1 := by
    rw [hk, List.drop_append, List.drop_of_length_le (by omega)]
    simp
  unfold newOnes
  dsimp only
  rw [h1, h2]
  exact selectLabel_ones _

/-- Two oversamplers which `multiclass_filter` accepts, with the proportion given by `MulticlassOversampling`. -/
def mtOver : BinOver := fun _ p X y => match p with
  | .fin q => sample defaultChecks 1 (motAlg { mtPar with proportion := q } mtEnv (fun _ => 1) (fun _ => 1/2) (fun _ => exDraws) 1) X y
  | _ => .error .valueError

def swOver : BinOver := fun _ p X y => match p with
  | .fin q => sample defaultChecks 1 (suwoAlg { cbPar with proportion := q } 7 (4 / 5) swEnv (fun _ => 1) (fun _ => 0) (fun _ => exDraws) 1) X y
  | _ => .error .valueError

/-- C113: `MulticlassOversampling` with `MOT2LD` or with `A_SUWO` does not equalize the classes: the removed rows are counted as generated. -/
theorem C113_not_equal :
    (∃ X' y', multiclassSample .equalize mtOver mtX mtY = .ok (X', y') ∧ y'.count 0 = 6 ∧ y'.count 1 = 5) ∧
    (∃ X' y', multiclassSample .equalize swOver swX swY = .ok (X', y') ∧ y'.count 0 = 8 ∧ y'.count 1 = 6) := by
  constructor
  · have h : (match multiclassSample .equalize mtOver mtX mtY with
      | .ok r => decide (r.2.count 0 = 6 ∧ r.2.count 1 = 5)
      | .error _ => false) = true := by decide +kernel
    cases hr : multiclassSample .equalize mtOver mtX mtY with
    | error e => rw [hr] at h; cases h
    | ok r =>
      rw [hr] at h
      exact ⟨r.1, r.2, rfl, of_decide_eq_true h⟩
  · have h : (match multiclassSample .equalize swOver swX swY with
      | .ok r => decide (r.2.count 0 = 8 ∧ r.2.count 1 = 6)
      | .error _ => false) = true := by decide +kernel
    cases hr : multiclassSample .equalize swOver swX swY with
    | error e => rw [hr] at h; cases h
    | ok r =>
      rw [hr] at h
      exact ⟨r.1, r.2, rfl, of_decide_eq_true h⟩

/-! ## Non-vacuity -/

/-- SMOTE on the example data: the hypotheses of `C113_keeps`, with rows added. -/
example : KeepsInput (smoteAlg exPar (fun _ => 1) exDraws 2 exKnn) ∧ IsMinority exY 1 0 ∧
    ∃ X' y', sample defaultChecks 2 (smoteAlg exPar (fun _ => 1) exDraws 2 exKnn) exX exY = .ok (X', y') ∧ exY.length < y'.length := by
  refine ⟨.smote _ _ _ _ _, exY_min, ?_⟩
  have h : (match sample defaultChecks 2 (smoteAlg exPar (fun _ => 1) exDraws 2 exKnn) exX exY with
    | .ok r => decide (exY.length < r.2.length)
    | .error _ => false) = true := by decide +kernel
  cases hr : sample defaultChecks 2 (smoteAlg exPar (fun _ => 1) exDraws 2 exKnn) exX exY with
  | error e => rw [hr] at h; cases h
  | ok r =>
    rw [hr] at h
    exact ⟨r.1, r.2, rfl, of_decide_eq_true h⟩

/-- The hypotheses of `C113_multiclass`: SMOTE, with the proportion of the class. -/
example : (∀ (_ : Nat) (q : ℚ), KeepsInput (smoteAlg { exPar with proportion := q } (fun _ => 1) exDraws 2 exKnn)) ∧
    ∃ X' y', multiclassSample .equalize
      (keepOver defaultChecks 2 (fun _ q => smoteAlg { exPar with proportion := q } (fun _ => 1) exDraws 2 exKnn)) exX exY = .ok (X', y') ∧
      exY.length < y'.length := by
  refine ⟨fun _ _ => .smote _ _ _ _ _, ?_⟩
  have h : (match multiclassSample .equalize
      (keepOver defaultChecks 2 (fun _ q => smoteAlg { exPar with proportion := q } (fun _ => 1) exDraws 2 exKnn)) exX exY with
    | .ok r => decide (exY.length < r.2.length)
    | .error _ => false) = true := by decide +kernel
  cases hr : multiclassSample .equalize
      (keepOver defaultChecks 2 (fun _ q => smoteAlg { exPar with proportion := q } (fun _ => 1) exDraws 2 exKnn)) exX exY with
  | error e => rw [hr] at h; cases h
  | ok r =>
    rw [hr] at h
    exact ⟨r.1, r.2, rfl, of_decide_eq_true h⟩

/-- `C113_removed`: three rows of the problem are kept, one is removed, two are generated. -/
example : newOnes 4 ([[0], [1], [2]] ++ [[7], [8]], [0, 0, 1] ++ [1, 1]) = [[8]] := by decide +kernel

end Verif

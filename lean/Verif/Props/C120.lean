import Verif.Lemmas.Balanced
import Verif.Lemmas.Majority
import Verif.Lemmas.SmoteExample
import Verif.Spec.Neighbors
import Verif.Props.C02
import Verif.Props.C04
import Verif.Props.C79
import Verif.Props.C91
import Verif.Model.Adg
import Verif.Model.Adoms
import Verif.Model.Ahc
import Verif.Model.Amsr
import Verif.Model.Asmobd
import Verif.Model.Borderline
import Verif.Model.Ccr
import Verif.Model.CeNras
import Verif.Model.Cleaning
import Verif.Model.Clusters
import Verif.Model.Cure
import Verif.Model.Dbsmote
import Verif.Model.DeOver
import Verif.Model.Deago
import Verif.Model.Dsmote
import Verif.Model.Dsrbf
import Verif.Model.Esmote
import Verif.Model.Frst
import Verif.Model.GSmote
import Verif.Model.Interp
import Verif.Model.Ipf
import Verif.Model.Isomap
import Verif.Model.Kernel
import Verif.Model.Lee
import Verif.Model.Lle
import Verif.Model.LnSmote
import Verif.Model.Lvq
import Verif.Model.Mdo
import Verif.Model.MergeAlgs
import Verif.Model.Mot2ld
import Verif.Model.Msyn
import Verif.Model.Mwmote
import Verif.Model.Ndo
import Verif.Model.Neater
import Verif.Model.Noise
import Verif.Model.Oups
import Verif.Model.Pdfos
import Verif.Model.Polynom
import Verif.Model.ProWSyn
import Verif.Model.Pso
import Verif.Model.Regions
import Verif.Model.Rejection
import Verif.Model.Rsb
import Verif.Model.Selected
import Verif.Model.SlGraph
import Verif.Model.Smobd
import Verif.Model.Smote
import Verif.Model.SmoteD
import Verif.Model.SmoteOut
import Verif.Model.Smotewb
import Verif.Model.SnSmmo
import Verif.Model.SoiCj
import Verif.Model.Somo
import Verif.Model.Sso
import Verif.Model.Sundo
import Verif.Model.Symprod
import Verif.Model.Trim
import Verif.Model.Under
import Verif.Model.VisRst
import Verif.Model.Vsynth
import Verif.Model.Weighted

/-!
# C120: balanced data stay as they are

With two classes of the same size nothing is to be done. The oversamplers below return such data unchanged, so that a second call after
one that balanced the classes changes nothing; the others change balanced data.
-/

namespace Verif

/-! ## Oversamplers which keep balanced data -/

theorem C120_smote (par : SmoteParams) (vol : List Row → ℚ) (dr : Draws) (d : Nat) (knn : Nat → List Row → List (List Nat)) (checks : List
    Check) (d0 : Nat) :
    KeepsBalanced (sample checks d0 (smoteAlg par vol dr d knn)) := by
  refine keeps_of_alg fun s X y h => ?_
  unfold smoteAlg
  simp only [h, detN_same, ok_bind, if_true]
  rfl

theorem C120_adg (env : AdgEnv) (par : AdgParams) (again : Nat → List Row → List Int → Res (List Row × List Int)) (d : Nat) (checks : List
    Check) (d0 : Nat) :
    KeepsBalanced (sample checks d0 (adgAlg env par again d)) := by
  refine keeps_of_alg fun s X y h => ?_
  unfold adgAlg
  simp only [h, detN_same, ok_bind, if_true]
  rfl

theorem C120_adoms (proportion : ℚ) (nNeighbors : Nat) (pca : List Row → Row) (norm : Row → ℚ) (index nbIx : Nat → Nat → Nat) (rand : Nat →
    ℚ) (knn : Nat → List Row → List (List Nat)) (checks : List Check) (d0 : Nat) :
    KeepsBalanced (sample checks d0 (adomsAlg proportion nNeighbors pca norm index nbIx rand knn)) := by
  refine keeps_of_alg fun s X y h => ?_
  unfold adomsAlg
  simp only [h, detN_same, ok_bind, if_true]
  rfl

theorem C120_amsr (env : AmsrEnv) (proportion : ℚ) (top : AmsrTopology) (d : Nat) (checks : List Check) (d0 : Nat) :
    KeepsBalanced (sample checks d0 (amsrAlg env proportion top d)) := by
  refine keeps_of_alg fun s X y h => ?_
  unfold amsrAlg
  simp only [h, detN_same, ok_bind, if_true]
  rfl

theorem C120_asmobd (proportion : ℚ) (ss : SSParams) (par : AsmobdParams) (fitScaler : List Row → Row × Row) (sig : Option ℚ → ℚ) (optics :
    ℚ → Nat → List Row → Res (List XF × List XF)) (ball : List Row → Row → XF → List Nat) (vol : List Row → ℚ) (dr : Draws) (d : Nat) (knn :
    Nat → List Row → List (List Nat)) (checks : List Check) (d0 : Nat) :
    KeepsBalanced (sample checks d0 (asmobdAlg proportion ss par fitScaler sig optics ball vol dr d knn)) := by
  refine keeps_of_alg fun s X y h => ?_
  unfold asmobdAlg
  simp only [h, detN_same, ok_bind, if_true]
  rfl

theorem C120_adasyn (par : AdasynParams) (vol : List Row → ℚ) (dr : Draws) (d : Nat) (knn : Nat → List Row → List Row → List (List Nat))
    (checks : List Check) (d0 : Nat) :
    KeepsBalanced (sample checks d0 (adasynAlg par vol dr d knn)) := by
  refine keeps_of_alg fun s X y h => ?_
  unfold adasynAlg
  simp only [h, detN_same, ok_bind, if_true]
  rfl

theorem C120_borderline1 (par : BorderParams) (vol : List Row → ℚ) (dr : Draws) (d : Nat) (knn : Nat → List Row → List Row → List (List
    Nat)) (checks : List Check) (d0 : Nat) :
    KeepsBalanced (sample checks d0 (borderline1Alg par vol dr d knn)) := by
  refine keeps_of_alg fun s X y h => ?_
  unfold borderline1Alg
  simp only [h, detN_same, ok_bind, if_true]
  rfl

theorem C120_borderline2 (par : BorderParams) (vol : List Row → ℚ) (dr : Draws) (d : Nat) (knn : Nat → List Row → List Row → List (List
    Nat)) (checks : List Check) (d0 : Nat) :
    KeepsBalanced (sample checks d0 (borderline2Alg par vol dr d knn)) := by
  refine keeps_of_alg fun s X y h => ?_
  unfold borderline2Alg
  simp only [h, detN_same, ok_bind, if_true]
  rfl

theorem C120_ccr (proportion E : ℚ) (dr : CcrDraws) (checks : List Check) (d0 : Nat) :
    KeepsBalanced (sample checks d0 (ccrAlg proportion E dr)) := by
  refine keeps_of_alg fun s X y h => ?_
  unfold ccrAlg
  simp only [h, detN_same, ok_bind, if_true]
  rfl

theorem C120_nras (par : NbParams) (t : ℚ) (fitScaler : List Row → Row × Row) (propensity : List Row → List Int → List ℚ) (vol : List Row →
    ℚ) (dr : Draws) (d : Nat) (knn : Nat → List Row → List Row → List (List Nat)) (checks : List Check) (d0 : Nat) :
    KeepsBalanced (sample checks d0 (nrasAlg par t fitScaler propensity vol dr d knn)) := by
  refine keeps_of_alg fun s X y h => ?_
  unfold nrasAlg
  simp only [h, detN_same, ok_bind, if_true]
  rfl

theorem C120_kmeansSmote (par : NbParams) (nClusters : Nat) (irt : ℚ) (vol : List Row → ℚ) (cu : Nat → ℚ) (drs : Nat → Draws) (d : Nat)
    (kmeans : Nat → List Row → List Int) (pdist : Row → Row → ℚ) (knn : Nat → List Row → List Row → List (List Nat)) (checks : List Check)
    (d0 : Nat) :
    KeepsBalanced (sample checks d0 (kmeansSmoteAlg par nClusters irt vol cu drs d kmeans pdist knn)) := by
  refine keeps_of_alg fun s X y h => ?_
  unfold kmeansSmoteAlg
  simp only [h, detN_same, ok_bind, if_true]
  rfl

theorem C120_clusterSmote (par : NbParams) (nClusters : Nat) (vol : List Row → ℚ) (pick : Nat → Nat → List Nat) (drs : Nat → Draws) (d :
    Nat) (kmeans : Nat → List Row → List Int) (knn : Nat → List Row → List Row → List (List Nat)) (checks : List Check) (d0 : Nat) :
    KeepsBalanced (sample checks d0 (clusterSmoteAlg par nClusters vol pick drs d kmeans knn)) := by
  refine keeps_of_alg fun s X y h => ?_
  unfold clusterSmoteAlg
  simp only [h, detN_same, ok_bind, if_true]
  rfl

theorem C120_cureSmote (par : CureParams) (fitScaler : List Row → Row × Row) (small : Nat → List Nat → Nat) (dist : Row → Row → ℚ) (vol :
    List Row → ℚ) (pick : Nat → Nat → List Nat) (drs : Nat → Draws) (d : Nat) (checks : List Check) (d0 : Nat) :
    KeepsBalanced (sample checks d0 (cureSmoteAlg par fitScaler small dist vol pick drs d)) := by
  refine keeps_of_alg fun s X y h => ?_
  unfold cureSmoteAlg
  simp only [h, detN_same, ok_bind, if_true]
  rfl

theorem C120_dbsmote (par : DbParams) (fitScaler : List Row → Row × Row) (dbscan : List Row → ℚ → Int → Res (List Int)) (nn : ClusterNN) (dr
    : DbDraws) (checks : List Check) (d0 : Nat) :
    KeepsBalanced (sample checks d0 (dbsmoteAlg par fitScaler dbscan nn dr)) := by
  refine keeps_of_alg fun s X y h => ?_
  unfold dbsmoteAlg
  simp only [h, detN_same, ok_bind, if_true]
  rfl

theorem C120_de (env : DeEnv) (par : DeParams) (d : Nat) (checks : List Check) (d0 : Nat) :
    KeepsBalanced (sample checks d0 (deAlg env par d)) := by
  refine keeps_of_alg fun s X y h => ?_
  unfold deAlg
  simp only [h, detN_same, ok_bind, if_true]
  rfl

theorem C120_deago (par : DeagoParams) (fitScaler : List Row → Row × Row) (fit : (units epochs : Nat) → (train : List Row) → (val : Option
    (List Row)) → DeagoNet) (vol : List Row → ℚ) (dr : Draws) (d : Nat) (knn : Nat → List Row → List (List Nat)) (checks : List Check) (d0 :
    Nat) :
    KeepsBalanced (sample checks d0 (deagoAlg par fitScaler fit vol dr d knn)) := by
  refine keeps_of_alg fun s X y h => ?_
  unfold deagoAlg
  simp only [h, detN_same, ok_bind, if_true]
  rfl

theorem C120_dsmote (par : DsParams) (fn : DsFun) (dist : Row → Row → ℚ) (pick : Nat → Nat → Nat → Nat × Nat × Nat) (d : Nat) (checks : List
    Check) (d0 : Nat) :
    KeepsBalanced (sample checks d0 (dsmoteAlg par fn dist pick d)) := by
  refine keeps_of_alg fun s X y h => ?_
  unfold dsmoteAlg
  simp only [h, detN_same, ok_bind, if_true]
  rfl

theorem C120_dsrbf (env : RbfEnv ν) (par : RbfParams) (fitScaler : List Row → Row × Row) (vol : List Row → ℚ) (drs : Nat → Draws) (d : Nat)
    (knn : Nat → List Row → List (List Nat)) (checks : List Check) (d0 : Nat) :
    KeepsBalanced (sample checks d0 (dsrbfAlg env par fitScaler vol drs d knn)) := by
  refine keeps_of_alg fun s X y h => ?_
  unfold dsrbfAlg
  simp only [h, detN_same, ok_bind, if_true]
  rfl

theorem C120_es (env : EsEnv) (minFeatures : Nat) (par : SmoteParams) (vol : List Row → ℚ) (dr : Draws) (knn : Nat → List Row → List (List
    Nat)) (d : Nat) (checks : List Check) (d0 : Nat) :
    KeepsBalanced (sample checks d0 (esAlg env minFeatures par vol dr knn d)) := by
  refine keeps_of_alg fun s X y h => ?_
  unfold esAlg
  simp only [h, detN_same, ok_bind, if_true]
  rfl

theorem C120_gsmote (par : NbParams) (angles : List Row → List (List Nat) → Res (List (List ℚ))) (argsort : List ℚ → List Nat) (vol : List
    Row → ℚ) (dr : Draws) (d : Nat) (knn : Nat → List Row → List Row → List (List Nat)) (checks : List Check) (d0 : Nat) :
    KeepsBalanced (sample checks d0 (gsmoteAlg par angles argsort vol dr d knn)) := by
  refine keeps_of_alg fun s X y h => ?_
  unfold gsmoteAlg
  simp only [h, detN_same, ok_bind, if_true]
  rfl

theorem C120_randomSmote (proportion : ℚ) (nNeighbors : Nat) (dr : RsDraws) (knn : Nat → List Row → List (List Nat)) (checks : List Check)
    (d0 : Nat) :
    KeepsBalanced (sample checks d0 (randomSmoteAlg proportion nNeighbors dr knn)) := by
  refine keeps_of_alg fun s X y h => ?_
  unfold randomSmoteAlg
  simp only [h, detN_same, ok_bind, if_true]
  rfl

theorem C120_msmote (proportion : ℚ) (nNeighbors : Nat) (dr : MsDraws) (knn : Nat → List Row → List Row → List (List Nat)) (checks : List
    Check) (d0 : Nat) :
    KeepsBalanced (sample checks d0 (msmoteAlg proportion nNeighbors dr knn)) := by
  refine keeps_of_alg fun s X y h => ?_
  unfold msmoteAlg
  simp only [h, detN_same, ok_bind, if_true]
  rfl

theorem C120_safeLevel (proportion : ℚ) (nNeighbors : Nat) (dr : SlDraws) (knn : Nat → List Row → List (List Nat)) (checks : List Check) (d0
    : Nat) :
    KeepsBalanced (sample checks d0 (safeLevelAlg proportion nNeighbors dr knn)) := by
  refine keeps_of_alg fun s X y h => ?_
  unfold safeLevelAlg
  simp only [h, detN_same, ok_bind, if_true]
  rfl

theorem C120_ka (env : KaEnv) (par : KaParams) (d : Nat) (again : Nat → List Row → List Int → Res (List Row × List Int)) (checks : List
    Check) (d0 : Nat) :
    KeepsBalanced (sample checks d0 (kaAlg env par d again)) := by
  refine keeps_of_alg fun s X y h => ?_
  unfold kaAlg
  simp only [h, detN_same, ok_bind, if_true]
  rfl

theorem C120_lle (par : NbParams) (nComp : Nat) (lle : Nat → Nat → List Row → List Row) (solve : List Row → Row → Option Row) (vol : List
    Row → ℚ) (dr : Draws) (d : Nat) (knn : Nat → List Row → List Row → List (List Nat)) (checks : List Check) (d0 : Nat) :
    KeepsBalanced (sample checks d0 (lleAlg par nComp lle solve vol dr d knn)) := by
  refine keeps_of_alg fun s X y h => ?_
  unfold lleAlg
  simp only [h, detN_same, ok_bind, if_true]
  rfl

theorem C120_lnSmote (proportion : ℚ) (nNeighbors : Nat) (ix : Nat → Nat → Nat) (gap : Nat → Nat → ℚ) (knn : Nat → List Row → List (List
    Nat)) (checks : List Check) (d0 : Nat) :
    KeepsBalanced (sample checks d0 (lnSmoteAlg proportion nNeighbors ix gap knn)) := by
  refine keeps_of_alg fun s X y h => ?_
  unfold lnSmoteAlg
  simp only [h, detN_same, ok_bind, if_true]
  rfl

theorem C120_lvq (proportion : ℚ) (nNeighbors nClusters : Nat) (kmeans : Nat → List Row → List Row) (norm : Row → ℚ) (codes : Nat → Nat →
    Nat × Nat) (coin : Nat → Nat → Nat → Bool) (pos : Nat → Nat → Nat) (knn : Nat → List Row → List Row → List (List Nat)) (checks : List
    Check) (d0 : Nat) :
    KeepsBalanced (sample checks d0 (lvqAlg proportion nNeighbors nClusters kmeans norm codes coin pos knn)) := by
  refine keeps_of_alg fun s X y h => ?_
  unfold lvqAlg
  simp only [h, detN_same, ok_bind, if_true]
  rfl

theorem C120_mdo (proportion : ℚ) (k2 : Nat) (frac : ℚ) (pca : Nat → List Row → List Row) (sqrt : ℚ → ℚ) (pick : Nat → ℚ) (u : Nat → Nat →
    ℚ) (knn : Nat → List Row → List Row → List (List Nat)) (d : Nat) (checks : List Check) (d0 : Nat) :
    KeepsBalanced (sample checks d0 (mdoAlg proportion k2 frac pca sqrt pick u knn d)) := by
  refine keeps_of_alg fun s X y h => ?_
  unfold mdoAlg
  simp only [h, detN_same, ok_bind, if_true]
  rfl

theorem C120_cbso (par : NbParams) (cp : ℚ) (vol : List Row → ℚ) (cu : Nat → ℚ) (drs : Nat → Draws) (d : Nat) (dist : Row → Row → ℚ) (knn :
    Nat → List Row → List Row → List (List Nat)) (checks : List Check) (d0 : Nat) :
    KeepsBalanced (sample checks d0 (cbsoAlg par cp vol cu drs d dist knn)) := by
  refine keeps_of_alg fun s X y h => ?_
  unfold cbsoAlg
  simp only [h, detN_same, ok_bind, if_true]
  rfl

theorem C120_assembled (par : NbParams) (pop : Nat) (aligned : List Row → List Row → Bool) (vol : List Row → ℚ) (cu : Nat → ℚ) (drs : Nat →
    Draws) (d : Nat) (dist : Row → Row → ℚ) (knn : Nat → List Row → List Row → List (List Nat)) (checks : List Check) (d0 : Nat) :
    KeepsBalanced (sample checks d0 (assembledAlg par pop aligned vol cu drs d dist knn)) := by
  refine keeps_of_alg fun s X y h => ?_
  unfold assembledAlg
  simp only [h, detN_same, ok_bind, if_true]
  rfl

theorem C120_suwo (par : NbParams) (nClusMaj : Nat) (cThres : ℚ) (env : SuwoEnv) (vol : List Row → ℚ) (cu : Nat → ℚ) (drs : Nat → Draws) (d
    : Nat) (checks : List Check) (d0 : Nat) :
    KeepsBalanced (sample checks d0 (suwoAlg par nClusMaj cThres env vol cu drs d)) := by
  refine keeps_of_alg fun s X y h => ?_
  unfold suwoAlg
  simp only [h, detN_same, ok_bind, if_true]
  rfl

theorem C120_mot (par : MotParams) (env : MotEnv) (vol : List Row → ℚ) (cu : Nat → ℚ) (drs : Nat → Draws) (d : Nat) (checks : List Check)
    (d0 : Nat) :
    KeepsBalanced (sample checks d0 (motAlg par env vol cu drs d)) := by
  refine keeps_of_alg fun s X y h => ?_
  unfold motAlg
  simp only [h, detN_same, ok_bind, if_true]
  rfl

theorem C120_msyn (par : SmoteParams) (dist : Row → Row → ℚ) (vol : List Row → ℚ) (dr : Draws) (d : Nat) (knn : Nat → List Row → List (List
    Nat)) (checks : List Check) (d0 : Nat) :
    KeepsBalanced (sample checks d0 (msynAlg par dist vol dr d knn)) := by
  refine keeps_of_alg fun s X y h => ?_
  unfold msynAlg
  simp only [h, detN_same, ok_bind, if_true]
  rfl

theorem C120_mwmote (par : MwParams) (vol : List Row → ℚ) (cu : Nat → ℚ) (drs : Nat → Draws) (d : Nat) (kmeans : Nat → List Row → List Int)
    (dist : Row → Row → ℚ) (knn : Nat → List Row → List Row → List (List Nat)) (checks : List Check) (d0 : Nat) :
    KeepsBalanced (sample checks d0 (mwmoteAlg par vol cu drs d kmeans dist knn)) := by
  refine keeps_of_alg fun s X y h => ?_
  unfold mwmoteAlg
  simp only [h, detN_same, ok_bind, if_true]
  rfl

theorem C120_ndo (par : SmoteParams) (T : ℚ) (dist : Row → Row → ℚ) (vol : List Row → ℚ) (dr : Draws) (d : Nat) (pick nbr : Nat → Nat → Nat)
    (u : Nat → Nat → ℚ) (query : Nat → List Row → List Row → List (List Nat)) (knn : Nat → List Row → List (List Nat)) (checks : List Check)
    (d0 : Nat) :
    KeepsBalanced (sample checks d0 (ndoAlg par T dist vol dr d pick nbr u query knn)) := by
  refine keeps_of_alg fun s X y h => ?_
  unfold ndoAlg
  simp only [h, detN_same, ok_bind, if_true]
  rfl

theorem C120_neater (par : NeaterParams) (vol : List Row → ℚ) (drS drA : Draws) (d : Nat) (knnS : Nat → List Row → List (List Nat)) (knn :
    Nat → List Row → List Row → List (List Nat)) (dist : Row → Row → ℚ) (checks : List Check) (d0 : Nat) :
    KeepsBalanced (sample checks d0 (neaterAlg par vol drS drA d knnS knn dist)) := by
  refine keeps_of_alg fun s X y h => ?_
  unfold neaterAlg
  simp only [h, detN_same, ok_bind, if_true]
  rfl

theorem C120_oups (par : NbParams) (sorting : List Row → List Int → List Nat) (vol : List Row → ℚ) (dr : Draws) (d : Nat) (checks : List
    Check) (d0 : Nat) :
    KeepsBalanced (sample checks d0 (oupsAlg par sorting vol dr d)) := by
  refine keeps_of_alg fun s X y h => ?_
  unfold oupsAlg
  simp only [h, detN_same, ok_bind, if_true]
  rfl

theorem C120_pd (env : PdEnv) (proportion : ℚ) (d : Nat) (checks : List Check) (d0 : Nat) :
    KeepsBalanced (sample checks d0 (pdAlg env proportion d)) := by
  refine keeps_of_alg fun s X y h => ?_
  unfold pdAlg
  simp only [h, detN_same, ok_bind, if_true]
  rfl

theorem C120_polynom (proportion : ℚ) (t : Topology) (d : Nat) (checks : List Check) (d0 : Nat) :
    KeepsBalanced (sample checks d0 (polynomAlg proportion t d)) := by
  refine keeps_of_alg fun s X y h => ?_
  unfold polynomAlg
  simp only [h, detN_same, ok_bind, if_true]
  rfl

theorem C120_mesh (proportion : ℚ) (ss : SSParams) (vol : List Row → ℚ) (dr : Draws) (nb : Nat → Nat → Nat) (d : Nat) (checks : List Check)
    (d0 : Nat) :
    KeepsBalanced (sample checks d0 (meshAlg proportion ss vol dr nb d)) := by
  refine keeps_of_alg fun s X y h => ?_
  unfold meshAlg
  simp only [h, detN_same, ok_bind, if_true]
  rfl

theorem C120_prowsyn (par : ProParams) (vol : List Row → ℚ) (clusterU : Nat → ℚ) (dr : Nat → Draws) (d : Nat) (knn : Nat → List Row → List
    Row → List (List Nat)) (checks : List Check) (d0 : Nat) :
    KeepsBalanced (sample checks d0 (prowsynAlg par vol clusterU dr d knn)) := by
  refine keeps_of_alg fun s X y h => ?_
  unfold prowsynAlg
  simp only [h, detN_same, ok_bind, if_true]
  rfl

theorem C120_sdsmote (par : NbParams) (vol : List Row → ℚ) (dr : Draws) (d : Nat) (knn : Nat → List Row → List Row → List (List Nat))
    (knnDist : Nat → List Row → List Row → List (List ℚ)) (radius : List Row → List Row → ℚ → List (List Nat)) (checks : List Check) (d0 :
    Nat) :
    KeepsBalanced (sample checks d0 (sdsmoteAlg par vol dr d knn knnDist radius)) := by
  refine keeps_of_alg fun s X y h => ?_
  unfold sdsmoteAlg
  simp only [h, detN_same, ok_bind, if_true]
  rfl

theorem C120_andSmote (par : NbParams) (vol : List Row → ℚ) (dr : Draws) (d : Nat) (knn : Nat → List Row → List Row → List (List Nat))
    (checks : List Check) (d0 : Nat) :
    KeepsBalanced (sample checks d0 (andSmoteAlg par vol dr d knn)) := by
  refine keeps_of_alg fun s X y h => ?_
  unfold andSmoteAlg
  simp only [h, detN_same, ok_bind, if_true]
  rfl

theorem C120_ans (par : NbParams) (vol : List Row → ℚ) (dr : Draws) (d : Nat) (knn : Nat → List Row → List Row → List (List Nat)) (knnDist :
    Nat → List Row → List Row → List (List ℚ)) (radius : List Row → List Row → ℚ → List (List Nat)) (checks : List Check) (d0 : Nat) :
    KeepsBalanced (sample checks d0 (ansAlg par vol dr d knn knnDist radius)) := by
  refine keeps_of_alg fun s X y h => ?_
  unfold ansAlg
  simp only [h, detN_same, ok_bind, if_true]
  rfl

theorem C120_distanceSmote (par : NbParams) (vol : List Row → ℚ) (dr : Draws) (d : Nat) (knn : Nat → List Row → List Row → List (List Nat))
    (checks : List Check) (d0 : Nat) :
    KeepsBalanced (sample checks d0 (distanceSmoteAlg par vol dr d knn)) := by
  refine keeps_of_alg fun s X y h => ?_
  unfold distanceSmoteAlg
  simp only [h, detN_same, ok_bind, if_true]
  rfl

theorem C120_gaussianSmote (par : NbParams) (fitScaler : List Row → Row × Row) (vol : List Row → ℚ) (dr : Draws) (d : Nat) (knn : Nat → List
    Row → List Row → List (List Nat)) (checks : List Check) (d0 : Nat) :
    KeepsBalanced (sample checks d0 (gaussianSmoteAlg par fitScaler vol dr d knn)) := by
  refine keeps_of_alg fun s X y h => ?_
  unfold gaussianSmoteAlg
  simp only [h, detN_same, ok_bind, if_true]
  rfl

theorem C120_ntSmote (par : NbParams) (vol : List Row → ℚ) (dr : Draws) (d : Nat) (knn : Nat → List Row → List Row → List (List Nat))
    (checks : List Check) (d0 : Nat) :
    KeepsBalanced (sample checks d0 (ntSmoteAlg par vol dr d knn)) := by
  refine keeps_of_alg fun s X y h => ?_
  unfold ntSmoteAlg
  simp only [h, detN_same, ok_bind, if_true]
  rfl

theorem C120_rwo (par : NbParams) (colStd : List Row → Nat → ℚ) (vol : List Row → ℚ) (dr : Draws) (walkU : Nat → Nat → ℚ) (d : Nat) (knn :
    Nat → List Row → List Row → List (List Nat)) (checks : List Check) (d0 : Nat) :
    KeepsBalanced (sample checks d0 (rwoAlg par colStd vol dr walkU d knn)) := by
  refine keeps_of_alg fun s X y h => ?_
  unfold rwoAlg
  simp only [h, detN_same, ok_bind, if_true]
  rfl

theorem C120_supervised (par : SupParams) (prob : List Row → List Int → Row → ℚ) (vol : List Row → ℚ) (drs : Nat → Draws) (d : Nat) (checks
    : List Check) (d0 : Nat) :
    KeepsBalanced (sample checks d0 (supervisedAlg par prob vol drs d)) := by
  refine keeps_of_alg fun s X y h => ?_
  unfold supervisedAlg
  simp only [h, detN_same, ok_bind, if_true]
  rfl

theorem C120_nrs (par : NrsParams) (dist : Row → Row → ℚ) (radius : List Row → Row → ℚ → List Nat) (vol : List Row → ℚ) (drs : Nat → Draws)
    (d : Nat) (knn : Nat → List Row → List Row → List (List Nat)) (checks : List Check) (d0 : Nat) :
    KeepsBalanced (sample checks d0 (nrsAlg par dist radius vol drs d knn)) := by
  refine keeps_of_alg fun s X y h => ?_
  unfold nrsAlg
  simp only [h, detN_same, ok_bind, if_true]
  rfl

theorem C120_selected (proportion : ℚ) (nNeighbors : Nat) (share : ℚ) (ix : Nat → Nat → Nat → Nat) (un : Nat → Nat → ℚ) (d : Nat) (knn : Nat
    → List Row → List Row → List (List Nat)) (checks : List Check) (d0 : Nat) :
    KeepsBalanced (sample checks d0 (selectedAlg proportion nNeighbors share ix un d knn)) := by
  refine keeps_of_alg fun s X y h => ?_
  unfold selectedAlg
  simp only [h, detN_same, ok_bind, if_true]
  rfl

theorem C120_rose (proportion : ℚ) (std : List ℚ → ℚ) (width : Nat → Nat → ℚ) (ix : Nat → Nat → Nat → Nat) (normal : Nat → Nat → ℚ) (d :
    Nat) (checks : List Check) (d0 : Nat) :
    KeepsBalanced (sample checks d0 (roseAlg proportion std width ix normal d)) := by
  refine keeps_of_alg fun s X y h => ?_
  unfold roseAlg
  simp only [h, detN_same, ok_bind, if_true]
  rfl

theorem C120_slGraph (proportion : ℚ) (nNeighbors : Nat) (ss : SSParams) (vol : List Row → ℚ) (slDr : SlDraws) (dr : Draws) (d : Nat) (knn :
    Nat → List Row → List Row → List (List Nat)) (checks : List Check) (d0 : Nat) :
    KeepsBalanced (sample checks d0 (slGraphAlg proportion nNeighbors ss vol slDr dr d knn)) := by
  refine keeps_of_alg fun s X y h => ?_
  unfold slGraphAlg
  simp only [h, detN_same, ok_bind, if_true]
  rfl

theorem C120_smobd (proportion eta1 t : ℚ) (minSamples : Nat) (optics : Nat → List Row → Res (List XF × List XF)) (radius : List Row → List
    Nat) (baseU : Nat → ℚ) (ix : Nat → Nat → Nat) (gap : Nat → Nat → ℚ) (knn : Nat → List Row → List (List Nat)) (checks : List Check) (d0 :
    Nat) :
    KeepsBalanced (sample checks d0 (smobdAlg proportion eta1 t minSamples optics radius baseU ix gap knn)) := by
  refine keeps_of_alg fun s X y h => ?_
  unfold smobdAlg
  simp only [h, detN_same, ok_bind, if_true]
  rfl

theorem C120_smoteD (proportion : ℚ) (k : Nat) (std : List ℚ → XF) (u : Nat → Nat → Nat → ℚ) (knn : Nat → List Row → List (List Nat))
    (knnDist : Nat → List Row → List (List ℚ)) (checks : List Check) (d0 : Nat) :
    KeepsBalanced (sample checks d0 (smoteDAlg proportion k std u knn knnDist)) := by
  refine keeps_of_alg fun s X y h => ?_
  unfold smoteDAlg
  simp only [h, detN_same, ok_bind, if_true]
  rfl

theorem C120_smoteOut (proportion : ℚ) (nNeighbors : Nat) (ix : Nat → Nat → Nat → Nat) (un : Nat → Nat → Nat → ℚ) (knn : Nat → List Row →
    List Row → List (List Nat)) (checks : List Check) (d0 : Nat) :
    KeepsBalanced (sample checks d0 (smoteOutAlg proportion nNeighbors ix un knn)) := by
  refine keeps_of_alg fun s X y h => ?_
  unfold smoteOutAlg
  simp only [h, detN_same, ok_bind, if_true]
  rfl

theorem C120_smoteCosine (proportion : ℚ) (nNeighbors : Nat) (ix : Nat → Nat → Nat → Nat) (un : Nat → Nat → Nat → ℚ) (knn cosKnn : Nat →
    List Row → List Row → List (List Nat)) (argsort : List ℚ → List Nat) (checks : List Check) (d0 : Nat) :
    KeepsBalanced (sample checks d0 (smoteCosineAlg proportion nNeighbors ix un knn cosKnn argsort)) := by
  refine keeps_of_alg fun s X y h => ?_
  unfold smoteCosineAlg
  simp only [h, detN_same, ok_bind, if_true]
  rfl

theorem C120_wb (env : WbEnv) (par : WbParams) (vol : List Row → ℚ) (dr : Draws) (d : Nat) (checks : List Check) (d0 : Nat) :
    KeepsBalanced (sample checks d0 (wbAlg env par vol dr d)) := by
  refine keeps_of_alg fun s X y h => ?_
  unfold wbAlg
  simp only [h, detN_same, ok_bind, if_true]
  rfl

theorem C120_snSmote (par : NbParams) (dist : Row → Row → ℚ) (vol : List Row → ℚ) (pick : Nat → Nat → List Nat) (drs : Nat → Draws) (d :
    Nat) (knn : Nat → List Row → List Row → List (List Nat)) (checks : List Check) (d0 : Nat) :
    KeepsBalanced (sample checks d0 (snSmoteAlg par dist vol pick drs d knn)) := by
  refine keeps_of_alg fun s X y h => ?_
  unfold snSmoteAlg
  simp only [h, detN_same, ok_bind, if_true]
  rfl

theorem C120_smmo (par : NbParams) (predict : List Row → List Int → List (List Int)) (vol : List Row → ℚ) (pick : Nat → Nat → List Nat) (drs
    : Nat → Draws) (d : Nat) (knn : Nat → List Row → List Row → List (List Nat)) (checks : List Check) (d0 : Nat) :
    KeepsBalanced (sample checks d0 (smmoAlg par predict vol pick drs d knn)) := by
  refine keeps_of_alg fun s X y h => ?_
  unfold smmoAlg
  simp only [h, detN_same, ok_bind, if_true]
  rfl

theorem C120_soi (par : NbParams) (method : SoiMethod) (env : SoiEnv) (vol : List Row → ℚ) (fuel d : Nat) (checks : List Check) (d0 : Nat) :
    KeepsBalanced (sample checks d0 (soiAlg par method env vol fuel d)) := by
  refine keeps_of_alg fun s X y h => ?_
  unfold soiAlg
  simp only [h, detN_same, ok_bind, if_true]
  rfl

theorem C120_somo (par : NbParams) (som : List Row → Row → MapCell) (pdist : Row → Row → ℚ) (vol : List Row → ℚ) (cu cu' : Nat → ℚ) (drs
    drs' : Nat → Draws) (d : Nat) (checks : List Check) (d0 : Nat) :
    KeepsBalanced (sample checks d0 (somoAlg par som pdist vol cu cu' drs drs' d)) := by
  refine keeps_of_alg fun s X y h => ?_
  unfold somoAlg
  simp only [h, detN_same, ok_bind, if_true]
  rfl

theorem C120_sy (env : SyEnv) (par : SyParams) (d : Nat) (checks : List Check) (d0 : Nat) :
    KeepsBalanced (sample checks d0 (syAlg env par d)) := by
  refine keeps_of_alg fun s X y h => ?_
  unfold syAlg
  simp only [h, detN_same, ok_bind, if_true]
  rfl

theorem C120_trimSmote (par : TrimParams) (vol : List Row → ℚ) (dr : Draws) (d : Nat) (knn : Nat → List Row → List Row → List (List Nat))
    (checks : List Check) (d0 : Nat) :
    KeepsBalanced (sample checks d0 (trimSmoteAlg par vol dr d knn)) := by
  refine keeps_of_alg fun s X y h => ?_
  unfold trimSmoteAlg
  simp only [h, detN_same, ok_bind, if_true]
  rfl

theorem C120_vis (par : NbParams) (fitScaler : List Row → Row × Row) (nb : Nat → List Row → Row → List Nat) (vol : List Row → ℚ) (pick : Nat
    → Nat → Nat → List Nat) (drs : Nat → Draws) (d : Nat) (checks : List Check) (d0 : Nat) :
    KeepsBalanced (sample checks d0 (visAlg par fitScaler nb vol pick drs d)) := by
  refine keeps_of_alg fun s X y h => ?_
  unfold visAlg
  simp only [h, detN_same, ok_bind, if_true]
  rfl

theorem C120_vs (env : VsEnv) (par : VsParams) (d : Nat) (checks : List Check) (d0 : Nat) :
    KeepsBalanced (sample checks d0 (vsAlg env par d)) := by
  refine keeps_of_alg fun s X y h => ?_
  unfold vsAlg
  simp only [h, detN_same, ok_bind, if_true]
  rfl

theorem C120_mct (par : NbParams) (dist : Row → Row → ℚ) (vol : List Row → ℚ) (dr : Draws) (d : Nat) (knn : Nat → List Row → List Row → List
    (List Nat)) (checks : List Check) (d0 : Nat) :
    KeepsBalanced (sample checks d0 (mctAlg par dist vol dr d knn)) := by
  refine keeps_of_alg fun s X y h => ?_
  unfold mctAlg
  simp only [h, detN_same, ok_bind, if_true]
  rfl

theorem C120_edgeDet (par : NbParams) (sqrt : ℚ → ℚ) (vol : List Row → ℚ) (dr : Draws) (d : Nat) (knn : Nat → List Row → List Row → List
    (List Nat)) (checks : List Check) (d0 : Nat) :
    KeepsBalanced (sample checks d0 (edgeDetAlg par sqrt vol dr d knn)) := by
  refine keeps_of_alg fun s X y h => ?_
  unfold edgeDetAlg
  simp only [h, detN_same, ok_bind, if_true]
  rfl

theorem C120_noSmote (checks : List Check) (d0 : Nat) : KeepsBalanced (sample checks d0 (noSmoteAlg false false)) :=
  keeps_of_alg fun _ _ _ _ => rfl

theorem C120_frst (par : FrstParams) (vol : List Row → ℚ) (dr : Nat → Draws) (d : Nat) (knn : Nat → List Row → List (List Nat))
    (checks : List Check) (d0 : Nat) : KeepsBalanced (sample checks d0 (frstAlg par vol dr d knn)) := by
  refine keeps_of_alg fun s X y h => ?_
  unfold frstAlg
  rw [if_pos (le_of_eq h)]
  rfl

theorem C120_pso (env : PsoEnv) (par : PsoParams) (checks : List Check) (d0 : Nat) : KeepsBalanced (sample checks d0 (psoAlg env par)) := by
  refine keeps_of_alg fun s X y h => ?_
  unfold psoAlg
  rw [if_pos (le_of_eq h)]
  rfl

theorem C120_ceSmote (par : CeParams) (vol : List Row → ℚ) (dr : Draws) (d : Nat) (clusterings : List Row → List (List Int))
    (knn : Nat → List Row → List Row → List (List Nat)) (checks : List Check) (d0 : Nat) :
    KeepsBalanced (sample checks d0 (ceSmoteAlg par vol dr d clusterings knn)) := by
  refine keeps_of_alg fun s X y h => ?_
  unfold ceSmoteAlg sampleSimplex
  simp only [h, detN_same, ok_bind, if_true]
  split
  · rfl
  · simp only [pure_bind, withSamples, List.length_nil, List.replicate_zero, List.append_nil]
    rfl

theorem C120_rsb (levels : List ℚ) (par : SmoteParams) (vol : List Row → ℚ) (dr : Draws) (d : Nat) (knn : Nat → List Row → List (List Nat))
    (checks : List Check) (d0 : Nat) : KeepsBalanced (sample checks d0 (rsbAlg levels par vol dr d knn)) := by
  intro X y hl hy
  have hsm : smoteSample par vol dr d knn X y = .ok (X, y) := C120_smote par vol dr d knn defaultChecks d X y hl hy
  obtain ⟨a, b, hmin, hc⟩ := balanced_isMinority hy
  obtain ⟨s, hs, rfl, rfl⟩ := stats_of_isMinority hmin
  unfold sample rsbAlg
  rw [hs, ok_bind, hsm, ok_bind]
  simp only [List.drop_length, List.length_nil, if_true]
  split <;> rfl

/-- The public classes polynom_fit_SMOTE_star, _bus and _poly. -/
theorem C120_polynomClass (proportion : ℚ) (t : Topology) (d : Nat) : KeepsBalanced (polynomClass proportion t d) := by
  intro X y hl hy
  obtain ⟨a, b, hmin, hc⟩ := balanced_isMinority hy
  obtain ⟨s, hs, rfl, rfl⟩ := stats_of_isMinority hmin
  unfold polynomClass
  rw [sample, hs, ok_bind]
  split
  · rfl
  · exact C120_polynom proportion t d defaultChecks d X y hl hy

theorem C120_gazzah (proportion : ℚ) (far : List Row → List Nat) (d : Nat) (checks : List Check) (d0 : Nat) :
    KeepsBalanced (sample checks d0 (gazzahAlg proportion far d)) := by
  intro X y hl hy
  have hp := C120_polynomClass proportion .star d X y hl hy
  obtain ⟨a, b, hmin, hc⟩ := balanced_isMinority hy
  obtain ⟨s, hs, rfl, rfl⟩ := stats_of_isMinority hmin
  unfold sample gazzahAlg
  rw [hs, ok_bind, hp, ok_bind]
  simp only [List.drop_length, List.length_nil, if_true]
  split <;> rfl

/-- Lee ends at once. -/
theorem C120_lee (fuel : Nat) (par : LeeParams) (vol : List Row → ℚ) (dr : Nat → Draws) (d : Nat)
    (knn : Nat → List Row → List (List Nat)) (query : Nat → List Row → Row → List Nat) {s : Stats}
    (h : s.count s.majLabel = s.count s.minLabel) (X : List Row) (y : List Int) :
    leeAlg fuel par vol dr d knn query s X y = .ok (some (X, y)) := by
  unfold leeAlg
  simp only [h, detN_same, ok_bind, if_true]
  rfl

/-- And so does SMOTE_IPF. -/
theorem C120_ipf (fuel : Nat) (sp : SmoteParams) (par : IpfParams) (ensemble : Nat → List Row → List Int → Res (List (List Int)))
    (vol : List Row → ℚ) (dr : Draws) (d : Nat) (knn : Nat → List Row → List (List Nat)) {s : Stats}
    (h : s.count s.majLabel = s.count s.minLabel) (X : List Row) (y : List Int) :
    ipfAlg fuel sp par ensemble vol dr d knn s X y = .ok (some (.ok (X, y))) := by
  unfold ipfAlg
  simp only [h, detN_same, ok_bind, if_true]
  rfl

theorem C120_ismote (par : IsmoteParams) (vol : List Row → ℚ) (dr : Draws) (d : Nat) (knn : Nat → List Row → List Row → List (List Nat))
    (knnDist : Nat → List Row → List Row → List (List ℚ)) (checks : List Check) (d0 : Nat) :
    KeepsBalanced (sample checks d0 (ismoteAlg par vol dr d knn knnDist)) := by
  intro X y hl hy
  obtain ⟨a, b, hmin, hc⟩ := balanced_isMinority hy
  obtain ⟨s, hs, rfl, rfl⟩ := stats_of_isMinority hmin
  unfold sample ismoteAlg
  rw [hs, ok_bind]
  simp only [selectLabel_length hl, hc, Nat.sub_self]
  split <;> rfl

theorem C120_sundo (d : Nat) (std : List Row → Row) (toMaj : List Row → Row → ℚ) (distm : List Row → List (List ℚ))
    (bases : Nat → Nat → Nat) (normal : Nat → Nat → Nat → ℚ) (checks : List Check) (d0 : Nat) :
    KeepsBalanced (sample checks d0 (sundoAlg d std toMaj distm bases normal)) := by
  intro X y hl hy
  obtain ⟨a, b, hmin, hc⟩ := balanced_isMinority hy
  have hcount : y.length = y.count a + y.count b := twoClass_length hmin
  obtain ⟨s, hs, rfl, rfl⟩ := stats_of_isMinority hmin
  unfold sample sundoAlg
  rw [hs, ok_bind]
  have hN : rint (1 / 2 * ((X.length - y.count s.minLabel : Nat) : ℚ) - 1 / 2 * ((y.count s.minLabel : Nat) : ℚ) + 1 / 2) = 0 := by
    rw [hl, hcount, hc, Nat.add_sub_cancel, sub_self]
    decide +kernel
  simp only [selectLabel_length hl, hN, if_true]
  split <;> rfl

/-! ### Samplers that change balanced data -/

def balX : List Row := [[0], [1], [2], [10], [9], [20], [21], [22]]
def balY : List Int := [0, 0, 0, 0, 1, 1, 1, 1]

theorem balY_balanced : Balanced balY := ⟨0, 1, by decide, by decide, by decide, by decide, by decide⟩

/-- Each theorem above is about data like these. -/
example : balX.length = balY.length ∧ Balanced balY := ⟨rfl, balY_balanced⟩

/-- The cleaning after SMOTE is done whether SMOTE added rows or not. -/
theorem C120_smoteTomek_not : ¬ KeepsBalanced (sample defaultChecks 1 (smoteTomekAlg exPar (fun _ => 1) exDraws 1 bruteKnn)) := by
  intro h
  have h1 := h balX balY rfl balY_balanced
  revert h1
  decide +kernel

theorem C120_smoteEnn_not : ¬ KeepsBalanced (sample defaultChecks 1 (smoteEnnAlg exPar (fun _ => 1) exDraws 1 bruteKnn)) := by
  intro h
  have h1 := h balX balY rfl balY_balanced
  revert h1
  decide +kernel

/-- SPY relabels majority rows of balanced data. -/
theorem C120_spy_not : ¬ KeepsBalanced (sample defaultChecks 1 (spyAlg (1 / 2) 5 bruteQuery)) := by
  intro h
  have h1 := h balX balY rfl balY_balanced
  revert h1
  decide +kernel

/-- Stefanowski never compares the sizes of the classes. -/
theorem C120_stefanowski_not (t : StefStrategy) : ¬ KeepsBalanced (sample defaultChecks 1 (stefanowskiAlg t bruteKnn)) := by
  intro h
  have h1 := h balX balY rfl balY_balanced
  revert h1
  cases t <;> decide +kernel

/-- And neither does AHC. -/
theorem C120_ahc_not (t : AhcStrategy) :
    ¬ KeepsBalanced (sample defaultChecks 1 (ahcAlg t (fun A => chainTree A.length) (fun n rows => rows.take n) 1000)) := by
  intro h
  have h1 := h balX balY rfl balY_balanced
  revert h1
  cases t <;> decide +kernel

/-- SSO makes a number of rows that does not depend on the sizes of the classes. -/
theorem C120_sso_not : ¬ KeepsBalanced (sample defaultChecks 1 (ssoAlg ssoEnv 1 3 2 2 1)) := by
  intro h
  have h1 := h balX balY rfl balY_balanced
  revert h1
  decide +kernel

/-! ### Doing it twice -/

/-- A result with as many minority rows as majority rows is balanced. -/
theorem balanced_of_extends {X : List Row} {y : List Int} {a b : Int} {n : Nat} {X' : List Row} {y' : List Int} (hmin : IsMinority y a b)
    (he : Extends X y a n X' y') (hc : y'.count a = y'.count b) : Balanced y' := by
  obtain ⟨new, _, rfl, _⟩ := he
  obtain ⟨ha, hb, hl, hlt⟩ := hmin
  have hne : a ≠ b := by
    rintro rfl
    omega
  refine ⟨a, b, hne, List.mem_append_left _ ha, List.mem_append_left _ hb, ?_, hc⟩
  intro l h
  rcases List.mem_append.1 h with h | h
  · exact hl l h
  · exact Or.inl (List.mem_replicate.1 h).2

/-- Oversampling data that SMOTE has balanced changes nothing, whichever of the samplers above does it. -/
theorem C120_after_smote {par : SmoteParams} {vol : List Row → ℚ} {dr : Draws} {d : Nat} {knn : Nat → List Row → List (List Nat)}
    {X : List Row} {y : List Int} {X' : List Row} {y' : List Int} {a b : Int} {g : List Row → List Int → Res (List Row × List Int)}
    (hwf : WF d X y) (hk : KnnOK knn) (hdr : dr.OK) (hmin : IsMinority y a b) (h2 : 2 < y.count a) (hp : par.proportion = 1)
    (h : smoteSample par vol dr d knn X y = .ok (X', y')) (hg : KeepsBalanced g) : g X' y' = .ok (X', y') := by
  obtain ⟨he, _, _⟩ := C02_smote_exact_count hwf hk hdr hmin h2 h
  refine hg X' y' ?_ (balanced_of_extends hmin he (C02_smote_balances hwf hk hdr hmin h2 hp h))
  obtain ⟨new, rfl, rfl, hn⟩ := he
  rw [List.length_append, List.length_append, List.length_replicate, hn, hwf.1]

/-- SMOTE with `proportion` 1 twice is SMOTE once, even when the second run has other parameters and draws other numbers. -/
theorem C120_smote_twice {par par' : SmoteParams} {vol vol' : List Row → ℚ} {dr dr' : Draws} {d : Nat}
    {knn knn' : Nat → List Row → List (List Nat)} (hk : KnnOK knn) (hdr : dr.OK) (hp : par.proportion = 1) :
    Idempotent d (smoteSample par vol dr d knn) (smoteSample par' vol' dr' d knn') := by
  intro X y a b X' y' hwf hmin h
  by_cases h2 : y.count a ≤ 2
  · rw [C04_smote_unchanged hmin (Or.inl h2)] at h
    obtain ⟨rfl, rfl⟩ := Prod.mk.inj (Except.ok.inj h)
    exact C04_smote_unchanged hmin (Or.inl h2)
  · exact C120_after_smote hwf hk hdr hmin (by omega) hp h (C120_smote par' vol' dr' d knn' defaultChecks d)

/-- With another `proportion` the second run goes on: three rows against seven, halfway each time. -/
theorem C120_smote_twice_proportion : ¬ Idempotent 1
    (smoteSample { exPar with proportion := 1 / 2 } (fun _ => 1) exDraws 1 exKnn)
    (smoteSample { exPar with proportion := 1 / 2 } (fun _ => 1) exDraws 1 exKnn) := by
  intro h
  have h1 := h [[0], [1], [2], [3], [4], [5], [6], [7], [8], [9]] [1, 1, 1, 0, 0, 0, 0, 0, 0, 0] 1 0
    [[0], [1], [2], [3], [4], [5], [6], [7], [8], [9], [3 / 5], [3 / 5]] [1, 1, 1, 0, 0, 0, 0, 0, 0, 0, 1, 1] (by decide)
    ⟨by decide, by decide, by decide, Or.inl (by decide)⟩ (by decide +kernel)
  revert h1
  decide +kernel

/-- Cleaning by Tomek links is not idempotent: removing a row makes new links. -/
theorem C120_tomek_twice_not : ¬ Idempotent 1 (tomekRemove .removeMajority bruteKnn) (tomekRemove .removeMajority bruteKnn) := by
  intro h
  have h1 := h [[0], [4], [6], [7], [20]] [0, 0, 0, 1, 1] 1 0 [[0], [4], [7], [20]] [0, 0, 1, 1] (by decide)
    ⟨by decide, by decide, by decide, Or.inl (by decide)⟩ (by decide +kernel)
  revert h1
  decide +kernel

/-- And neither is the edited nearest neighbour rule. -/
theorem C120_enn_twice_not : ¬ Idempotent 1 (ennRemove .both bruteKnn) (ennRemove .both bruteKnn) := by
  intro h
  have h1 := h [[3], [9], [11], [12], [31], [52], [57]] [1, 1, 0, 1, 0, 0, 0] 1 0 [[3], [9], [12], [31], [52], [57]] [1, 1, 1, 0, 0, 0]
    (by decide) ⟨by decide, by decide, by decide, Or.inl (by decide)⟩ (by decide +kernel)
  revert h1
  decide +kernel

/-- `C120_smote_twice` is about runs that add rows. -/
example : KnnOK exKnn ∧ exDraws.OK ∧ exPar.proportion = 1 ∧ WF 2 exX exY ∧ IsMinority exY 1 0 ∧
    ((smoteSample exPar (fun _ => 1) exDraws 2 exKnn exX exY).toOption.map (fun r => r.2.length)) = some 10 :=
  ⟨exKnn_ok, exDraws_ok, rfl, by decide, exY_min, by decide +kernel⟩

end Verif

import Verif.Model.Adg
import Verif.Model.Adoms
import Verif.Model.Amsr
import Verif.Model.Asmobd
import Verif.Model.Borderline
import Verif.Model.Ccr
import Verif.Model.CeNras
import Verif.Model.Clusters
import Verif.Model.Cure
import Verif.Model.Dbsmote
import Verif.Model.Deago
import Verif.Model.Dsrbf
import Verif.Model.GSmote
import Verif.Model.Gasmote
import Verif.Model.Interp
import Verif.Model.Kernel
import Verif.Model.Lee
import Verif.Model.Lle
import Verif.Model.LnSmote
import Verif.Model.Lvq
import Verif.Model.Mdo
import Verif.Model.MergeAlgs
import Verif.Model.Mot2ld
import Verif.Model.Msyn
import Verif.Model.Mwmote
import Verif.Model.Ndo
import Verif.Model.Oups
import Verif.Model.Pdfos
import Verif.Model.Polynom
import Verif.Model.ProWSyn
import Verif.Model.Pso
import Verif.Model.PsoBat
import Verif.Model.Regions
import Verif.Model.Rejection
import Verif.Model.Rsb
import Verif.Model.Selected
import Verif.Model.SlGraph
import Verif.Model.Smobd
import Verif.Model.Smote
import Verif.Model.SmoteD
import Verif.Model.SmoteOut
import Verif.Model.Smotewb
import Verif.Model.SnSmmo
import Verif.Model.SoiCj
import Verif.Model.Somo
import Verif.Model.Sso
import Verif.Model.Symprod
import Verif.Model.Trim
import Verif.Model.Vsynth
import Verif.Model.Weighted
import Verif.Lemmas.SamplerLength

/-!
# The sampling algorithms which return their input followed by new rows

For each algorithm, without assumptions on neighbour searches, clusterings, scalers or draws: whatever it returns consists of the data and
further rows with the label of the minority class.
-/

namespace Verif

/-- The result consists of the data and further rows with the label `m`. -/
def ExtendsData (X : List Row) (y : List Int) (m : Int) (out : List Row × List Int) : Prop :=
  ∃ S, out.1 = X ++ S ∧ out.2 = y ++ List.replicate S.length m

/-- Whenever the algorithm returns, it returns an extension of the data with rows of the minority class. -/
def AlgExtends (alg : Stats → List Row → List Int → Res (List Row × List Int)) : Prop :=
  ∀ s X y out, classLabelStatistics y = .ok s → alg s X y = .ok out → ExtendsData X y s.minLabel out

theorem extendsData_self (X : List Row) (y : List Int) (m : Int) : ExtendsData X y m (X, y) := ⟨[], by simp, by simp⟩

theorem extendsData_with (X S : List Row) (y : List Int) (m : Int) : ExtendsData X y m (withSamples X y m S) := ⟨S, rfl, rfl⟩

/-- The checks in front of the algorithm do not matter. -/
theorem sample_extends {alg : Stats → List Row → List Int → Res (List Row × List Int)} (ha : AlgExtends alg) {checks : List Check} {d : Nat}
    {X : List Row} {y : List Int} {s : Stats} {out : List Row × List Int} (hs : classLabelStatistics y = .ok s)
    (h : sample checks d alg X y = .ok out) : ExtendsData X y s.minLabel out := by
  unfold sample at h
  rw [hs, ok_bind] at h
  split at h
  · cases h
    exact extendsData_self _ _ _
  · exact ha s X y out hs h

macro "ext_end" h:ident : tactic => `(tactic| first
  | (cases $h:ident; done)
  | (cases $h:ident; exact extendsData_self _ _ _)
  | (cases $h:ident; exact extendsData_with _ _ _ _)
  | (cases $h:ident; exact ⟨_, rfl, rfl⟩))

macro "ext_tac" h:ident : tactic => `(tactic| (
  repeat' first
    | ext_end $h
    | (obtain ⟨_, _, $h⟩ := bind_ok.1 $h)
    | (dsimp only at $h:ident)
    | split at $h:ident))

theorem ssoLoop_extends {env : SsoEnv} {k h d : Nat} {a : Int} {q : Nat} : ∀ {fuel t : Nat} {X : List Row} {y : List Int}
    {out : List Row × List Int}, ssoLoop env k h d a q fuel t X y = .ok out → ExtendsData X y a out
  | 0, t, X, y, out, hok => by
    cases hok
    exact extendsData_self _ _ _
  | fuel + 1, t, X, y, out, hok => by
    unfold ssoLoop at hok
    obtain ⟨w, _, hok⟩ := bind_ok.1 hok
    obtain ⟨S, _, hok⟩ := bind_ok.1 hok
    obtain ⟨S', h1, h2⟩ := ssoLoop_extends hok
    exact ⟨S ++ S', by rw [h1, List.append_assoc],
      by rw [h2, List.append_assoc, List.length_append, List.replicate_add]⟩

theorem smoteAlg_extends (par : SmoteParams) (vol : List Row → ℚ) (dr : Draws) (d : Nat) (knn : Nat → List Row → List (List Nat)) :
    AlgExtends (smoteAlg par vol dr d knn) := by
  intro s X y out hs hok
  unfold smoteAlg at hok
  obtain ⟨n, hn, hok⟩ := bind_ok.1 hok
  split at hok
  · ext_end hok
  · obtain ⟨S, hS, hok⟩ := bind_ok.1 hok
    cases hok
    exact ⟨S, rfl, by rw [sampleSimplex_length hS]⟩

theorem smoteSample_extends {par : SmoteParams} {vol : List Row → ℚ} {dr : Draws} {d : Nat} {knn : Nat → List Row → List (List Nat)}
    {X : List Row} {y : List Int} {s : Stats} {out : List Row × List Int} (hs : classLabelStatistics y = .ok s)
    (h : smoteSample par vol dr d knn X y = .ok out) : ExtendsData X y s.minLabel out :=
  sample_extends (smoteAlg_extends par vol dr d knn) hs h

theorem borderline1Alg_extends (par : BorderParams) (vol : List Row → ℚ) (dr : Draws) (d : Nat)
    (knn : Nat → List Row → List Row → List (List Nat)) :
    AlgExtends (borderline1Alg par vol dr d knn) := by
  intro s X y out hs hok
  unfold borderline1Alg at hok
  ext_tac hok

theorem safeLevelAlg_extends (proportion : ℚ) (nNeighbors : Nat) (dr : SlDraws) (knn : Nat → List Row → List (List Nat)) :
    AlgExtends (safeLevelAlg proportion nNeighbors dr knn) := by
  intro s X y out hs hok
  unfold safeLevelAlg at hok
  ext_tac hok

theorem adasynAlg_extends (par : AdasynParams) (vol : List Row → ℚ) (dr : Draws) (d : Nat)
    (knn : Nat → List Row → List Row → List (List Nat)) :
    AlgExtends (adasynAlg par vol dr d knn) := by
  intro s X y out hs hok
  unfold adasynAlg at hok
  ext_tac hok

theorem adomsAlg_extends (proportion : ℚ) (nNeighbors : Nat) (pca : List Row → Row) (norm : Row → ℚ) (index nbIx : Nat → Nat → Nat)
    (rand : Nat → ℚ) (knn : Nat → List Row → List (List Nat)) :
    AlgExtends (adomsAlg proportion nNeighbors pca norm index nbIx rand knn) := by
  intro s X y out hs hok
  unfold adomsAlg at hok
  ext_tac hok

theorem andSmoteAlg_extends (par : NbParams) (vol : List Row → ℚ) (dr : Draws) (d : Nat)
    (knn : Nat → List Row → List Row → List (List Nat)) :
    AlgExtends (andSmoteAlg par vol dr d knn) := by
  intro s X y out hs hok
  unfold andSmoteAlg at hok
  ext_tac hok

theorem ansAlg_extends (par : NbParams) (vol : List Row → ℚ) (dr : Draws) (d : Nat) (knn : Nat → List Row → List Row → List (List Nat))
    (knnDist : Nat → List Row → List Row → List (List ℚ)) (radius : List Row → List Row → ℚ → List (List Nat)) :
    AlgExtends (ansAlg par vol dr d knn knnDist radius) := by
  intro s X y out hs hok
  unfold ansAlg at hok
  ext_tac hok

theorem asmobdAlg_extends (proportion : ℚ) (ss : SSParams) (par : AsmobdParams) (fitScaler : List Row → Row × Row) (sig : Option ℚ → ℚ)
    (optics : ℚ → Nat → List Row → Res (List XF × List XF)) (ball : List Row → Row → XF → List Nat) (vol : List Row → ℚ) (dr : Draws)
    (d : Nat) (knn : Nat → List Row → List (List Nat)) :
    AlgExtends (asmobdAlg proportion ss par fitScaler sig optics ball vol dr d knn) := by
  intro s X y out hs hok
  unfold asmobdAlg at hok
  ext_tac hok

theorem assembledAlg_extends (par : NbParams) (pop : Nat) (aligned : List Row → List Row → Bool) (vol : List Row → ℚ) (cu : Nat → ℚ)
    (drs : Nat → Draws) (d : Nat) (dist : Row → Row → ℚ) (knn : Nat → List Row → List Row → List (List Nat)) :
    AlgExtends (assembledAlg par pop aligned vol cu drs d dist knn) := by
  intro s X y out hs hok
  unfold assembledAlg at hok
  ext_tac hok

theorem borderline2Alg_extends (par : BorderParams) (vol : List Row → ℚ) (dr : Draws) (d : Nat)
    (knn : Nat → List Row → List Row → List (List Nat)) :
    AlgExtends (borderline2Alg par vol dr d knn) := by
  intro s X y out hs hok
  unfold borderline2Alg at hok
  ext_tac hok

theorem cbsoAlg_extends (par : NbParams) (cp : ℚ) (vol : List Row → ℚ) (cu : Nat → ℚ) (drs : Nat → Draws) (d : Nat) (dist : Row → Row → ℚ)
    (knn : Nat → List Row → List Row → List (List Nat)) :
    AlgExtends (cbsoAlg par cp vol cu drs d dist knn) := by
  intro s X y out hs hok
  unfold cbsoAlg at hok
  ext_tac hok

theorem ccrAlg_extends (proportion E : ℚ) (dr : CcrDraws) :
    AlgExtends (ccrAlg proportion E dr) := by
  intro s X y out hs hok
  unfold ccrAlg at hok
  ext_tac hok

theorem ceSmoteAlg_extends (par : CeParams) (vol : List Row → ℚ) (dr : Draws) (d : Nat) (clusterings : List Row → List (List Int))
    (knn : Nat → List Row → List Row → List (List Nat)) :
    AlgExtends (ceSmoteAlg par vol dr d clusterings knn) := by
  intro s X y out hs hok
  unfold ceSmoteAlg at hok
  ext_tac hok

theorem clusterSmoteAlg_extends (par : NbParams) (nClusters : Nat) (vol : List Row → ℚ) (pick : Nat → Nat → List Nat) (drs : Nat → Draws)
    (d : Nat) (kmeans : Nat → List Row → List Int) (knn : Nat → List Row → List Row → List (List Nat)) :
    AlgExtends (clusterSmoteAlg par nClusters vol pick drs d kmeans knn) := by
  intro s X y out hs hok
  unfold clusterSmoteAlg at hok
  ext_tac hok

theorem cureSmoteAlg_extends (par : CureParams) (fitScaler : List Row → Row × Row) (small : Nat → List Nat → Nat) (dist : Row → Row → ℚ)
    (vol : List Row → ℚ) (pick : Nat → Nat → List Nat) (drs : Nat → Draws) (d : Nat) :
    AlgExtends (cureSmoteAlg par fitScaler small dist vol pick drs d) := by
  intro s X y out hs hok
  unfold cureSmoteAlg at hok
  ext_tac hok

theorem dbsmoteAlg_extends (par : DbParams) (fitScaler : List Row → Row × Row) (dbscan : List Row → ℚ → Int → Res (List Int))
    (nn : ClusterNN) (dr : DbDraws) :
    AlgExtends (dbsmoteAlg par fitScaler dbscan nn dr) := by
  intro s X y out hs hok
  unfold dbsmoteAlg at hok
  ext_tac hok

theorem deagoAlg_extends (par : DeagoParams) (fitScaler : List Row → Row × Row)
    (fit : (units epochs : Nat) → (train : List Row) → (val : Option (List Row)) → DeagoNet) (vol : List Row → ℚ) (dr : Draws) (d : Nat)
    (knn : Nat → List Row → List (List Nat)) :
    AlgExtends (deagoAlg par fitScaler fit vol dr d knn) := by
  intro s X y out hs hok
  unfold deagoAlg at hok
  ext_tac hok

theorem distanceSmoteAlg_extends (par : NbParams) (vol : List Row → ℚ) (dr : Draws) (d : Nat)
    (knn : Nat → List Row → List Row → List (List Nat)) :
    AlgExtends (distanceSmoteAlg par vol dr d knn) := by
  intro s X y out hs hok
  unfold distanceSmoteAlg at hok
  ext_tac hok

theorem edgeDetAlg_extends (par : NbParams) (sqrt : ℚ → ℚ) (vol : List Row → ℚ) (dr : Draws) (d : Nat)
    (knn : Nat → List Row → List Row → List (List Nat)) :
    AlgExtends (edgeDetAlg par sqrt vol dr d knn) := by
  intro s X y out hs hok
  unfold edgeDetAlg at hok
  ext_tac hok

theorem gsmoteAlg_extends (par : NbParams) (angles : List Row → List (List Nat) → Res (List (List ℚ))) (argsort : List ℚ → List Nat)
    (vol : List Row → ℚ) (dr : Draws) (d : Nat) (knn : Nat → List Row → List Row → List (List Nat)) :
    AlgExtends (gsmoteAlg par angles argsort vol dr d knn) := by
  intro s X y out hs hok
  unfold gsmoteAlg at hok
  ext_tac hok

theorem gaussianSmoteAlg_extends (par : NbParams) (fitScaler : List Row → Row × Row) (vol : List Row → ℚ) (dr : Draws) (d : Nat)
    (knn : Nat → List Row → List Row → List (List Nat)) :
    AlgExtends (gaussianSmoteAlg par fitScaler vol dr d knn) := by
  intro s X y out hs hok
  unfold gaussianSmoteAlg at hok
  ext_tac hok

theorem polynomAlg_extends (proportion : ℚ) (t : Topology) (d : Nat) :
    AlgExtends (polynomAlg proportion t d) := by
  intro s X y out hs hok
  unfold polynomAlg at hok
  ext_tac hok

theorem meshAlg_extends (proportion : ℚ) (ss : SSParams) (vol : List Row → ℚ) (dr : Draws) (nb : Nat → Nat → Nat) (d : Nat) :
    AlgExtends (meshAlg proportion ss vol dr nb d) := by
  intro s X y out hs hok
  unfold meshAlg at hok
  ext_tac hok

theorem kmeansSmoteAlg_extends (par : NbParams) (nClusters : Nat) (irt : ℚ) (vol : List Row → ℚ) (cu : Nat → ℚ) (drs : Nat → Draws)
    (d : Nat) (kmeans : Nat → List Row → List Int) (pdist : Row → Row → ℚ) (knn : Nat → List Row → List Row → List (List Nat)) :
    AlgExtends (kmeansSmoteAlg par nClusters irt vol cu drs d kmeans pdist knn) := by
  intro s X y out hs hok
  unfold kmeansSmoteAlg at hok
  ext_tac hok

theorem lnSmoteAlg_extends (proportion : ℚ) (nNeighbors : Nat) (ix : Nat → Nat → Nat) (gap : Nat → Nat → ℚ)
    (knn : Nat → List Row → List (List Nat)) :
    AlgExtends (lnSmoteAlg proportion nNeighbors ix gap knn) := by
  intro s X y out hs hok
  unfold lnSmoteAlg at hok
  ext_tac hok

theorem lvqAlg_extends (proportion : ℚ) (nNeighbors nClusters : Nat) (kmeans : Nat → List Row → List Row) (norm : Row → ℚ)
    (codes : Nat → Nat → Nat × Nat) (coin : Nat → Nat → Nat → Bool) (pos : Nat → Nat → Nat)
    (knn : Nat → List Row → List Row → List (List Nat)) :
    AlgExtends (lvqAlg proportion nNeighbors nClusters kmeans norm codes coin pos knn) := by
  intro s X y out hs hok
  unfold lvqAlg at hok
  ext_tac hok

theorem mctAlg_extends (par : NbParams) (dist : Row → Row → ℚ) (vol : List Row → ℚ) (dr : Draws) (d : Nat)
    (knn : Nat → List Row → List Row → List (List Nat)) :
    AlgExtends (mctAlg par dist vol dr d knn) := by
  intro s X y out hs hok
  unfold mctAlg at hok
  ext_tac hok

theorem msynAlg_extends (par : SmoteParams) (dist : Row → Row → ℚ) (vol : List Row → ℚ) (dr : Draws) (d : Nat)
    (knn : Nat → List Row → List (List Nat)) :
    AlgExtends (msynAlg par dist vol dr d knn) := by
  intro s X y out hs hok
  unfold msynAlg at hok
  obtain ⟨n, hn, hok⟩ := bind_ok.1 hok
  split at hok
  · ext_end hok
  · obtain ⟨res, _, hok⟩ := bind_ok.1 hok
    obtain ⟨hm, _, hok⟩ := bind_ok.1 hok
    dsimp only at hok
    split at hok
    · cases hok
    · obtain ⟨rows, hrows, hok⟩ := bind_ok.1 hok
      cases hok
      exact ⟨rows, rfl, by rw [mapM_ok_length hrows]⟩

theorem mwmoteAlg_extends (par : MwParams) (vol : List Row → ℚ) (cu : Nat → ℚ) (drs : Nat → Draws) (d : Nat)
    (kmeans : Nat → List Row → List Int) (dist : Row → Row → ℚ) (knn : Nat → List Row → List Row → List (List Nat)) :
    AlgExtends (mwmoteAlg par vol cu drs d kmeans dist knn) := by
  intro s X y out hs hok
  unfold mwmoteAlg at hok
  ext_tac hok

theorem ndoAlg_extends (par : SmoteParams) (T : ℚ) (dist : Row → Row → ℚ) (vol : List Row → ℚ) (dr : Draws) (d : Nat)
    (pick nbr : Nat → Nat → Nat) (u : Nat → Nat → ℚ) (query : Nat → List Row → List Row → List (List Nat))
    (knn : Nat → List Row → List (List Nat)) :
    AlgExtends (ndoAlg par T dist vol dr d pick nbr u query knn) := by
  intro s X y out hs hok
  unfold ndoAlg at hok
  repeat' first
    | exact smoteSample_extends hs hok
    | ext_end hok
    | (obtain ⟨_, _, hok⟩ := bind_ok.1 hok)
    | (dsimp only at hok)
    | split at hok

theorem nrsAlg_extends (par : NrsParams) (dist : Row → Row → ℚ) (radius : List Row → Row → ℚ → List Nat) (vol : List Row → ℚ)
    (drs : Nat → Draws) (d : Nat) (knn : Nat → List Row → List Row → List (List Nat)) :
    AlgExtends (nrsAlg par dist radius vol drs d knn) := by
  intro s X y out hs hok
  unfold nrsAlg at hok
  ext_tac hok

theorem ntSmoteAlg_extends (par : NbParams) (vol : List Row → ℚ) (dr : Draws) (d : Nat)
    (knn : Nat → List Row → List Row → List (List Nat)) :
    AlgExtends (ntSmoteAlg par vol dr d knn) := by
  intro s X y out hs hok
  unfold ntSmoteAlg at hok
  ext_tac hok

theorem oupsAlg_extends (par : NbParams) (sorting : List Row → List Int → List Nat) (vol : List Row → ℚ) (dr : Draws) (d : Nat) :
    AlgExtends (oupsAlg par sorting vol dr d) := by
  intro s X y out hs hok
  unfold oupsAlg at hok
  ext_tac hok

theorem pdAlg_extends (env : PdEnv) (proportion : ℚ) (d : Nat) :
    AlgExtends (pdAlg env proportion d) := by
  intro s X y out hs hok
  unfold pdAlg at hok
  ext_tac hok

theorem prowsynAlg_extends (par : ProParams) (vol : List Row → ℚ) (clusterU : Nat → ℚ) (dr : Nat → Draws) (d : Nat)
    (knn : Nat → List Row → List Row → List (List Nat)) :
    AlgExtends (prowsynAlg par vol clusterU dr d knn) := by
  intro s X y out hs hok
  unfold prowsynAlg at hok
  ext_tac hok

theorem randomSmoteAlg_extends (proportion : ℚ) (nNeighbors : Nat) (dr : RsDraws) (knn : Nat → List Row → List (List Nat)) :
    AlgExtends (randomSmoteAlg proportion nNeighbors dr knn) := by
  intro s X y out hs hok
  unfold randomSmoteAlg at hok
  ext_tac hok

theorem roseAlg_extends (proportion : ℚ) (std : List ℚ → ℚ) (width : Nat → Nat → ℚ) (ix : Nat → Nat → Nat → Nat) (normal : Nat → Nat → ℚ)
    (d : Nat) :
    AlgExtends (roseAlg proportion std width ix normal d) := by
  intro s X y out hs hok
  unfold roseAlg at hok
  ext_tac hok

theorem rwoAlg_extends (par : NbParams) (colStd : List Row → Nat → ℚ) (vol : List Row → ℚ) (dr : Draws) (walkU : Nat → Nat → ℚ) (d : Nat)
    (knn : Nat → List Row → List Row → List (List Nat)) :
    AlgExtends (rwoAlg par colStd vol dr walkU d knn) := by
  intro s X y out hs hok
  unfold rwoAlg at hok
  ext_tac hok

theorem sdsmoteAlg_extends (par : NbParams) (vol : List Row → ℚ) (dr : Draws) (d : Nat)
    (knn : Nat → List Row → List Row → List (List Nat)) (knnDist : Nat → List Row → List Row → List (List ℚ))
    (radius : List Row → List Row → ℚ → List (List Nat)) :
    AlgExtends (sdsmoteAlg par vol dr d knn knnDist radius) := by
  intro s X y out hs hok
  unfold sdsmoteAlg at hok
  ext_tac hok

theorem selectedAlg_extends (proportion : ℚ) (nNeighbors : Nat) (share : ℚ) (ix : Nat → Nat → Nat → Nat) (un : Nat → Nat → ℚ) (d : Nat)
    (knn : Nat → List Row → List Row → List (List Nat)) :
    AlgExtends (selectedAlg proportion nNeighbors share ix un d knn) := by
  intro s X y out hs hok
  unfold selectedAlg at hok
  ext_tac hok

theorem slGraphAlg_extends (proportion : ℚ) (nNeighbors : Nat) (ss : SSParams) (vol : List Row → ℚ) (slDr : SlDraws) (dr : Draws)
    (d : Nat) (knn : Nat → List Row → List Row → List (List Nat)) :
    AlgExtends (slGraphAlg proportion nNeighbors ss vol slDr dr d knn) := by
  intro s X y out hs hok
  unfold slGraphAlg at hok
  obtain ⟨n, hn, hok⟩ := bind_ok.1 hok
  split at hok
  · ext_end hok
  · obtain ⟨sums, _, hok⟩ := bind_ok.1 hok
    split at hok
    · exact sample_extends (safeLevelAlg_extends _ _ _ _) hs hok
    · exact sample_extends (borderline1Alg_extends _ _ _ _ _) hs hok

theorem smmoAlg_extends (par : NbParams) (predict : List Row → List Int → List (List Int)) (vol : List Row → ℚ)
    (pick : Nat → Nat → List Nat) (drs : Nat → Draws) (d : Nat) (knn : Nat → List Row → List Row → List (List Nat)) :
    AlgExtends (smmoAlg par predict vol pick drs d knn) := by
  intro s X y out hs hok
  unfold smmoAlg at hok
  ext_tac hok

theorem smobdAlg_extends (proportion eta1 t : ℚ) (minSamples : Nat) (optics : Nat → List Row → Res (List XF × List XF))
    (radius : List Row → List Nat) (baseU : Nat → ℚ) (ix : Nat → Nat → Nat) (gap : Nat → Nat → ℚ) (knn : Nat → List Row → List (List Nat)) :
    AlgExtends (smobdAlg proportion eta1 t minSamples optics radius baseU ix gap knn) := by
  intro s X y out hs hok
  unfold smobdAlg at hok
  ext_tac hok

theorem smoteCosineAlg_extends (proportion : ℚ) (nNeighbors : Nat) (ix : Nat → Nat → Nat → Nat) (un : Nat → Nat → Nat → ℚ)
    (knn cosKnn : Nat → List Row → List Row → List (List Nat)) (argsort : List ℚ → List Nat) :
    AlgExtends (smoteCosineAlg proportion nNeighbors ix un knn cosKnn argsort) := by
  intro s X y out hs hok
  unfold smoteCosineAlg at hok
  ext_tac hok

theorem smoteDAlg_extends (proportion : ℚ) (k : Nat) (std : List ℚ → XF) (u : Nat → Nat → Nat → ℚ)
    (knn : Nat → List Row → List (List Nat)) (knnDist : Nat → List Row → List (List ℚ)) :
    AlgExtends (smoteDAlg proportion k std u knn knnDist) := by
  intro s X y out hs hok
  unfold smoteDAlg at hok
  ext_tac hok

theorem smoteOutAlg_extends (proportion : ℚ) (nNeighbors : Nat) (ix : Nat → Nat → Nat → Nat) (un : Nat → Nat → Nat → ℚ)
    (knn : Nat → List Row → List Row → List (List Nat)) :
    AlgExtends (smoteOutAlg proportion nNeighbors ix un knn) := by
  intro s X y out hs hok
  unfold smoteOutAlg at hok
  ext_tac hok

theorem rsbAlg_extends (levels : List ℚ) (par : SmoteParams) (vol : List Row → ℚ) (dr : Draws) (d : Nat)
    (knn : Nat → List Row → List (List Nat)) :
    AlgExtends (rsbAlg levels par vol dr d knn) := by
  intro s X y out hs hok
  unfold rsbAlg at hok
  ext_tac hok

theorem snSmoteAlg_extends (par : NbParams) (dist : Row → Row → ℚ) (vol : List Row → ℚ) (pick : Nat → Nat → List Nat) (drs : Nat → Draws)
    (d : Nat) (knn : Nat → List Row → List Row → List (List Nat)) :
    AlgExtends (snSmoteAlg par dist vol pick drs d knn) := by
  intro s X y out hs hok
  unfold snSmoteAlg at hok
  ext_tac hok

theorem soiAlg_extends (par : NbParams) (method : SoiMethod) (env : SoiEnv) (vol : List Row → ℚ) (fuel d : Nat) :
    AlgExtends (soiAlg par method env vol fuel d) := by
  intro s X y out hs hok
  unfold soiAlg at hok
  ext_tac hok

theorem somoAlg_extends (par : NbParams) (som : List Row → Row → MapCell) (pdist : Row → Row → ℚ) (vol : List Row → ℚ) (cu cu' : Nat → ℚ)
    (drs drs' : Nat → Draws) (d : Nat) :
    AlgExtends (somoAlg par som pdist vol cu cu' drs drs' d) := by
  intro s X y out hs hok
  unfold somoAlg at hok
  ext_tac hok

theorem ssoAlg_extends (env : SsoEnv) (proportion : ℚ) (k h nIter d : Nat) :
    AlgExtends (ssoAlg env proportion k h nIter d) := by
  intro s X y out hs hok
  unfold ssoAlg at hok
  obtain ⟨n, hn, hok⟩ := bind_ok.1 hok
  exact ssoLoop_extends hok

theorem supervisedAlg_extends (par : SupParams) (prob : List Row → List Int → Row → ℚ) (vol : List Row → ℚ) (drs : Nat → Draws) (d : Nat) :
    AlgExtends (supervisedAlg par prob vol drs d) := by
  intro s X y out hs hok
  unfold supervisedAlg at hok
  ext_tac hok

theorem syAlg_extends (env : SyEnv) (par : SyParams) (d : Nat) :
    AlgExtends (syAlg env par d) := by
  intro s X y out hs hok
  unfold syAlg syTry at hok
  ext_tac hok

theorem trimSmoteAlg_extends (par : TrimParams) (vol : List Row → ℚ) (dr : Draws) (d : Nat)
    (knn : Nat → List Row → List Row → List (List Nat)) :
    AlgExtends (trimSmoteAlg par vol dr d knn) := by
  intro s X y out hs hok
  unfold trimSmoteAlg at hok
  ext_tac hok

theorem vsAlg_extends (env : VsEnv) (par : VsParams) (d : Nat) :
    AlgExtends (vsAlg env par d) := by
  intro s X y out hs hok
  unfold vsAlg at hok
  ext_tac hok
  cases hok
  exact ⟨_, rfl, by rw [List.length_map]⟩

theorem msmoteAlg_extends (proportion : ℚ) (nNeighbors : Nat) (dr : MsDraws) (knn : Nat → List Row → List Row → List (List Nat)) :
    AlgExtends (msmoteAlg proportion nNeighbors dr knn) := by
  intro s X y out hs hok
  unfold msmoteAlg at hok
  ext_tac hok

theorem amsrAlg_extends (env : AmsrEnv) (proportion : ℚ) (top : AmsrTopology) (d : Nat) :
    AlgExtends (amsrAlg env proportion top d) := by
  intro s X y out hs hok
  unfold amsrAlg at hok
  ext_tac hok

theorem wbAlg_extends (env : WbEnv) (par : WbParams) (vol : List Row → ℚ) (dr : Draws) (d : Nat) :
    AlgExtends (wbAlg env par vol dr d) := by
  intro s X y out hs hok
  unfold wbAlg wbSmote at hok
  repeat' first
    | exact smoteSample_extends hs hok
    | ext_end hok
    | (obtain ⟨_, _, hok⟩ := bind_ok.1 hok)
    | (dsimp only at hok)
    | split at hok

theorem lleAlg_extends (par : NbParams) (nComp : Nat) (lle : Nat → Nat → List Row → List Row) (solve : List Row → Row → Option Row)
    (vol : List Row → ℚ) (dr : Draws) (d : Nat) (knn : Nat → List Row → List Row → List (List Nat)) :
    AlgExtends (lleAlg par nComp lle solve vol dr d knn) := by
  intro s X y out hs hok
  unfold lleAlg at hok
  ext_tac hok

theorem mdoAlg_extends (proportion : ℚ) (k2 : Nat) (frac : ℚ) (pca : Nat → List Row → List Row) (sqrt : ℚ → ℚ) (pick : Nat → ℚ)
    (u : Nat → Nat → ℚ) (knn : Nat → List Row → List Row → List (List Nat)) (d : Nat) :
    AlgExtends (mdoAlg proportion k2 frac pca sqrt pick u knn d) := by
  intro s X y out hs hok
  unfold mdoAlg at hok
  ext_tac hok

theorem gaAlg_extends (env : GaEnv) (par : GaParams) (vol : List Row → ℚ) (d : Nat) :
    AlgExtends (gaAlg env par vol d) := by
  intro s X y out hs hok
  unfold gaAlg at hok
  ext_tac hok

theorem psoAlg_extends (env : PsoEnv) (par : PsoParams) :
    AlgExtends (psoAlg env par) := by
  intro s X y out hs hok
  unfold psoAlg at hok
  ext_tac hok

theorem psobatAlg_extends (env : PbEnv) (par : PbParams) (hi0 : Nat) (ss : SSParams) (vol : List Row → ℚ) (dr : Draws) (d : Nat)
    (knn : Nat → List Row → List (List Nat)) :
    AlgExtends (psobatAlg env par hi0 ss vol dr d knn) := by
  intro s X y out hs hok
  unfold psobatAlg at hok
  obtain ⟨_, _, hok⟩ := bind_ok.1 hok
  exact smoteSample_extends hs hok

end Verif

import Verif.Lemmas.Rename
import Verif.Model.Asmobd
import Verif.Model.Borderline
import Verif.Model.CeNras
import Verif.Model.Cleaning
import Verif.Model.Clusters
import Verif.Model.Distances
import Verif.Model.Interp
import Verif.Model.Lee
import Verif.Model.LnSmote
import Verif.Model.MergeAlgs
import Verif.Model.Mot2ld
import Verif.Model.Msyn
import Verif.Model.Mwmote
import Verif.Model.Noise
import Verif.Model.Regions
import Verif.Model.Somo
import Verif.Model.SmoteOut


/-!
# Lemmas: the helpers of the oversamplers and renamed classes
-/

namespace Verif

variable {f : Int → Int}

theorem beq_rename (hf : Function.Injective f) (a b : Int) : (f a == f b) = (a == b) := by
  rw [Bool.eq_iff_iff, beq_iff_eq, beq_iff_eq, hf.eq_iff]

theorem bne_rename (hf : Function.Injective f) (a b : Int) : (f a != f b) = (a != b) := by
  rw [bne, bne, beq_rename hf]

theorem mapM_getRow_rename {α β : Type} (g : α → β) (y : List α) (idx : List Nat) :
    idx.mapM (getRow (y.map g)) = (fun l => l.map g) <$> idx.mapM (getRow y) :=
  takeRows_rename g y idx

theorem lnGap_rename (hf : Function.Injective f) (m : Int) (a b : Int) (l : Int) (k : Nat) (u : ℚ) : lnGap (f m) a b (f l) k u = lnGap m a b l k u := by
  unfold lnGap
  simp only [ne_eq, hf.eq_iff]

theorem neighborMode_rename (hf : StrictMono f) (indices : List (List Nat)) (y : List Int) (i : Nat) :
    neighborMode indices (y.map f) i = f <$> neighborMode indices y i := by
  unfold neighborMode
  simp only [takeRows_rename, bind_map_left, pyMode_rename hf, map_bind]

theorem applies_rename (hf : Function.Injective f) (r : EnnRemove) {s s' : Stats} (h : StatsRenamed f s s') (l : Int) :
    r.applies s' (f l) = r.applies s l := by
  cases r <;> simp only [EnnRemove.applies, h.minLabel, h.majLabel, hf.eq_iff]

theorem tomekLinks_rename (hf : Function.Injective f) (indices : List (List Nat)) (y : List Int) :
    tomekLinks indices (y.map f) = tomekLinks indices y := by
  unfold tomekLinks
  simp only [bind_map_left, getRow_rename, hf.eq_iff]

theorem tomekStep_rename (hf : Function.Injective f) (strategy : TomekStrategy) (minLabel : Int) (y : List Int) :
    tomekStep strategy (f minLabel) (y.map f) = tomekStep strategy minLabel y := by
  funext z0
  unfold tomekStep
  simp only [bind_map_left, getRow_rename, hf.eq_iff]

theorem tomekToRemove_rename (hf : Function.Injective f) (strategy : TomekStrategy) (minLabel : Int) (y : List Int) :
    tomekToRemove strategy (f minLabel) (y.map f) = tomekToRemove strategy minLabel y := by
  funext z0
  unfold tomekToRemove
  simp only [tomekStep_rename hf]

theorem ennToRemove_rename (hf : StrictMono f) (r : EnnRemove) (s : Stats) (indices : List (List Nat)) (y : List Int) {s' : Stats} (h : StatsRenamed f s s') :
    ennToRemove r s' indices (y.map f) = ennToRemove r s indices y := by
  funext z0
  unfold ennToRemove
  have hi := hf.injective
  simp only [bind_map_left, getRow_rename, hi.eq_iff, applies_rename hi (h := h), neighborMode_rename hf]

theorem ncrToRemove_rename (hf : StrictMono f) (s : Stats) (indices : List (List Nat)) (y : List Int) {s' : Stats} (h : StatsRenamed f s s') :
    ncrToRemove s' indices (y.map f) = ncrToRemove s indices y := by
  funext z0
  unfold ncrToRemove
  have hi := hf.injective
  simp only [bind_map_left, getRow_rename, hi.eq_iff, h.minLabel, h.majLabel, neighborMode_rename hf]

theorem asmobdRatio_rename (hf : Function.Injective f) (ball : List Row → Row → XF → List Nat) (Z : List Row) (y : List Int) (majLabel : Int) :
    asmobdRatio ball Z (y.map f) (f majLabel) = asmobdRatio ball Z y majLabel := by
  funext z0 z1
  unfold asmobdRatio
  simp only [bind_map_left, mapM_getRow_rename, count_map_inj hf]

theorem asmobdRound_rename (hf : Function.Injective f) (sig : Option ℚ → ℚ) (optics : ℚ → Nat → List Row → Res (List XF × List XF)) (ball : List Row → Row → XF → List Nat) (Z : List Row) (y : List Int) (majLabel : Int) :
    asmobdRound sig optics ball Z (y.map f) (f majLabel) = asmobdRound sig optics ball Z y majLabel := by
  funext z0 z1 z2
  unfold asmobdRound
  simp only [asmobdRatio_rename hf]

theorem adasynRatio_rename (hf : Function.Injective f) (y : List Int) (maj : Int) :
    adasynRatio (y.map f) (f maj) = adasynRatio y maj := by
  funext z0 z1
  unfold adasynRatio
  simp only [bind_map_left, takeRows_rename, count_map_inj hf]

theorem borderKind_rename (hf : StrictMono f) (k : Nat) (y : List Int) (maj : Int) :
    borderKind k (y.map f) (f maj) = borderKind k y maj := by
  funext z0
  unfold borderKind
  have hi := hf.injective
  simp only [bind_map_left, takeRows_rename, count_map_inj hi, hi.eq_iff, pyMode_rename hf]

theorem dangerRemoveNoise_rename (hf : StrictMono f) (knn : Nat → List Row → List Row → List (List Nat)) (nNeighbors : Nat) (X : List Row) (y : List Int) (Xmin : List Row) (maj : Int) :
    dangerRemoveNoise knn nNeighbors X (y.map f) Xmin (f maj) = dangerRemoveNoise knn nNeighbors X y Xmin maj := by
  unfold dangerRemoveNoise
  have hi := hf.injective
  simp only [borderKind_rename hf]

theorem nrasNoise_rename (hf : Function.Injective f) (t : ℚ) (k : Nat) (y : List Int) (minL : Int) :
    nrasNoise t k (y.map f) (f minL) = nrasNoise t k y minL := by
  funext z0
  unfold nrasNoise
  simp only [bind_map_left, takeRows_rename, count_map_inj hf]

theorem majorityAmong_rename (hf : Function.Injective f) (y : List Int) (maj : Int) :
    majorityAmong (y.map f) (f maj) = majorityAmong y maj := by
  funext z0
  unfold majorityAmong
  simp only [bind_map_left, takeRows_rename, hf.eq_iff, List.zip_map_right, List.filter_map, List.map_map, Prod.map_fst, Prod.map_snd,
    id_eq, Function.comp_def]

theorem spyFlips_rename (hf : Function.Injective f) (threshold : ℚ) (k : Nat) (y : List Int) (maj : Int) :
    spyFlips threshold k (y.map f) (f maj) = spyFlips threshold k y maj := by
  funext z0
  unfold spyFlips
  simp only [majorityAmong_rename hf]

theorem safeFlags_rename (hf : StrictMono f) (indices : List (List Nat)) (y : List Int) :
    safeFlags indices (y.map f) = safeFlags indices y := by
  unfold safeFlags
  have hi := hf.injective
  simp only [bind_map_left, getRow_rename, hi.eq_iff, List.length_map, neighborMode_rename hf]

theorem copiesOf_rename (hf : Function.Injective f) (indices : List (List Nat)) (y : List Int) (safe : List Bool) (maj : Int) :
    copiesOf indices (y.map f) safe (f maj) = copiesOf indices y safe maj := by
  funext z0
  unfold copiesOf
  simp only [majorityAmong_rename hf]

theorem createMultiples_rename (hf : Function.Injective f) (X : List Row) (indices : List (List Nat)) (y : List Int) (safe : List Bool) (maj : Int) :
    createMultiples X indices (y.map f) safe (f maj) = createMultiples X indices y safe maj := by
  funext z0
  unfold createMultiples
  simp only [copiesOf_rename hf]

theorem weakAmp_rename (hf : Function.Injective f) (X : List Row) (indices : List (List Nat)) (y : List Int) (safe : List Bool) (s : Stats) {s' : Stats} (h : StatsRenamed f s s') :
    weakAmp X indices (y.map f) safe s' = weakAmp X indices y safe s := by
  unfold weakAmp
  simp only [labelPositions_rename hf, createMultiples_rename hf, h.minLabel, h.majLabel]

theorem relabelled_rename (hf : StrictMono f) (indices : List (List Nat)) (y : List Int) (safe : List Bool) (s : Stats) {s' : Stats} (h : StatsRenamed f s s') :
    relabelled indices (y.map f) safe s' = relabelled indices y safe s := by
  unfold relabelled
  have hi := hf.injective
  simp only [labelPositions_rename hi, majorityAmong_rename hi, h.minLabel, h.majLabel]

theorem strongCorrect_rename (hf : StrictMono f) (indices5 : List (List Nat)) (y : List Int) (minLabel : Int) :
    strongCorrect indices5 (y.map f) (f minLabel) = strongCorrect indices5 y minLabel := by
  funext z0
  unfold strongCorrect
  have hi := hf.injective
  simp only [bind_map_left, mapM_rename, ← map_bind, getRow_rename, hi.eq_iff, pyMode_rename hf]

theorem strongAmp_rename (hf : StrictMono f) (X : List Row) (indices indices5 : List (List Nat)) (y : List Int) (safe : List Bool) (s : Stats) {s' : Stats} (h : StatsRenamed f s s') :
    strongAmp X indices indices5 (y.map f) safe s' = strongAmp X indices indices5 y safe s := by
  unfold strongAmp
  have hi := hf.injective
  simp only [labelPositions_rename hi, createMultiples_rename hi, strongCorrect_rename hf, h.minLabel, h.majLabel]

theorem StefStrategy.samples_rename (hf : StrictMono f) (st : StefStrategy) (X : List Row) (indices indices5 : List (List Nat)) (y : List Int) (safe : List Bool) (s : Stats) {s' : Stats} (h : StatsRenamed f s s') :
    StefStrategy.samples st X indices indices5 (y.map f) safe s' = StefStrategy.samples st X indices indices5 y safe s := by
  unfold StefStrategy.samples
  have hi := hf.injective
  simp only [weakAmp_rename hi (h := h), strongAmp_rename hf (h := h)]

theorem StefStrategy.flips_rename (hf : StrictMono f) (st : StefStrategy) (indices : List (List Nat)) (y : List Int) (safe : List Bool) (s : Stats) {s' : Stats} (h : StatsRenamed f s s') :
    StefStrategy.flips st indices (y.map f) safe s' = StefStrategy.flips st indices y safe s := by
  unfold StefStrategy.flips
  have hi := hf.injective
  simp only [relabelled_rename hf (h := h)]

theorem clusterAccepted_rename (hf : Function.Injective f) (irt : ℚ) (maj min : Int) (labels : List Int) :
    clusterAccepted irt (f maj) (f min) (labels.map f) = clusterAccepted irt maj min labels := by
  unfold clusterAccepted
  simp only [count_map_inj hf]

theorem kmClusters_rename (hf : Function.Injective f) (n : Nat) (irt : ℚ) (maj min : Int) (y : List Int) :
    kmClusters n irt (f maj) (f min) (y.map f) = kmClusters n irt maj min y := by
  funext z0
  unfold kmClusters
  simp only [bind_map_left, takeRows_rename, clusterAccepted_rename hf]

theorem clusterMinority_rename (hf : Function.Injective f) (y : List Int) (min : Int) :
    clusterMinority (y.map f) (f min) = clusterMinority y min := by
  funext z0
  unfold clusterMinority
  simp only [selectLabel_rename hf, bind_map_left, takeRows_rename]

theorem allLabels_rename (hf : Function.Injective f) (y : List Int) (label : Int) :
    allLabels (y.map f) (f label) = allLabels y label := by
  funext z0
  unfold allLabels
  simp only [getElem?_rename hf]

theorem msType_rename (hf : Function.Injective f) (minLabel : Int) (k : Nat) (labels : List Int) :
    msType (f minLabel) k (labels.map f) = msType minLabel k labels := by
  unfold msType
  simp only [count_map_inj hf]

theorem msTypeOf_rename (hf : Function.Injective f) (minLabel : Int) (k : Nat) (y : List Int) :
    msTypeOf (f minLabel) k (y.map f) = msTypeOf minLabel k y := by
  funext z0
  unfold msTypeOf
  simp only [bind_map_left, takeRows_rename, msType_rename hf]

theorem safeLevel_rename (hf : Function.Injective f) (minLabel : Int) (y : List Int) :
    safeLevel (f minLabel) (y.map f) = safeLevel minLabel y := by
  funext z0
  unfold safeLevel
  simp only [bind_map_left, takeRows_rename, count_map_inj hf]

theorem slpSln_rename (hf : Function.Injective f) (minLabel : Int) (y : List Int) :
    slpSln (f minLabel) (y.map f) = slpSln minLabel y := by
  funext z0
  unfold slpSln
  simp only [getElem?_rename hf, List.length_map, safeLevel_rename hf]

theorem majFrac_rename (hf : Function.Injective f) (y : List Int) (maj : Int) :
    majFrac (y.map f) (f maj) = majFrac y maj := by
  funext z0 z1 z2
  unfold majFrac
  simp only [bind_map_left, takeRows_rename, count_map_inj hf]

theorem withFrac_rename (hf : Function.Injective f) (y : List Int) (maj : Int) :
    withFrac (y.map f) (f maj) = withFrac y maj := by
  funext z0 z1 z2
  unfold withFrac
  simp only [majFrac_rename hf]

theorem leeRound_rename (hf : Function.Injective f) (par : LeeParams) (vol : List Row → ℚ) (dr : Nat → Draws) (d : Nat) (y : List Int) (maj : Int) :
    leeRound par vol dr d (y.map f) (f maj) = leeRound par vol dr d y maj := by
  funext z0 z1 z2 z3 z4 z5
  unfold leeRound
  simp only [withFrac_rename hf]

theorem lnCount_rename (hf : Function.Injective f) (minL : Int) (y : List Int) :
    lnCount (f minL) (y.map f) = lnCount minL y := by
  funext z0
  unfold lnCount
  simp only [bind_map_left, mapM_getRow_rename, count_map_inj hf]

theorem lnLevel_rename (hf : Function.Injective f) (minL majL : Int) (y : List Int) :
    lnLevel (f minL) (f majL) (y.map f) = lnLevel minL majL y := by
  funext z0 z1 z2
  unfold lnLevel
  simp only [bind_map_left, getRow_rename, hf.eq_iff, lnCount_rename hf]

theorem lnPairs_rename (hf : Function.Injective f) (minL majL : Int) (y : List Int) :
    lnPairs (f minL) (f majL) (y.map f) = lnPairs minL majL y := by
  funext z0 z1
  unfold lnPairs
  simp only [lnCount_rename hf, lnLevel_rename hf]

theorem lnRow_rename (hf : Function.Injective f) (minL : Int) (ix : Nat → Nat → Nat) (gap : Nat → Nat → ℚ) (pairs : List LnPair) (X : List Row) (y : List Int) :
    lnRow (f minL) ix gap pairs X (y.map f) = lnRow minL ix gap pairs X y := by
  funext z0 z1
  unfold lnRow
  simp only [bind_map_left, lnGap_rename hf, getRow_rename]

theorem assembledBorder_rename (hf : Function.Injective f) (k : Nat) (knn : Nat → List Row → List Row → List (List Nat)) (X : List Row) (y : List Int) (a : Int) :
    assembledBorder k knn X (y.map f) (f a) = assembledBorder k knn X y a := by
  funext z0
  unfold assembledBorder
  simp only [bind_map_left, takeRows_rename, count_map_inj hf]

theorem suwoNoise_rename (hf : Function.Injective f) (env : SuwoEnv) (k : Nat) (X : List Row) (y : List Int) :
    suwoNoise env k X (y.map f) = suwoNoise env k X y := by
  unfold suwoNoise
  simp only [bind_map_left, takeRows_rename, getRow_rename, count_map_inj hf]

theorem motClustering_rename (hf : Function.Injective f) (env : MotEnv) (k : Nat) (dCut : Option ℚ) (minLabel : Int) (T : List Row) (y : List Int) :
    motClustering env k dCut (f minLabel) T (y.map f) = motClustering env k dCut minLabel T y := by
  funext z0
  unfold motClustering
  simp only [bind_map_left, takeRows_rename, count_map_inj hf, List.all_map, List.map_map, Function.comp_def]

theorem msynHitMiss_rename (hf : Function.Injective f) (dist : Row → Row → ℚ) (X : List Row) (y : List Int) :
    msynHitMiss dist X (y.map f) = msynHitMiss dist X y := by
  funext z0 z1
  unfold msynHitMiss
  simp only [bind_map_left, mapM_getRow_rename, getRow_rename, hf.eq_iff, List.map_map, Function.comp_def]

theorem mwFiltered_rename (hf : Function.Injective f) (k1 : Nat) (knn : Nat → List Row → List Row → List (List Nat)) (X : List Row) (y : List Int) (minL : Int) :
    mwFiltered k1 knn X (y.map f) (f minL) = mwFiltered k1 knn X y minL := by
  unfold mwFiltered
  simp only [bind_map_left, takeRows_rename, labelPositions_rename hf, count_map_inj hf]

theorem rMinMaj_rename (hf : Function.Injective f) (X : List Row) (y : List Int) (minL majL : Int) :
    rMinMaj X (y.map f) (f minL) (f majL) = rMinMaj X y minL majL := by
  funext z0 z1 z2
  unfold rMinMaj
  simp only [bind_map_left, takeRows_rename, hf.eq_iff, List.zip_map_right, List.filter_map, List.map_map, Prod.map_fst, Prod.map_snd,
    id_eq, Function.comp_def]

theorem andRegions_rename (hf : Function.Injective f) (X : List Row) (y : List Int) (minL majL : Int) (i : Nat) (nbs : List Nat) (l : List Nat)
    (p : Option (Finset Nat × Finset Nat)) : andRegions X (y.map f) (f minL) (f majL) i nbs l p = andRegions X y minL majL i nbs l p := by
  induction l generalizing p with
  | nil => simp only [andRegions]
  | cons j l ih => simp only [andRegions, getRow_rename, bind_map_left, hf.eq_iff, rMinMaj_rename hf, ih]

theorem andKappa_rename (hf : Function.Injective f) (X : List Row) (y : List Int) (minL majL : Int) :
    andKappa X (y.map f) (f minL) (f majL) = andKappa X y minL majL := by
  funext z0 z1
  unfold andKappa
  simp only [andRegions_rename hf]

theorem andKappas_rename (hf : Function.Injective f) (X : List Row) (y : List Int) (minL majL : Int) :
    andKappas X (y.map f) (f minL) (f majL) = andKappas X y minL majL := by
  funext z0
  unfold andKappas
  simp only [labelPositions_rename hf, andKappa_rename hf]

theorem ansOuterBorder_rename (hf : Function.Injective f) (radius : List Row → List Row → ℚ → List (List Nat)) (X : List Row) (y : List Int) (maj : Int) :
    ansOuterBorder radius X (y.map f) (f maj) = ansOuterBorder radius X y maj := by
  funext z0 z1
  unfold ansOuterBorder
  simp only [bind_map_left, takeRows_rename, count_map_inj hf]

theorem gridMin_rename (hf : Function.Injective f) (cells : List MapCell) (y : List Int) (a : Int) :
    gridMin cells (y.map f) (f a) = gridMin cells y a := by
  funext z0
  unfold gridMin
  simp only [getElem?_rename hf, List.length_map]

theorem gridMaj_rename (hf : Function.Injective f) (cells : List MapCell) (y : List Int) (a : Int) :
    gridMaj cells (y.map f) (f a) = gridMaj cells y a := by
  funext z0
  unfold gridMaj
  simp only [getElem?_rename hf, List.length_map]

theorem somoDensities_rename (hf : Function.Injective f) (pdist : Row → Row → ℚ) (cells : List MapCell) (X : List Row) (y : List Int) (a : Int) :
    somoDensities pdist cells X (y.map f) (f a) = somoDensities pdist cells X y a := by
  unfold somoDensities
  simp only [gridMin_rename hf, gridMaj_rename hf]

theorem somoIntra_rename (hf : Function.Injective f) (cells : List MapCell) (X : List Row) (y : List Int) (a : Int) :
    somoIntra cells X (y.map f) (f a) = somoIntra cells X y a := by
  funext z0 z1
  unfold somoIntra
  simp only [gridMin_rename hf]

theorem somoInter_rename (hf : Function.Injective f) (cells : List MapCell) (X : List Row) (y : List Int) (a : Int) :
    somoInter cells X (y.map f) (f a) = somoInter cells X y a := by
  funext z0 z1
  unfold somoInter
  simp only [gridMin_rename hf]

theorem somoGenIntra_rename (hf : Function.Injective f) (ss : SSParams) (vol : List Row → ℚ) (cu : Nat → ℚ) (drs : Nat → Draws) (d : Nat) (cells : List MapCell) (X : List Row) (y : List Int) (a : Int) :
    somoGenIntra ss vol cu drs d cells X (y.map f) (f a) = somoGenIntra ss vol cu drs d cells X y a := by
  funext z0 z1
  unfold somoGenIntra
  simp only [somoIntra_rename hf]

theorem somoGenInter_rename (hf : Function.Injective f) (ss : SSParams) (vol : List Row → ℚ) (cu : Nat → ℚ) (drs : Nat → Draws) (d : Nat) (cells : List MapCell) (X : List Row) (y : List Int) (a : Int) :
    somoGenInter ss vol cu drs d cells X (y.map f) (f a) = somoGenInter ss vol cu drs d cells X y a := by
  funext z0 z1
  unfold somoGenInter
  simp only [somoInter_rename hf]

theorem outGenerate_rename (hf : Function.Injective f) (ix : Nat → Nat → Nat → Nat) (un : Nat → Nat → Nat → ℚ) {s s' : Stats} (h : StatsRenamed f s s')
    (X : List Row) (y : List Int) (n width width' : Nat) (majInd minInd : List (List Nat)) :
    outGenerate ix un s' X (y.map f) n width width' majInd minInd = renameLabels f (outGenerate ix un s X y n width width' majInd minInd) := by
  unfold outGenerate
  simp only [h.minLabel, h.majLabel, labelPositions_rename hf, selectLabel_rename hf, withSamples_rename, rename_bind, rename_pure]

theorem tomekRemove_rename (hf : StrictMono f) (st : TomekStrategy) (knn : Nat → List Row → List (List Nat)) (X : List Row) (y : List Int) :
    tomekRemove st knn X (y.map f) = renameLabels f (tomekRemove st knn X y) := by
  have hi := hf.injective
  unfold tomekRemove
  rw [stats_rename hf]
  match hs : classLabelStatistics y with
  | .error e => rfl
  | .ok s =>
    have h := stats_renamed hf hs
    rw [show (renameStats f <$> Except.ok s : Res Stats) = Except.ok (renameStats f s) from rfl, ok_bind, ok_bind]
    simp only [h.minLabel, tomekLinks_rename hi, tomekToRemove_rename hi, npDelete_rename, rename_bind, rename_pure]

theorem ennRemove_rename (hf : StrictMono f) (r : EnnRemove) (knn : Nat → List Row → List (List Nat)) (X : List Row) (y : List Int) :
    ennRemove r knn X (y.map f) = renameLabels f (ennRemove r knn X y) := by
  unfold ennRemove
  rw [stats_rename hf]
  match hs : classLabelStatistics y with
  | .error e => rfl
  | .ok s =>
    have h := stats_renamed hf hs
    rw [show (renameStats f <$> Except.ok s : Res Stats) = Except.ok (renameStats f s) from rfl, ok_bind, ok_bind]
    simp only [ennToRemove_rename hf (h := h), npDelete_rename, rename_bind, rename_pure, rename_ite]

theorem smoteAlg_rename (hf : Function.Injective f) (par : SmoteParams) (vol : List Row → ℚ) (dr : Draws) (d : Nat)
    (knn : Nat → List Row → List (List Nat)) {s s' : Stats} (h : StatsRenamed f s s') (X : List Row) (y : List Int) :
    smoteAlg par vol dr d knn s' X (y.map f) = renameLabels f (smoteAlg par vol dr d knn s X y) := by
  unfold smoteAlg
  simp only [h.minLabel, h.majLabel, h.countMin, h.countMaj, selectLabel_rename hf, rename_bind, rename_ite,
    rename_pure, List.map_append, List.map_replicate]

theorem smoteSample_rename (hf : StrictMono f) (par : SmoteParams) (vol : List Row → ℚ) (dr : Draws) (d : Nat)
    (knn : Nat → List Row → List (List Nat)) (X : List Row) (y : List Int) :
    smoteSample par vol dr d knn X (y.map f) = renameLabels f (smoteSample par vol dr d knn X y) :=
  sample_order hf fun _ _ h => smoteAlg_rename hf.injective par vol dr d knn h X y

theorem smoteSample_names (hf : Function.Injective f) (par : SmoteParams) (vol : List Row → ℚ) (dr : Draws) (d : Nat)
    (knn : Nat → List Row → List (List Nat)) (X : List Row) {y : List Int} {a b : Int} (h1 : IsMinority y a b) (h2 : IsMinority (y.map f) (f a) (f b)) :
    smoteSample par vol dr d knn X (y.map f) = renameLabels f (smoteSample par vol dr d knn X y) :=
  sample_rename hf h1 h2 fun _ _ h _ _ => smoteAlg_rename hf par vol dr d knn h X y

theorem renamed_bind {α : Type} (r : Res (List Row × List Int)) (k : List Row × List Int → Res α) :
    (renameLabels f r >>= k) = r >>= fun p => k (p.1, p.2.map f) := by
  cases r <;> rfl

end Verif

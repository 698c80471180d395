import Verif.Model.RegistryTypes

/-!
# The oversamplers of `get_all_oversamplers` (queries/_queries.py:159-251), in its order

Generated from /repo by tools/registry.py; see there for what is extracted and how. Floats are the exact decimals of the
source. `runtime` is queries/_runtimes.py in units of 1e-20 seconds.
-/

namespace Verif

/-- oversampling/_a_suwo.py:59 (`__init__`), 117 (`parameter_combinations`), 565 (`get_params`). -/
def specA_SUWO : OsSpec where
  name := "A_SUWO"
  params := [("proportion", .num (1)), ("n_neighbors", .num (5)), ("nn_params", .none), ("ss_params", .none), ("n_clus_maj", .num (7)), ("c_thres", .num (4 / 5)), ("n_jobs", .num (1)), ("random_state", .none)]
  kwargs := true
  checks := [.ge "proportion" (0), .ge "n_neighbors" (1), .ge "n_clus_maj" (1), .ge "c_thres" (0), .nJobs "n_jobs"]
  grids := [[("proportion", [.num (1 / 10), .num (1 / 4), .num (1 / 2), .num (3 / 4), .num (1), .num (3 / 2), .num (2)]), ("n_neighbors", [.num (3), .num (5), .num (7)]), ("n_clus_maj", [.num (5), .num (7), .num (9)]), ("c_thres", [.num (1 / 2), .num (4 / 5)])]]
  getKeys := [("proportion", "proportion"), ("n_neighbors", "n_neighbors"), ("nn_params", "nn_params"), ("n_clus_maj", "n_clus_maj"), ("c_thres", "c_thres"), ("n_jobs", "n_jobs"), ("ss_params", "ss_params"), ("random_state", "random_state")]
  hasClassName := true
  categories := ["extensive", "uses_clustering", "density_based", "noise_removal", "metric_learning"]
  ss := some ⟨2, "random", "random", false, true⟩
  runtime := 35372257232666016000

/-- oversampling/_adasyn.py:42 (`__init__`), 100 (`parameter_combinations`), 186 (`get_params`). -/
def specADASYN : OsSpec where
  name := "ADASYN"
  params := [("n_neighbors", .num (5)), ("beta", .num (1)), ("d_th", .num (9 / 10)), ("nn_params", .none), ("ss_params", .none), ("n_jobs", .num (1)), ("random_state", .none), ("proportion", .none)]
  kwargs := true
  checks := [.ge "n_neighbors" (1), .ge "d_th" (0), .ge "beta" (0), .nJobs "n_jobs"]
  grids := [[("n_neighbors", [.num (3), .num (5), .num (7), .num (9), .num (11), .num (17)]), ("d_th", [.num (9 / 10)]), ("proportion", [.num (2), .num (3 / 2), .num (1), .num (3 / 4), .num (1 / 2), .num (1 / 4)])]]
  getKeys := [("n_neighbors", "n_neighbors"), ("d_th", "d_th"), ("beta", "beta"), ("nn_params", "nn_params"), ("n_jobs", "n_jobs"), ("proportion", "proportion"), ("ss_params", "ss_params"), ("random_state", "random_state")]
  hasClassName := true
  categories := ["sample_ordinary", "extensive", "borderline", "density_based", "metric_learning"]
  ss := some ⟨2, "random", "random", false, true⟩
  runtime := 2356498241424560500

/-- oversampling/_adg.py:246 (`__init__`), 307 (`parameter_combinations`), 763 (`get_params`). -/
def specADG : OsSpec where
  name := "ADG"
  params := [("proportion", .num (1)), ("kernel", .str "inner"), ("lam", .num (1)), ("mu", .num (1)), ("k", .num (12)), ("gamma", .num (1)), ("n_jobs", .num (1)), ("random_state", .none)]
  kwargs := true
  checks := [.ge "proportion" (0), .numSuffix "kernel" "inner" "rbf", .gt "lam" (0), .gt "mu" (0), .ge "k" (1), .gt "gamma" (0), .nJobs "n_jobs"]
  grids := [[("proportion", [.num (1 / 10), .num (1 / 4), .num (1 / 2), .num (3 / 4), .num (1), .num (3 / 2), .num (2)]), ("kernel", [.str "inner", .str "rbf_0.5", .str "rbf_1.0", .str "rbf_2.0"]), ("lam", [.num (1), .num (2)]), ("mu", [.num (1), .num (2)]), ("k", [.num (12)]), ("gamma", [.num (1), .num (2)])]]
  getKeys := [("proportion", "proportion"), ("kernel", "kernel"), ("lam", "lam"), ("mu", "mu"), ("k", "k"), ("gamma", "gamma"), ("n_jobs", "n_jobs"), ("random_state", "random_state")]
  hasClassName := true
  categories := ["extensive", "uses_clustering"]
  ss := none
  runtime := 442551763057708800000

/-- oversampling/_adoms.py:58 (`__init__`), 99 (`parameter_combinations`), 183 (`get_params`). -/
def specADOMS : OsSpec where
  name := "ADOMS"
  params := [("proportion", .num (1)), ("n_neighbors", .num (5)), ("nn_params", .none), ("n_jobs", .num (1)), ("random_state", .none)]
  kwargs := true
  checks := [.ge "proportion" (0), .ge "n_neighbors" (1), .nJobs "n_jobs"]
  grids := [[("proportion", [.num (1 / 10), .num (1 / 4), .num (1 / 2), .num (3 / 4), .num (1), .num (3 / 2), .num (2)]), ("n_neighbors", [.num (3), .num (5), .num (7)])]]
  getKeys := [("proportion", "proportion"), ("n_neighbors", "n_neighbors"), ("nn_params", "nn_params"), ("n_jobs", "n_jobs"), ("random_state", "random_state")]
  hasClassName := true
  categories := ["dim_reduction", "extensive", "metric_learning"]
  ss := none
  runtime := 9850652217864990000

/-- oversampling/_ahc.py:50 (`__init__`), 68 (`parameter_combinations`), 203 (`get_params`). -/
def specAHC : OsSpec where
  name := "AHC"
  params := [("strategy", .str "min"), ("n_jobs", .num (1)), ("random_state", .none)]
  kwargs := true
  checks := [.isin "strategy" ["min", "maj", "minmaj"], .nJobs "n_jobs"]
  grids := [[("strategy", [.str "min", .str "maj", .str "minmaj"])]]
  getKeys := [("strategy", "strategy"), ("n_jobs", "n_jobs"), ("random_state", "random_state")]
  hasClassName := true
  categories := ["changes_majority", "uses_clustering", "application"]
  ss := none
  runtime := 118036270141601570

/-- oversampling/_amsco.py:107 (`__init__`), 164 (`parameter_combinations`), 663 (`get_params`). -/
def specAMSCO : OsSpec where
  name := "AMSCO"
  params := [("n_pop", .num (5)), ("n_iter", .num (12)), ("omega", .num (1 / 10)), ("r1", .num (1 / 10)), ("r2", .num (1 / 10)), ("nn_params", .none), ("ss_params", .none), ("n_jobs", .num (1)), ("classifier", .obj "('sklearn.tree', 'DecisionTreeClassifier', {'random_state': 2})"), ("random_state", .none)]
  kwargs := true
  checks := [.ge "n_pop" (1), .ge "n_iter" (1), .ge "omega" (0), .ge "r1" (0), .ge "r2" (0), .nJobs "n_jobs"]
  grids := [[("n_pop", [.num (5)]), ("n_iter", [.num (12)]), ("omega", [.num (1 / 10)]), ("r1", [.num (1 / 10)]), ("r2", [.num (1 / 10)]), ("classifier", [.obj "('sklearn.tree', 'DecisionTreeClassifier', {'random_state': 2})"])]]
  getKeys := [("n_pop", "n_pop"), ("n_iter", "n_iter"), ("omega", "omega"), ("r1", "r1"), ("r2", "r2"), ("nn_params", "nn_params"), ("ss_params", "ss_params"), ("n_jobs", "n_jobs"), ("classifier", "classifier"), ("random_state", "random_state")]
  hasClassName := true
  categories := ["changes_majority", "memetic", "uses_classifier", "metric_learning"]
  ss := some ⟨2, "random", "random", false, true⟩
  runtime := 1811877920627594000000

/-- oversampling/_and_smote.py:53 (`__init__`), 103 (`parameter_combinations`), 282 (`get_params`). -/
def specAND_SMOTE : OsSpec where
  name := "AND_SMOTE"
  params := [("proportion", .num (1)), ("K", .num (15)), ("nn_params", .none), ("ss_params", .none), ("n_jobs", .num (1)), ("random_state", .none)]
  kwargs := true
  checks := [.ge "proportion" (0), .ge "K" (2), .nJobs "n_jobs"]
  grids := [[("proportion", [.num (1 / 10), .num (1 / 4), .num (1 / 2), .num (3 / 4), .num (1), .num (3 / 2), .num (2)]), ("K", [.num (9), .num (15), .num (21)])]]
  getKeys := [("proportion", "proportion"), ("K", "K"), ("nn_params", "nn_params"), ("n_jobs", "n_jobs"), ("ss_params", "ss_params"), ("random_state", "random_state")]
  hasClassName := true
  categories := ["extensive", "sample_ordinary", "metric_learning"]
  ss := some ⟨2, "random", "random", false, true⟩
  runtime := 706248283386230500

/-- oversampling/_ans.py:46 (`__init__`), 92 (`parameter_combinations`), 322 (`get_params`). -/
def specANS : OsSpec where
  name := "ANS"
  params := [("proportion", .num (1)), ("nn_params", .none), ("ss_params", .none), ("n_jobs", .num (1)), ("random_state", .none)]
  kwargs := true
  checks := [.ge "proportion" (0), .nJobs "n_jobs"]
  grids := [[("proportion", [.num (1 / 10), .num (1 / 4), .num (1 / 2), .num (3 / 4), .num (1), .num (3 / 2), .num (2)])]]
  getKeys := [("proportion", "proportion"), ("nn_params", "nn_params"), ("n_jobs", "n_jobs"), ("ss_params", "ss_params"), ("random_state", "random_state")]
  hasClassName := true
  categories := ["extensive", "sample_ordinary", "density_based", "metric_learning"]
  ss := some ⟨2, "random", "random", false, true⟩
  runtime := 623626708984375000

/-- oversampling/_asmobd.py:55 (`__init__`), 135 (`parameter_combinations`), 420 (`get_params`). -/
def specASMOBD : OsSpec where
  name := "ASMOBD"
  params := [("proportion", .num (1)), ("min_samples", .num (3)), ("eps", .num (4 / 5)), ("eta", .num (1 / 2)), ("T_12", .tup [1, 1]), ("t_12", .tup [4, 4]), ("a", .num (1 / 20)), ("smoothing", .str "linear"), ("nn_params", .none), ("ss_params", .none), ("n_jobs", .num (1)), ("random_state", .none)]
  kwargs := true
  checks := [.ge "proportion" (0), .ge "min_samples" (1), .gt "eps" (0), .range "eta" (0) (1), .gt "a" (0), .isin "smoothing" ["sigmoid", "linear"], .nJobs "n_jobs"]
  grids := [[("proportion", [.num (1 / 10), .num (1 / 4), .num (1 / 2), .num (3 / 4), .num (1), .num (3 / 2), .num (2)]), ("min_samples", [.num (3)]), ("eps", [.num (3 / 10)]), ("eta", [.num (1 / 2)]), ("T_12", [.tup [7 / 10, 7 / 10], .tup [7 / 10, 1], .tup [7 / 10, 7 / 5], .tup [1, 7 / 10], .tup [1, 1], .tup [1, 7 / 5], .tup [7 / 5, 7 / 10], .tup [7 / 5, 1], .tup [7 / 5, 7 / 5]]), ("t_12", [.tup [4, 4]]), ("a", [.num (1 / 20), .num (1 / 10)]), ("smoothing", [.str "sigmoid", .str "linear"])]]
  getKeys := [("proportion", "proportion"), ("min_samples", "min_samples"), ("eps", "eps"), ("eta", "eta"), ("T_12", "T_12"), ("t_12", "t_12"), ("a", "a"), ("smoothing", "smoothing"), ("nn_params", "nn_params"), ("n_jobs", "n_jobs"), ("ss_params", "ss_params"), ("random_state", "random_state")]
  hasClassName := true
  categories := ["extensive", "noise_removal", "uses_clustering", "metric_learning"]
  ss := some ⟨2, "random", "random", false, true⟩
  runtime := 1421060562133789000

/-- oversampling/_assembled_smote.py:79 (`__init__`), 137 (`parameter_combinations`), 368 (`get_params`). -/
def specAssembled_SMOTE : OsSpec where
  name := "Assembled_SMOTE"
  params := [("proportion", .num (1)), ("n_neighbors", .num (5)), ("nn_params", .none), ("ss_params", .none), ("pop", .num (2)), ("thres", .num (3 / 10)), ("n_jobs", .num (1)), ("random_state", .none)]
  kwargs := true
  checks := [.ge "proportion" (0), .ge "n_neighbors" (1), .ge "pop" (1), .range "thres" (0) (1), .nJobs "n_jobs"]
  grids := [[("proportion", [.num (1 / 10), .num (1 / 4), .num (1 / 2), .num (3 / 4), .num (1), .num (3 / 2), .num (2)]), ("n_neighbors", [.num (3), .num (5), .num (7)]), ("pop", [.num (2), .num (4), .num (5)]), ("thres", [.num (1 / 10), .num (3 / 10), .num (1 / 2)])]]
  getKeys := [("proportion", "proportion"), ("n_neighbors", "n_neighbors"), ("nn_params", "nn_params"), ("pop", "pop"), ("thres", "thres"), ("n_jobs", "n_jobs"), ("ss_params", "ss_params"), ("random_state", "random_state")]
  hasClassName := true
  categories := ["extensive", "uses_clustering", "borderline", "sample_ordinary", "metric_learning"]
  ss := some ⟨2, "random", "random", false, true⟩
  runtime := 430586338043212860

/-- oversampling/_borderline_smote.py:89 (`__init__`), 146 (`parameter_combinations`), 243 (`get_params`). -/
def specBorderline_SMOTE1 : OsSpec where
  name := "Borderline_SMOTE1"
  params := [("proportion", .num (1)), ("n_neighbors", .num (5)), ("k_neighbors", .num (5)), ("nn_params", .none), ("ss_params", .none), ("n_jobs", .num (1)), ("random_state", .none)]
  kwargs := true
  checks := [.ge "proportion" (0), .ge "n_neighbors" (1), .ge "k_neighbors" (1), .nJobs "n_jobs"]
  grids := [[("proportion", [.num (1 / 10), .num (1 / 4), .num (1 / 2), .num (3 / 4), .num (1), .num (3 / 2), .num (2)]), ("n_neighbors", [.num (3), .num (5), .num (7), .num (11), .num (17)]), ("k_neighbors", [.num (3), .num (5), .num (7), .num (11), .num (17)])]]
  getKeys := [("proportion", "proportion"), ("n_neighbors", "n_neighbors"), ("k_neighbors", "k_neighbors"), ("nn_params", "nn_params"), ("n_jobs", "n_jobs"), ("ss_params", "ss_params"), ("random_state", "random_state")]
  hasClassName := true
  categories := ["sample_ordinary", "extensive", "borderline", "metric_learning"]
  ss := some ⟨2, "random", "random", false, true⟩
  runtime := 207633972167968730

/-- oversampling/_borderline_smote.py:288 (`__init__`), 347 (`parameter_combinations`), 452 (`get_params`). -/
def specBorderline_SMOTE2 : OsSpec where
  name := "Borderline_SMOTE2"
  params := [("proportion", .num (1)), ("n_neighbors", .num (5)), ("k_neighbors", .num (5)), ("nn_params", .none), ("ss_params", .none), ("n_jobs", .num (1)), ("random_state", .none)]
  kwargs := true
  checks := [.ge "proportion" (0), .ge "n_neighbors" (1), .ge "k_neighbors" (1), .nJobs "n_jobs"]
  grids := [[("proportion", [.num (1 / 10), .num (1 / 4), .num (1 / 2), .num (3 / 4), .num (1), .num (3 / 2), .num (2)]), ("n_neighbors", [.num (3), .num (5), .num (7)]), ("k_neighbors", [.num (3), .num (5), .num (7)])]]
  getKeys := [("proportion", "proportion"), ("n_neighbors", "n_neighbors"), ("k_neighbors", "k_neighbors"), ("nn_params", "nn_params"), ("n_jobs", "n_jobs"), ("ss_params", "ss_params"), ("random_state", "random_state")]
  hasClassName := true
  categories := ["sample_ordinary", "extensive", "borderline", "metric_learning"]
  ss := some ⟨2, "random", "random", false, true⟩
  runtime := 215611457824707020

/-- oversampling/_cbso.py:53 (`__init__`), 106 (`parameter_combinations`), 290 (`get_params`). -/
def specCBSO : OsSpec where
  name := "CBSO"
  params := [("proportion", .num (1)), ("n_neighbors", .num (5)), ("nn_params", .none), ("ss_params", .none), ("C_p", .num (13 / 10)), ("n_jobs", .num (1)), ("random_state", .none)]
  kwargs := true
  checks := [.ge "proportion" (0), .ge "n_neighbors" (1), .gt "C_p" (0), .nJobs "n_jobs"]
  grids := [[("proportion", [.num (1 / 10), .num (1 / 4), .num (1 / 2), .num (3 / 4), .num (1), .num (3 / 2), .num (2)]), ("n_neighbors", [.num (3), .num (5), .num (7)]), ("C_p", [.num (4 / 5), .num (1), .num (13 / 10), .num (8 / 5)])]]
  getKeys := [("proportion", "proportion"), ("n_neighbors", "n_neighbors"), ("nn_params", "nn_params"), ("C_p", "C_p"), ("n_jobs", "n_jobs"), ("ss_params", "ss_params"), ("random_state", "random_state")]
  hasClassName := true
  categories := ["uses_clustering", "density_based", "extensive", "sample_ordinary", "metric_learning"]
  ss := some ⟨2, "random", "random", false, true⟩
  runtime := 352532863616943340

/-- oversampling/_ccr.py:41 (`__init__`), 77 (`parameter_combinations`), 310 (`get_params`). -/
def specCCR : OsSpec where
  name := "CCR"
  params := [("proportion", .num (1)), ("energy", .num (1)), ("scaling", .num (0)), ("n_jobs", .num (1)), ("random_state", .none)]
  kwargs := true
  checks := [.ge "proportion" (0), .ge "energy" (0), .ge "scaling" (0), .nJobs "n_jobs"]
  grids := [[("proportion", [.num (1 / 10), .num (1 / 4), .num (1 / 2), .num (3 / 4), .num (1), .num (3 / 2), .num (2)]), ("energy", [.num (1 / 1000), .num (1 / 400), .num (1 / 200), .num (1 / 100), .num (1 / 40), .num (1 / 20), .num (1 / 10), .num (1 / 4), .num (1 / 2), .num (1), .num (5 / 2), .num (5), .num (10), .num (25), .num (50), .num (100)]), ("scaling", [.num (0)])]]
  getKeys := [("proportion", "proportion"), ("energy", "energy"), ("scaling", "scaling"), ("n_jobs", "n_jobs"), ("random_state", "random_state")]
  hasClassName := true
  categories := ["extensive"]
  ss := none
  runtime := 271117687225341800

/-- oversampling/_ce_smote.py:67 (`__init__`), 123 (`parameter_combinations`), 282 (`get_params`). -/
def specCE_SMOTE : OsSpec where
  name := "CE_SMOTE"
  params := [("proportion", .num (1)), ("h", .num (10)), ("k", .num (5)), ("nn_params", .none), ("ss_params", .none), ("alpha", .num (1 / 2)), ("n_jobs", .num (1)), ("random_state", .none)]
  kwargs := true
  checks := [.ge "proportion" (0), .ge "h" (1), .ge "k" (1), .range "alpha" (0) (1), .nJobs "n_jobs"]
  grids := [[("proportion", [.num (1 / 10), .num (1 / 4), .num (1 / 2), .num (3 / 4), .num (1), .num (3 / 2), .num (2)]), ("h", [.num (5), .num (10), .num (15)]), ("k", [.num (3), .num (5), .num (7)]), ("alpha", [.num (1 / 5), .num (1 / 2), .num (4 / 5)])]]
  getKeys := [("proportion", "proportion"), ("h", "h"), ("k", "k"), ("nn_params", "nn_params"), ("alpha", "alpha"), ("n_jobs", "n_jobs"), ("ss_params", "ss_params"), ("random_state", "random_state")]
  hasClassName := true
  categories := ["extensive", "borderline", "uses_clustering", "sample_ordinary", "metric_learning"]
  ss := some ⟨2, "random", "random", false, true⟩
  runtime := 17705712318420410000

/-- oversampling/_cluster_smote.py:53 (`__init__`), 106 (`parameter_combinations`), 235 (`get_params`). -/
def speccluster_SMOTE : OsSpec where
  name := "cluster_SMOTE"
  params := [("proportion", .num (1)), ("n_neighbors", .num (3)), ("nn_params", .none), ("ss_params", .none), ("n_clusters", .num (3)), ("n_jobs", .num (1)), ("random_state", .none)]
  kwargs := true
  checks := [.ge "proportion" (0), .ge "n_neighbors" (1), .ge "n_clusters" (1), .nJobs "n_jobs"]
  grids := [[("proportion", [.num (1 / 10), .num (1 / 4), .num (1 / 2), .num (3 / 4), .num (1), .num (3 / 2), .num (2)]), ("n_neighbors", [.num (3), .num (5), .num (7)]), ("n_clusters", [.num (3), .num (5), .num (7), .num (9)])]]
  getKeys := [("proportion", "proportion"), ("n_neighbors", "n_neighbors"), ("nn_params", "nn_params"), ("n_clusters", "n_clusters"), ("n_jobs", "n_jobs"), ("ss_params", "ss_params"), ("random_state", "random_state")]
  hasClassName := true
  categories := ["extensive", "uses_clustering", "metric_learning"]
  ss := some ⟨2, "random", "random", false, true⟩
  runtime := 1185555458068847700

/-- oversampling/_cure_smote.py:54 (`__init__`), 108 (`parameter_combinations`), 269 (`get_params`). -/
def specCURE_SMOTE : OsSpec where
  name := "CURE_SMOTE"
  params := [("proportion", .num (1)), ("n_clusters", .num (5)), ("noise_th", .num (2)), ("nn_params", .none), ("ss_params", .none), ("n_jobs", .num (1)), ("random_state", .none)]
  kwargs := true
  checks := [.ge "proportion" (0), .ge "n_clusters" (1), .ge "noise_th" (0), .nJobs "n_jobs"]
  grids := [[("proportion", [.num (1 / 10), .num (1 / 4), .num (1 / 2), .num (3 / 4), .num (1), .num (3 / 2), .num (2)]), ("n_clusters", [.num (5), .num (10), .num (15)]), ("noise_th", [.num (1), .num (3)])]]
  getKeys := [("proportion", "proportion"), ("n_clusters", "n_clusters"), ("noise_th", "noise_th"), ("nn_params", "nn_params"), ("n_jobs", "n_jobs"), ("ss_params", "ss_params"), ("random_state", "random_state")]
  hasClassName := true
  categories := ["extensive", "uses_clustering"]
  ss := some ⟨2, "random", "random", false, true⟩
  runtime := 208523273468017600

/-- oversampling/_dbsmote.py:115 (`__init__`), 161 (`parameter_combinations`), 346 (`get_params`). -/
def specDBSMOTE : OsSpec where
  name := "DBSMOTE"
  params := [("proportion", .num (1)), ("eps", .num (4 / 5)), ("min_samples", .num (3)), ("db_iter_limit", .num (3)), ("nn_params", .none), ("n_jobs", .num (1)), ("random_state", .none)]
  kwargs := true
  checks := [.ge "proportion" (0), .gt "eps" (0), .ge "min_samples" (1), .nJobs "n_jobs"]
  grids := [[("proportion", [.num (1 / 10), .num (1 / 4), .num (1 / 2), .num (3 / 4), .num (1), .num (3 / 2), .num (2)]), ("eps", [.num (1 / 2), .num (4 / 5), .num (6 / 5)]), ("min_samples", [.num (1), .num (3), .num (5)])]]
  getKeys := [("proportion", "proportion"), ("eps", "eps"), ("min_samples", "min_samples"), ("db_iter_limit", "db_iter_limit"), ("nn_params", "nn_params"), ("n_jobs", "n_jobs"), ("random_state", "random_state")]
  hasClassName := true
  categories := ["extensive", "noise_removal", "uses_clustering", "density_based", "metric_learning"]
  ss := none
  runtime := 1660363674163818300

/-- oversampling/_de_oversampling.py:65 (`__init__`), 117 (`parameter_combinations`), 271 (`get_params`). -/
def specDE_oversampling : OsSpec where
  name := "DE_oversampling"
  params := [("proportion", .num (1)), ("n_neighbors", .num (5)), ("nn_params", .none), ("crossover_rate", .num (1 / 2)), ("similarity_threshold", .num (1 / 2)), ("n_clusters", .num (30)), ("n_jobs", .num (1)), ("random_state", .none)]
  kwargs := true
  checks := [.ge "proportion" (0), .ge "n_neighbors" (2), .range "crossover_rate" (0) (1), .range "similarity_threshold" (0) (1), .ge "n_clusters" (1), .nJobs "n_jobs"]
  grids := [[("proportion", [.num (1 / 10), .num (1 / 4), .num (1 / 2), .num (3 / 4), .num (1), .num (3 / 2), .num (2)]), ("n_neighbors", [.num (3), .num (5), .num (7)]), ("crossover_rate", [.num (1 / 10), .num (1 / 2), .num (9 / 10)]), ("similarity_threshold", [.num (1 / 2), .num (9 / 10)]), ("n_clusters", [.num (10), .num (20), .num (50)])]]
  getKeys := [("proportion", "proportion"), ("n_neighbors", "n_neighbors"), ("nn_params", "nn_params"), ("crossover_rate", "crossover_rate"), ("similarity_threshold", "similarity_threshold"), ("n_clusters", "n_clusters"), ("n_jobs", "n_jobs"), ("random_state", "random_state")]
  hasClassName := true
  categories := ["changes_majority", "uses_clustering", "metric_learning"]
  ss := none
  runtime := 7008554935455322000

/-- oversampling/_deago.py:74 (`__init__`), 133 (`parameter_combinations`), 303 (`get_params`). -/
def specDEAGO : OsSpec where
  name := "DEAGO"
  params := [("proportion", .num (1)), ("n_neighbors", .num (5)), ("nn_params", .none), ("ss_params", .none), ("e", .num (100)), ("h", .num (3 / 10)), ("sigma", .num (1 / 10)), ("n_jobs", .num (1)), ("random_state", .none)]
  kwargs := true
  checks := [.ge "proportion" (0), .ge "n_neighbors" (1), .gt "e" (1), .gt "h" (0), .gt "sigma" (0), .nJobs "n_jobs"]
  grids := [[("proportion", [.num (1 / 10), .num (1 / 4), .num (1 / 2), .num (3 / 4), .num (1), .num (3 / 2), .num (2)]), ("n_neighbors", [.num (3), .num (5), .num (7)]), ("e", [.num (40)]), ("h", [.num (1 / 10), .num (1 / 5), .num (3 / 10), .num (2 / 5), .num (1 / 2)]), ("sigma", [.num (1 / 20), .num (1 / 10), .num (1 / 5)])]]
  getKeys := [("proportion", "proportion"), ("n_neighbors", "n_neighbors"), ("e", "e"), ("h", "h"), ("sigma", "sigma"), ("ss_params", "ss_params"), ("n_jobs", "n_jobs"), ("random_state", "random_state")]
  hasClassName := true
  categories := ["extensive", "density_estimation", "application", "metric_learning"]
  ss := some ⟨2, "random", "random", false, true⟩
  runtime := 296838469505310080000

/-- oversampling/_distance_smote.py:45 (`__init__`), 96 (`parameter_combinations`), 160 (`get_params`). -/
def specdistance_SMOTE : OsSpec where
  name := "distance_SMOTE"
  params := [("proportion", .num (1)), ("n_neighbors", .num (5)), ("nn_params", .none), ("ss_params", .none), ("n_jobs", .num (1)), ("random_state", .none)]
  kwargs := true
  checks := [.ge "proportion" (0), .ge "n_neighbors" (1), .nJobs "n_jobs"]
  grids := [[("proportion", [.num (1 / 10), .num (1 / 4), .num (1 / 2), .num (3 / 4), .num (1), .num (3 / 2), .num (2)]), ("n_neighbors", [.num (3), .num (5), .num (7)])]]
  getKeys := [("proportion", "proportion"), ("n_neighbors", "n_neighbors"), ("nn_params", "nn_params"), ("n_jobs", "n_jobs"), ("ss_params", "ss_params"), ("random_state", "random_state")]
  hasClassName := true
  categories := ["extensive", "sample_ordinary", "metric_learning"]
  ss := some ⟨2, "random", "random", false, true⟩
  runtime := 326261520385742200

/-- oversampling/_dsmote.py:104 (`__init__`), 153 (`parameter_combinations`), 448 (`get_params`). -/
def specDSMOTE : OsSpec where
  name := "DSMOTE"
  params := [("proportion", .num (1)), ("n_neighbors", .num (5)), ("nn_params", .none), ("rate", .num (1 / 10)), ("n_step", .num (50)), ("n_jobs", .num (1)), ("random_state", .none)]
  kwargs := true
  checks := [.ge "proportion" (0), .ge "n_neighbors" (1), .range "rate" (0) (1), .ge "n_step" (1), .nJobs "n_jobs"]
  grids := [[("proportion", [.num (1 / 10), .num (1 / 4), .num (1 / 2), .num (3 / 4), .num (1), .num (3 / 2), .num (2)]), ("n_neighbors", [.num (3), .num (5), .num (7)]), ("rate", [.num (1 / 10), .num (1 / 5)]), ("n_step", [.num (50)])]]
  getKeys := [("proportion", "proportion"), ("n_neighbors", "n_neighbors"), ("nn_params", "nn_params"), ("rate", "rate"), ("n_step", "n_step"), ("n_jobs", "n_jobs"), ("random_state", "random_state")]
  hasClassName := true
  categories := ["changes_majority", "metric_learning"]
  ss := none
  runtime := 56192886829376220000

/-- oversampling/_dsrbf.py:428 (`__init__`), 513 (`parameter_combinations`), 729 (`get_params`). -/
def specDSRBF : OsSpec where
  name := "DSRBF"
  params := [("proportion", .num (1)), ("n_neighbors", .num (5)), ("nn_params", .none), ("ss_params", .none), ("hidden_range", .tup [4, 10]), ("i_b", .num (2)), ("o_b", .num (2)), ("n_pop", .num (100)), ("n_init_pop", .num (1000)), ("n_iter", .num (40)), ("n_sampling_epoch", .num (5)), ("n_jobs", .num (1)), ("random_state", .none)]
  kwargs := true
  checks := [.ge "proportion" (0), .ge "n_neighbors" (1), .elemGe "hidden_range" 0 (1), .elemGe "hidden_range" 1 (1), .gt "i_b" (0), .gt "o_b" (0), .ge "n_pop" (2), .ge "n_init_pop" (2), .ge "n_iter" (0), .ge "n_sampling_epoch" (1), .nJobs "n_jobs"]
  grids := [[("proportion", [.num (1 / 10), .num (1 / 4), .num (1 / 2), .num (3 / 4), .num (1), .num (3 / 2), .num (2)]), ("n_neighbors", [.num (3), .num (5), .num (7)]), ("hidden_range", [.tup [4, 10]]), ("i_b", [.num (2)]), ("o_b", [.num (2)]), ("n_pop", [.num (100)]), ("n_init_pop", [.num (1000)]), ("n_iter", [.num (40)]), ("n_sampling_epoch", [.num (8)])]]
  getKeys := [("proportion", "proportion"), ("n_neighbors", "n_neighbors"), ("nn_params", "nn_params"), ("ss_params", "ss_params"), ("hidden_range", "hidden_range"), ("i_b", "i_b"), ("o_b", "o_b"), ("n_pop", "n_pop"), ("n_init_pop", "n_init_pop"), ("n_iter", "n_iter"), ("n_sampling_epoch", "n_sampling_epoch"), ("n_jobs", "n_jobs"), ("random_state", "random_state")]
  hasClassName := true
  categories := ["extensive", "uses_classifier", "sample_ordinary", "memetic", "metric_learning"]
  ss := some ⟨2, "random", "random", false, true⟩
  runtime := 2486799850463867000000

/-- oversampling/_e_smote.py:69 (`__init__`), 125 (`parameter_combinations`), 272 (`get_params`). -/
def specE_SMOTE : OsSpec where
  name := "E_SMOTE"
  params := [("proportion", .num (1)), ("n_neighbors", .num (5)), ("nn_params", .none), ("ss_params", .none), ("min_features", .num (2)), ("n_jobs", .num (1)), ("random_state", .none)]
  kwargs := true
  checks := [.ge "proportion" (0), .ge "n_neighbors" (1), .ge "min_features" (1), .nJobs "n_jobs"]
  grids := [[("proportion", [.num (1 / 10), .num (1 / 4), .num (1 / 2), .num (3 / 4), .num (1), .num (3 / 2), .num (2)]), ("n_neighbors", [.num (3), .num (5), .num (7)]), ("min_features", [.num (1), .num (2), .num (3)])]]
  getKeys := [("proportion", "proportion"), ("n_neighbors", "n_neighbors"), ("min_features", "min_features"), ("nn_params", "nn_params"), ("ss_params", "ss_params"), ("n_jobs", "n_jobs"), ("random_state", "random_state")]
  hasClassName := true
  categories := ["extensive", "dim_reduction", "memetic", "changes_majority", "metric_learning"]
  ss := some ⟨2, "random", "random", false, true⟩
  runtime := 17706725597381592000

/-- oversampling/_edge_det_smote.py:59 (`__init__`), 109 (`parameter_combinations`), 203 (`get_params`). -/
def specEdge_Det_SMOTE : OsSpec where
  name := "Edge_Det_SMOTE"
  params := [("proportion", .num (1)), ("k", .num (5)), ("nn_params", .none), ("ss_params", .none), ("n_jobs", .num (1)), ("random_state", .none)]
  kwargs := true
  checks := [.ge "proportion" (0), .ge "k" (1), .nJobs "n_jobs"]
  grids := [[("proportion", [.num (1 / 10), .num (1 / 4), .num (1 / 2), .num (3 / 4), .num (1), .num (3 / 2), .num (2)]), ("k", [.num (3), .num (5), .num (7)])]]
  getKeys := [("proportion", "proportion"), ("k", "k"), ("nn_params", "nn_params"), ("n_jobs", "n_jobs"), ("ss_params", "ss_params"), ("random_state", "random_state")]
  hasClassName := true
  categories := ["density_based", "borderline", "extensive", "metric_learning"]
  ss := some ⟨2, "random", "random", false, true⟩
  runtime := 224485397338867200

/-- oversampling/_g_smote.py:69 (`__init__`), 144 (`parameter_combinations`), 346 (`get_params`). -/
def specG_SMOTE : OsSpec where
  name := "G_SMOTE"
  params := [("proportion", .num (1)), ("n_neighbors", .num (5)), ("nn_params", .none), ("ss_params", .none), ("method", .str "linear"), ("n_jobs", .num (1)), ("random_state", .none)]
  kwargs := true
  checks := [.ge "proportion" (0), .ge "n_neighbors" (1), .numSuffix "method" "linear" "non-linear", .nJobs "n_jobs"]
  grids := [[("proportion", [.num (1 / 10), .num (1 / 4), .num (1 / 2), .num (3 / 4), .num (1), .num (3 / 2), .num (2)]), ("n_neighbors", [.num (3), .num (5), .num (7)]), ("method", [.str "linear", .str "non-linear_0.1", .str "non-linear_1.0", .str "non-linear_2.0"])]]
  getKeys := [("proportion", "proportion"), ("n_neighbors", "n_neighbors"), ("nn_params", "nn_params"), ("method", "method"), ("n_jobs", "n_jobs"), ("ss_params", "ss_params"), ("random_state", "random_state")]
  hasClassName := true
  categories := ["extensive", "sample_componentwise", "metric_learning"]
  ss := some ⟨2, "random", "random", false, true⟩
  runtime := 158965587615966800

/-- oversampling/_gasmote.py:53 (`__init__`), 123 (`parameter_combinations`), 398 (`get_params`). -/
def specGASMOTE : OsSpec where
  name := "GASMOTE"
  params := [("n_neighbors", .num (5)), ("nn_params", .none), ("ss_params", .none), ("maxn", .num (7)), ("n_pop", .num (10)), ("popl3", .num (5)), ("pm", .num (3 / 10)), ("pr", .num (1 / 5)), ("Ge", .num (10)), ("n_jobs", .num (1)), ("random_state", .none)]
  kwargs := true
  checks := [.ge "n_neighbors" (1), .ge "maxn" (1), .ge "n_pop" (1), .range "pm" (0) (1), .range "pr" (0) (1), .ge "Ge" (1), .nJobs "n_jobs"]
  grids := [[("n_neighbors", [.num (7)]), ("maxn", [.num (2), .num (3), .num (4)]), ("n_pop", [.num (10)]), ("popl3", [.num (4)]), ("pm", [.num (3 / 10)]), ("pr", [.num (1 / 5)]), ("Ge", [.num (10)])]]
  getKeys := [("n_neighbors", "n_neighbors"), ("nn_params", "nn_params"), ("maxn", "maxn"), ("n_pop", "n_pop"), ("popl3", "popl3"), ("pm", "pm"), ("pr", "pr"), ("Ge", "Ge"), ("n_jobs", "n_jobs"), ("ss_params", "ss_params"), ("random_state", "random_state")]
  hasClassName := true
  categories := ["extensive", "memetic", "sample_ordinary", "metric_learning"]
  ss := some ⟨2, "random", "random", false, true⟩
  runtime := 73795638084411620000

/-- oversampling/_gaussian_smote.py:40 (`__init__`), 95 (`parameter_combinations`), 150 (`get_params`). -/
def specGaussian_SMOTE : OsSpec where
  name := "Gaussian_SMOTE"
  params := [("proportion", .num (1)), ("n_neighbors", .num (5)), ("nn_params", .none), ("ss_params", .none), ("sigma", .num (1)), ("n_jobs", .num (1)), ("random_state", .none)]
  kwargs := true
  checks := [.ge "proportion" (0), .ge "n_neighbors" (1), .gt "sigma" (0), .nJobs "n_jobs"]
  grids := [[("proportion", [.num (1 / 10), .num (1 / 4), .num (1 / 2), .num (3 / 4), .num (1), .num (3 / 2), .num (2)]), ("n_neighbors", [.num (3), .num (5), .num (7)]), ("sigma", [.num (1 / 2), .num (1), .num (2)])]]
  getKeys := [("proportion", "proportion"), ("n_neighbors", "n_neighbors"), ("nn_params", "nn_params"), ("sigma", "sigma"), ("n_jobs", "n_jobs"), ("ss_params", "ss_params"), ("random_state", "random_state")]
  hasClassName := true
  categories := ["extensive", "metric_learning"]
  ss := some ⟨2, "random", "random", true, true⟩
  runtime := 181605815887451180

/-- oversampling/_polynom_fit_smote.py:190 (`__init__`), 208 (`parameter_combinations`), 218 (`get_params`). -/
def specpolynom_fit_SMOTE_star : OsSpec where
  name := "polynom_fit_SMOTE_star"
  params := [("proportion", .num (1)), ("random_state", .none)]
  kwargs := true
  checks := [.ge "proportion" (0)]
  grids := [[("proportion", [.num (1 / 10), .num (1 / 4), .num (1 / 2), .num (3 / 4), .num (1), .num (3 / 2), .num (2)])]]
  getKeys := [("proportion", "proportion"), ("topology", ""), ("random_state", "random_state")]
  hasClassName := true
  categories := ["extensive"]
  ss := none
  runtime := 44138431549072265

/-- oversampling/_polynom_fit_smote.py:264 (`__init__`), 282 (`parameter_combinations`), 292 (`get_params`). -/
def specpolynom_fit_SMOTE_bus : OsSpec where
  name := "polynom_fit_SMOTE_bus"
  params := [("proportion", .num (1)), ("random_state", .none)]
  kwargs := true
  checks := [.ge "proportion" (0)]
  grids := [[("proportion", [.num (1 / 10), .num (1 / 4), .num (1 / 2), .num (3 / 4), .num (1), .num (3 / 2), .num (2)])]]
  getKeys := [("proportion", "proportion"), ("topology", ""), ("random_state", "random_state")]
  hasClassName := true
  categories := ["extensive"]
  ss := none
  runtime := 33428668975830076

/-- oversampling/_polynom_fit_smote.py:338 (`__init__`), 360 (`parameter_combinations`), 373 (`get_params`). -/
def specpolynom_fit_SMOTE_poly : OsSpec where
  name := "polynom_fit_SMOTE_poly"
  params := [("proportion", .num (1)), ("order", .num (2)), ("random_state", .none)]
  kwargs := true
  checks := [.ge "proportion" (0), .ge "order" (1)]
  grids := [[("proportion", [.num (1 / 10), .num (1 / 4), .num (1 / 2), .num (3 / 4), .num (1), .num (3 / 2), .num (2)]), ("order", [.num (1), .num (2), .num (3)])]]
  getKeys := [("order", "order"), ("proportion", "proportion"), ("topology", ""), ("random_state", "random_state")]
  hasClassName := true
  categories := ["extensive"]
  ss := none
  runtime := 130562782287597650

/-- oversampling/_polynom_fit_smote.py:419 (`__init__`), 446 (`parameter_combinations`), 515 (`get_params`). -/
def specpolynom_fit_SMOTE_mesh : OsSpec where
  name := "polynom_fit_SMOTE_mesh"
  params := [("proportion", .num (1)), ("ss_params", .none), ("random_state", .none)]
  kwargs := true
  checks := [.ge "proportion" (0)]
  grids := [[("proportion", [.num (1 / 10), .num (1 / 4), .num (1 / 2), .num (3 / 4), .num (1), .num (3 / 2), .num (2)])]]
  getKeys := [("proportion", "proportion"), ("ss_params", "ss_params"), ("random_state", "random_state")]
  hasClassName := true
  categories := ["extensive"]
  ss := some ⟨2, "random", "deterministic", false, true⟩
  runtime := 125038623809814450

/-- oversampling/_gazzah.py:68 (`__init__`), 94 (`parameter_combinations`), 158 (`get_params`). -/
def specGazzah : OsSpec where
  name := "Gazzah"
  params := [("proportion", .num (1)), ("n_components", .num (2)), ("n_jobs", .num (1)), ("random_state", .none)]
  kwargs := true
  checks := [.ge "proportion" (0), .ge "n_components" (1), .nJobs "n_jobs"]
  grids := [[("proportion", [.num (1 / 10), .num (1 / 4), .num (1 / 2), .num (3 / 4), .num (1), .num (3 / 2), .num (2)]), ("n_components", [.num (2), .num (3), .num (4), .num (5)])]]
  getKeys := [("proportion", "proportion"), ("n_components", "n_components"), ("n_jobs", "n_jobs"), ("random_state", "random_state")]
  hasClassName := true
  categories := ["extensive", "dim_reduction", "changes_majority"]
  ss := none
  runtime := 98199844360351570

/-- oversampling/_ipade_id.py:76 (`__init__`), 125 (`parameter_combinations`), 560 (`get_params`). -/
def specIPADE_ID : OsSpec where
  name := "IPADE_ID"
  params := [("F", .num (1 / 10)), ("G", .num (1 / 10)), ("OT", .num (20)), ("max_it", .num (40)), ("dt_classifier", .obj "('sklearn.tree', 'DecisionTreeClassifier', {'random_state': 2})"), ("base_classifier", .obj "('sklearn.tree', 'DecisionTreeClassifier', {'random_state': 2})"), ("n_jobs", .num (1)), ("random_state", .none)]
  kwargs := true
  checks := [.gt "F" (0), .gt "G" (0), .gt "OT" (0), .gt "max_it" (0), .nJobs "n_jobs"]
  grids := [[("F", [.num (1 / 10), .num (1 / 5)]), ("G", [.num (1 / 10), .num (1 / 5)]), ("OT", [.num (30)]), ("max_it", [.num (40)]), ("dt_classifier", [.obj "('sklearn.tree', 'DecisionTreeClassifier', {'random_state': 2})"]), ("base_classifier", [.obj "('sklearn.tree', 'DecisionTreeClassifier', {'random_state': 2})"])]]
  getKeys := [("F", "F"), ("G", "G"), ("OT", "OT"), ("max_it", "max_it"), ("n_jobs", "n_jobs"), ("dt_classifier", "dt_classifier"), ("base_classifier", "base_classifier"), ("random_state", "random_state")]
  hasClassName := true
  categories := ["changes_majority", "memetic", "uses_classifier"]
  ss := none
  runtime := 219421124458313000000

/-- oversampling/_ismote.py:46 (`__init__`), 93 (`parameter_combinations`), 196 (`get_params`). -/
def specISMOTE : OsSpec where
  name := "ISMOTE"
  params := [("n_neighbors", .num (5)), ("nn_params", .none), ("ss_params", .none), ("minority_weight", .num (1 / 2)), ("n_jobs", .num (1)), ("random_state", .none)]
  kwargs := true
  checks := [.ge "n_neighbors" (1), .ge "minority_weight" (0), .nJobs "n_jobs"]
  grids := [[("n_neighbors", [.num (3), .num (5), .num (7)]), ("minority_weight", [.num (1 / 5), .num (1 / 2), .num (4 / 5)])]]
  getKeys := [("n_neighbors", "n_neighbors"), ("nn_params", "nn_params"), ("minority_weight", "minority_weight"), ("n_jobs", "n_jobs"), ("ss_params", "ss_params"), ("random_state", "random_state")]
  hasClassName := true
  categories := ["changes_majority", "metric_learning"]
  ss := some ⟨2, "random", "random", false, true⟩
  runtime := 536251068115234400

/-- oversampling/_isomap_hybrid.py:59 (`__init__`), 117 (`parameter_combinations`), 185 (`get_params`). -/
def specISOMAP_Hybrid : OsSpec where
  name := "ISOMAP_Hybrid"
  params := [("proportion", .num (1)), ("n_neighbors", .num (5)), ("nn_params", .none), ("ss_params", .none), ("n_components", .num (3)), ("smote_n_neighbors", .num (5)), ("n_jobs", .num (1)), ("random_state", .none)]
  kwargs := true
  checks := [.ge "proportion" (0), .ge "n_neighbors" (1), .ge "n_components" (1), .ge "smote_n_neighbors" (1), .nJobs "n_jobs"]
  grids := [[("proportion", [.num (1 / 10), .num (1 / 4), .num (1 / 2), .num (3 / 4), .num (1), .num (3 / 2), .num (2)]), ("n_neighbors", [.num (3), .num (5), .num (7)]), ("n_components", [.num (2), .num (3), .num (4)]), ("smote_n_neighbors", [.num (3), .num (5), .num (7)])]]
  getKeys := [("proportion", "proportion"), ("n_neighbors", "n_neighbors"), ("nn_params", "nn_params"), ("ss_params", "ss_params"), ("n_components", "n_components"), ("smote_n_neighbors", "smote_n_neighbors"), ("n_jobs", "n_jobs"), ("random_state", "random_state")]
  hasClassName := true
  categories := ["extensive", "noise_removal", "dim_reduction", "changes_majority", "metric_learning"]
  ss := some ⟨2, "random", "random", false, true⟩
  runtime := 7801866531372070000

/-- oversampling/_kerneladasyn.py:73 (`__init__`), 118 (`parameter_combinations`), 288 (`get_params`). -/
def specKernelADASYN : OsSpec where
  name := "KernelADASYN"
  params := [("proportion", .num (1)), ("k", .num (5)), ("nn_params", .none), ("h", .num (1)), ("n_jobs", .num (1)), ("random_state", .none)]
  kwargs := true
  checks := [.ge "proportion" (0), .ge "k" (1), .gt "h" (0), .nJobs "n_jobs"]
  grids := [[("proportion", [.num (1 / 10), .num (1 / 4), .num (1 / 2), .num (3 / 4), .num (1), .num (3 / 2), .num (2)]), ("k", [.num (5), .num (7), .num (9)]), ("h", [.num (1 / 100), .num (1 / 50), .num (1 / 20), .num (1 / 10), .num (1 / 5), .num (1 / 2), .num (1), .num (2), .num (10)])]]
  getKeys := [("proportion", "proportion"), ("k", "k"), ("nn_params", "nn_params"), ("h", "h"), ("n_jobs", "n_jobs"), ("random_state", "random_state")]
  hasClassName := true
  categories := ["density_estimation", "extensive", "borderline", "metric_learning"]
  ss := none
  runtime := 13997523784637450000

/-- oversampling/_kmeans_smote.py:49 (`__init__`), 106 (`parameter_combinations`), 300 (`get_params`). -/
def speckmeans_SMOTE : OsSpec where
  name := "kmeans_SMOTE"
  params := [("proportion", .num (1)), ("n_neighbors", .num (5)), ("nn_params", .none), ("ss_params", .none), ("n_clusters", .num (10)), ("irt", .num (2)), ("n_jobs", .num (1)), ("random_state", .none)]
  kwargs := true
  checks := [.ge "proportion" (0), .ge "n_neighbors" (1), .ge "n_clusters" (1), .ge "irt" (0), .nJobs "n_jobs"]
  grids := [[("proportion", [.num (1 / 10), .num (1 / 4), .num (1 / 2), .num (3 / 4), .num (1), .num (3 / 2), .num (2)]), ("n_neighbors", [.num (3), .num (5), .num (7)]), ("n_clusters", [.num (2), .num (5), .num (10), .num (20), .num (50)]), ("irt", [.num (1 / 2), .num (4 / 5), .num (1), .num (3 / 2)])]]
  getKeys := [("proportion", "proportion"), ("n_neighbors", "n_neighbors"), ("nn_params", "nn_params"), ("n_clusters", "n_clusters"), ("irt", "irt"), ("n_jobs", "n_jobs"), ("ss_params", "ss_params"), ("random_state", "random_state")]
  hasClassName := true
  categories := ["extensive", "uses_clustering", "metric_learning"]
  ss := some ⟨2, "random", "random", false, true⟩
  runtime := 3496944904327392600

/-- oversampling/_lee.py:55 (`__init__`), 116 (`parameter_combinations`), 247 (`get_params`). -/
def specLee : OsSpec where
  name := "Lee"
  params := [("proportion", .num (1)), ("n_neighbors", .num (5)), ("nn_params", .none), ("ss_params", .none), ("rejection_level", .num (1 / 2)), ("n_jobs", .num (1)), ("random_state", .none)]
  kwargs := true
  checks := [.ge "proportion" (0), .ge "n_neighbors" (1), .range "rejection_level" (0) (1), .nJobs "n_jobs"]
  grids := [[("proportion", [.num (1 / 10), .num (1 / 4), .num (1 / 2), .num (3 / 4), .num (1), .num (3 / 2), .num (2)]), ("n_neighbors", [.num (3), .num (5), .num (7), .num (11), .num (17)]), ("rejection_level", [.num (3 / 10), .num (1 / 2), .num (7 / 10)])]]
  getKeys := [("proportion", "proportion"), ("n_neighbors", "n_neighbors"), ("nn_params", "nn_params"), ("rejection_level", "rejection_level"), ("n_jobs", "n_jobs"), ("ss_params", "ss_params"), ("random_state", "random_state")]
  hasClassName := true
  categories := ["extensive", "sample_ordinary", "metric_learning"]
  ss := some ⟨2, "random", "random", false, true⟩
  runtime := 368046760559082030

/-- oversampling/_lle_smote.py:70 (`__init__`), 125 (`parameter_combinations`), 266 (`get_params`). -/
def specLLE_SMOTE : OsSpec where
  name := "LLE_SMOTE"
  params := [("proportion", .num (1)), ("n_neighbors", .num (5)), ("n_components", .num (2)), ("nn_params", .none), ("ss_params", .none), ("n_jobs", .num (1)), ("random_state", .none)]
  kwargs := true
  checks := [.ge "proportion" (0), .ge "n_neighbors" (2), .ge "n_components" (1), .nJobs "n_jobs"]
  grids := [[("proportion", [.num (1 / 10), .num (1 / 4), .num (1 / 2), .num (3 / 4), .num (1), .num (3 / 2), .num (2)]), ("n_neighbors", [.num (3), .num (5), .num (7)]), ("n_components", [.num (2), .num (3), .num (5)])]]
  getKeys := [("proportion", "proportion"), ("n_neighbors", "n_neighbors"), ("n_components", "n_components"), ("nn_params", "nn_params"), ("n_jobs", "n_jobs"), ("ss_params", "ss_params"), ("random_state", "random_state")]
  hasClassName := true
  categories := ["extensive", "dim_reduction", "metric_learning"]
  ss := some ⟨2, "random", "random", false, true⟩
  runtime := 4672214984893799000

/-- oversampling/_ln_smote.py:51 (`__init__`), 90 (`parameter_combinations`), 276 (`get_params`). -/
def specLN_SMOTE : OsSpec where
  name := "LN_SMOTE"
  params := [("proportion", .num (1)), ("n_neighbors", .num (5)), ("nn_params", .none), ("n_jobs", .num (1)), ("random_state", .none)]
  kwargs := true
  checks := [.ge "proportion" (0), .ge "n_neighbors" (1), .nJobs "n_jobs"]
  grids := [[("proportion", [.num (1 / 10), .num (1 / 4), .num (1 / 2), .num (3 / 4), .num (1), .num (3 / 2), .num (2)]), ("n_neighbors", [.num (3), .num (5), .num (7)])]]
  getKeys := [("proportion", "proportion"), ("n_neighbors", "n_neighbors"), ("nn_params", "nn_params"), ("n_jobs", "n_jobs"), ("random_state", "random_state")]
  hasClassName := true
  categories := ["extensive", "sample_componentwise", "metric_learning"]
  ss := none
  runtime := 625696182250976500

/-- oversampling/_lvq_smote.py:52 (`__init__`), 96 (`parameter_combinations`), 198 (`get_params`). -/
def specLVQ_SMOTE : OsSpec where
  name := "LVQ_SMOTE"
  params := [("proportion", .num (1)), ("n_neighbors", .num (5)), ("nn_params", .none), ("n_clusters", .num (10)), ("n_jobs", .num (1)), ("random_state", .none)]
  kwargs := true
  checks := [.ge "proportion" (0), .ge "n_neighbors" (1), .ge "n_clusters" (3), .nJobs "n_jobs"]
  grids := [[("proportion", [.num (1 / 10), .num (1 / 4), .num (1 / 2), .num (3 / 4), .num (1), .num (3 / 2), .num (2)]), ("n_neighbors", [.num (3), .num (5), .num (7)]), ("n_clusters", [.num (4), .num (8), .num (12)])]]
  getKeys := [("proportion", "proportion"), ("n_neighbors", "n_neighbors"), ("nn_params", "nn_params"), ("n_clusters", "n_clusters"), ("n_jobs", "n_jobs"), ("random_state", "random_state")]
  hasClassName := true
  categories := ["extensive", "application"]
  ss := none
  runtime := 9743821620941162000

/-- oversampling/_mct.py:44 (`__init__`), 94 (`parameter_combinations`), 154 (`get_params`). -/
def specMCT : OsSpec where
  name := "MCT"
  params := [("proportion", .num (1)), ("n_neighbors", .num (5)), ("nn_params", .none), ("ss_params", .none), ("n_jobs", .num (1)), ("random_state", .none)]
  kwargs := true
  checks := [.ge "proportion" (0), .ge "n_neighbors" (1), .nJobs "n_jobs"]
  grids := [[("proportion", [.num (1 / 10), .num (1 / 4), .num (1 / 2), .num (3 / 4), .num (1), .num (3 / 2), .num (2)]), ("n_neighbors", [.num (5)])]]
  getKeys := [("proportion", "proportion"), ("n_neighbors", "n_neighbors"), ("nn_params", "nn_params"), ("n_jobs", "n_jobs"), ("ss_params", "ss_params"), ("random_state", "random_state")]
  hasClassName := true
  categories := ["extensive", "sample_copy"]
  ss := some ⟨1, "random", "random", false, true⟩
  runtime := 182631015777587900

/-- oversampling/_mdo.py:63 (`__init__`), 106 (`parameter_combinations`), 253 (`get_params`). -/
def specMDO : OsSpec where
  name := "MDO"
  params := [("proportion", .num (1)), ("K2", .num (5)), ("K1_frac", .num (1 / 2)), ("nn_params", .none), ("n_jobs", .num (1)), ("random_state", .none)]
  kwargs := true
  checks := [.ge "proportion" (0), .ge "K2" (1), .ge "K1_frac" (0), .nJobs "n_jobs"]
  grids := [[("proportion", [.num (1 / 10), .num (1 / 4), .num (1 / 2), .num (3 / 4), .num (1), .num (3 / 2), .num (2)]), ("K2", [.num (3), .num (5), .num (7)]), ("K1_frac", [.num (3 / 10), .num (1 / 2), .num (7 / 10)])]]
  getKeys := [("proportion", "proportion"), ("K2", "K2"), ("K1_frac", "K1_frac"), ("nn_params", "nn_params"), ("n_jobs", "n_jobs"), ("random_state", "random_state")]
  hasClassName := true
  categories := ["extensive", "dim_reduction", "metric_learning"]
  ss := none
  runtime := 937411785125732500

/-- oversampling/_mot2ld.py:65 (`__init__`), 134 (`parameter_combinations`), 505 (`get_params`). -/
def specMOT2LD : OsSpec where
  name := "MOT2LD"
  params := [("proportion", .num (1)), ("n_components", .num (2)), ("k", .num (5)), ("nn_params", .none), ("ss_params", .none), ("d_cut", .str "auto"), ("n_jobs", .num (1)), ("random_state", .none)]
  kwargs := true
  checks := [.ge "proportion" (0), .ge "n_components" (1), .ge "k" (1), .posOrAuto "d_cut", .nJobs "n_jobs"]
  grids := [[("proportion", [.num (1 / 10), .num (1 / 4), .num (1 / 2), .num (3 / 4), .num (1), .num (3 / 2), .num (2)]), ("n_components", [.num (2)]), ("k", [.num (3), .num (5), .num (7)]), ("d_cut", [.str "auto"])]]
  getKeys := [("proportion", "proportion"), ("n_components", "n_components"), ("k", "k"), ("nn_params", "nn_params"), ("d_cut", "d_cut"), ("n_jobs", "n_jobs"), ("ss_params", "ss_params"), ("random_state", "random_state")]
  hasClassName := true
  categories := ["uses_clustering", "sample_ordinary", "metric_learning"]
  ss := some ⟨2, "random", "random", false, true⟩
  runtime := 23347222805023193000

/-- oversampling/_msyn.py:65 (`__init__`), 116 (`parameter_combinations`), 302 (`get_params`). -/
def specMSYN : OsSpec where
  name := "MSYN"
  params := [("pressure", .num (3 / 2)), ("n_neighbors", .num (5)), ("nn_params", .none), ("ss_params", .none), ("n_jobs", .num (1)), ("random_state", .none), ("proportion", .none)]
  kwargs := true
  checks := [.ge "pressure" (0), .ge "n_neighbors" (1), .nJobs "n_jobs"]
  grids := [[("proportion", [.num (5 / 2), .num (2), .num (3 / 2), .num (1)]), ("n_neighbors", [.num (3), .num (5), .num (7)])]]
  getKeys := [("pressure", "pressure"), ("n_neighbors", "n_neighbors"), ("nn_params", "nn_params"), ("ss_params", "ss_params"), ("n_jobs", "n_jobs"), ("random_state", "random_state"), ("proportion", "proportion")]
  hasClassName := true
  categories := ["extensive", "metric_learning"]
  ss := some ⟨2, "random", "random", false, true⟩
  runtime := 3970990180969238000

/-- oversampling/_mwmote.py:73 (`__init__`), 146 (`parameter_combinations`), 565 (`get_params`). -/
def specMWMOTE : OsSpec where
  name := "MWMOTE"
  params := [("proportion", .num (1)), ("k1", .num (5)), ("k2", .num (5)), ("k3", .num (5)), ("M", .num (10)), ("cf_th", .num (5)), ("cmax", .num (10)), ("nn_params", .none), ("ss_params", .none), ("n_jobs", .num (1)), ("random_state", .none)]
  kwargs := true
  checks := [.ge "proportion" (0), .ge "k1" (1), .ge "k2" (1), .ge "k3" (1), .ge "M" (1), .ge "cf_th" (0), .ge "cmax" (0), .nJobs "n_jobs"]
  grids := [[("proportion", [.num (1 / 10), .num (1 / 4), .num (1 / 2), .num (3 / 4), .num (1), .num (3 / 2), .num (2)]), ("k1", [.num (5), .num (9)]), ("k2", [.num (5), .num (9)]), ("k3", [.num (5), .num (9)]), ("M", [.num (4), .num (10)]), ("cf_th", [.num (5)]), ("cmax", [.num (10)])]]
  getKeys := [("proportion", "proportion"), ("k1", "k1"), ("k2", "k2"), ("k3", "k3"), ("M", "M"), ("cf_th", "cf_th"), ("cmax", "cmax"), ("nn_params", "nn_params"), ("n_jobs", "n_jobs"), ("ss_params", "ss_params"), ("random_state", "random_state")]
  hasClassName := true
  categories := ["extensive", "uses_clustering", "borderline", "metric_learning"]
  ss := some ⟨2, "random", "random", false, true⟩
  runtime := 3357472419738770000

/-- oversampling/_ndo_sampling.py:59 (`__init__`), 113 (`parameter_combinations`), 236 (`get_params`). -/
def specNDO_sampling : OsSpec where
  name := "NDO_sampling"
  params := [("proportion", .num (1)), ("n_neighbors", .num (5)), ("nn_params", .none), ("ss_params", .none), ("T", .num (1 / 2)), ("n_jobs", .num (1)), ("random_state", .none)]
  kwargs := true
  checks := [.ge "proportion" (0), .ge "n_neighbors" (1), .ge "T" (0), .nJobs "n_jobs"]
  grids := [[("proportion", [.num (1 / 10), .num (1 / 4), .num (1 / 2), .num (3 / 4), .num (1), .num (3 / 2), .num (2)]), ("n_neighbors", [.num (3), .num (5), .num (7)]), ("T", [.num (1 / 2)])]]
  getKeys := [("proportion", "proportion"), ("n_neighbors", "n_neighbors"), ("nn_params", "nn_params"), ("ss_params", "ss_params"), ("T", "T"), ("n_jobs", "n_jobs"), ("random_state", "random_state")]
  hasClassName := true
  categories := ["extensive", "sample_ordinary", "application", "metric_learning"]
  ss := some ⟨2, "random", "random", false, true⟩
  runtime := 431115627288818300

/-- oversampling/_neater.py:63 (`__init__`), 123 (`parameter_combinations`), 402 (`get_params`). -/
def specNEATER : OsSpec where
  name := "NEATER"
  params := [("proportion", .num (1)), ("smote_n_neighbors", .num (5)), ("nn_params", .none), ("ss_params", .none), ("b", .num (5)), ("alpha", .num (1 / 10)), ("h", .num (20)), ("n_jobs", .num (1)), ("random_state", .none)]
  kwargs := true
  checks := [.ge "proportion" (0), .ge "smote_n_neighbors" (1), .ge "b" (1), .ge "alpha" (0), .ge "h" (0), .nJobs "n_jobs"]
  grids := [[("proportion", [.num (1 / 10), .num (1 / 4), .num (1 / 2), .num (3 / 4), .num (1), .num (3 / 2), .num (2)]), ("smote_n_neighbors", [.num (3), .num (5), .num (7)]), ("b", [.num (3), .num (5), .num (7)]), ("alpha", [.num (1 / 10)]), ("h", [.num (20)])]]
  getKeys := [("proportion", "proportion"), ("smote_n_neighbors", "smote_n_neighbors"), ("b", "b"), ("alpha", "alpha"), ("h", "h"), ("nn_params", "nn_params"), ("ss_params", "ss_params"), ("n_jobs", "n_jobs"), ("random_state", "random_state")]
  hasClassName := true
  categories := ["extensive", "borderline", "changes_majority", "metric_learning"]
  ss := some ⟨2, "random", "random", false, true⟩
  runtime := 4637973308563233000

/-- oversampling/_nras.py:47 (`__init__`), 100 (`parameter_combinations`), 285 (`get_params`). -/
def specNRAS : OsSpec where
  name := "NRAS"
  params := [("proportion", .num (1)), ("n_neighbors", .num (5)), ("nn_params", .none), ("ss_params", .none), ("t", .num (1 / 2)), ("n_jobs", .num (1)), ("random_state", .none)]
  kwargs := true
  checks := [.ge "proportion" (0), .ge "n_neighbors" (1), .range "t" (0) (1), .nJobs "n_jobs"]
  grids := [[("proportion", [.num (1 / 10), .num (1 / 4), .num (1 / 2), .num (3 / 4), .num (1), .num (3 / 2), .num (2)]), ("n_neighbors", [.num (5), .num (7), .num (9)]), ("t", [.num (3 / 10), .num (1 / 2), .num (4 / 5)])]]
  getKeys := [("proportion", "proportion"), ("n_neighbors", "n_neighbors"), ("nn_params", "nn_params"), ("t", "t"), ("n_jobs", "n_jobs"), ("ss_params", "ss_params"), ("random_state", "random_state")]
  hasClassName := true
  categories := ["sample_ordinary", "noise_removal", "metric_learning"]
  ss := some ⟨2, "random", "random", false, true⟩
  runtime := 505042076110839840

/-- oversampling/_nrsboundary_smote.py:41 (`__init__`), 95 (`parameter_combinations`), 316 (`get_params`). -/
def specNRSBoundary_SMOTE : OsSpec where
  name := "NRSBoundary_SMOTE"
  params := [("proportion", .num (1)), ("n_neighbors", .num (5)), ("nn_params", .none), ("ss_params", .none), ("w", .num (1 / 200)), ("n_jobs", .num (1)), ("random_state", .none)]
  kwargs := true
  checks := [.ge "proportion" (0), .ge "n_neighbors" (1), .ge "w" (0), .nJobs "n_jobs"]
  grids := [[("proportion", [.num (1 / 10), .num (1 / 4), .num (1 / 2), .num (3 / 4), .num (1), .num (3 / 2), .num (2)]), ("n_neighbors", [.num (3), .num (5), .num (7)]), ("w", [.num (1 / 200), .num (1 / 100), .num (1 / 20)])]]
  getKeys := [("proportion", "proportion"), ("n_neighbors", "n_neighbors"), ("nn_params", "nn_params"), ("w", "w"), ("n_jobs", "n_jobs"), ("ss_params", "ss_params"), ("random_state", "random_state")]
  hasClassName := true
  categories := ["extensive", "borderline", "metric_learning"]
  ss := some ⟨2, "random", "random", false, true⟩
  runtime := 5426912307739258000

/-- oversampling/_nt_smote.py:65 (`__init__`), 110 (`parameter_combinations`), 168 (`get_params`). -/
def specNT_SMOTE : OsSpec where
  name := "NT_SMOTE"
  params := [("proportion", .num (1)), ("nn_params", .none), ("ss_params", .none), ("n_jobs", .num (1)), ("random_state", .none)]
  kwargs := true
  checks := [.ge "proportion" (0), .nJobs "n_jobs"]
  grids := [[("proportion", [.num (1 / 10), .num (1 / 4), .num (1 / 2), .num (3 / 4), .num (1), .num (3 / 2), .num (2)])]]
  getKeys := [("proportion", "proportion"), ("nn_params", "nn_params"), ("n_jobs", "n_jobs"), ("ss_params", "ss_params"), ("random_state", "random_state")]
  hasClassName := true
  categories := ["extensive", "application", "metric_learning"]
  ss := some ⟨3, "random", "random", false, true⟩
  runtime := 152096748352050770

/-- oversampling/_oups.py:48 (`__init__`), 81 (`parameter_combinations`), 196 (`get_params`). -/
def specOUPS : OsSpec where
  name := "OUPS"
  params := [("proportion", .num (1)), ("ss_params", .none), ("n_jobs", .num (1)), ("random_state", .none)]
  kwargs := true
  checks := [.ge "proportion" (0), .nJobs "n_jobs"]
  grids := [[("proportion", [.num (1 / 10), .num (1 / 4), .num (1 / 2), .num (3 / 4), .num (1), .num (3 / 2), .num (2)])]]
  getKeys := [("proportion", "proportion"), ("n_jobs", "n_jobs"), ("ss_params", "ss_params"), ("random_state", "random_state")]
  hasClassName := true
  categories := ["extensive", "sample_ordinary"]
  ss := some ⟨2, "random", "random", false, true⟩
  runtime := 482435226440429700

/-- oversampling/_pdfos.py:299 (`__init__`), 331 (`parameter_combinations`), 382 (`get_params`). -/
def specPDFOS : OsSpec where
  name := "PDFOS"
  params := [("proportion", .num (1)), ("metric_learning", .none), ("n_jobs", .num (1)), ("random_state", .none)]
  kwargs := true
  checks := [.ge "proportion" (0), .nJobs "n_jobs"]
  grids := [[("proportion", [.num (1 / 10), .num (1 / 4), .num (1 / 2), .num (3 / 4), .num (1), .num (3 / 2), .num (2)])]]
  getKeys := [("proportion", "proportion"), ("n_jobs", "n_jobs"), ("random_state", "random_state")]
  hasClassName := true
  categories := ["extensive", "density_estimation"]
  ss := none
  runtime := 435714721679687500

/-- oversampling/_prowsyn.py:53 (`__init__`), 111 (`parameter_combinations`), 268 (`get_params`). -/
def specProWSyn : OsSpec where
  name := "ProWSyn"
  params := [("proportion", .num (1)), ("n_neighbors", .num (5)), ("nn_params", .none), ("ss_params", .none), ("L", .num (5)), ("theta", .num (1)), ("n_jobs", .num (1)), ("random_state", .none)]
  kwargs := true
  checks := [.ge "proportion" (0), .ge "n_neighbors" (1), .ge "L" (1), .ge "theta" (0), .nJobs "n_jobs"]
  grids := [[("proportion", [.num (1 / 10), .num (1 / 4), .num (1 / 2), .num (3 / 4), .num (1), .num (3 / 2), .num (2)]), ("n_neighbors", [.num (3), .num (5), .num (7), .num (11), .num (17)]), ("L", [.num (3), .num (5), .num (7)]), ("theta", [.num (1 / 10), .num (1), .num (2)])]]
  getKeys := [("proportion", "proportion"), ("n_neighbors", "n_neighbors"), ("nn_params", "nn_params"), ("L", "L"), ("theta", "theta"), ("n_jobs", "n_jobs"), ("ss_params", "ss_params"), ("random_state", "random_state")]
  hasClassName := true
  categories := ["extensive", "sample_ordinary", "metric_learning"]
  ss := some ⟨2, "random", "random", false, true⟩
  runtime := 3614718914031982000

/-- oversampling/_random_smote.py:44 (`__init__`), 85 (`parameter_combinations`), 154 (`get_params`). -/
def specRandom_SMOTE : OsSpec where
  name := "Random_SMOTE"
  params := [("proportion", .num (1)), ("n_neighbors", .num (5)), ("nn_params", .none), ("n_jobs", .num (1)), ("random_state", .none)]
  kwargs := true
  checks := [.ge "proportion" (0), .ge "n_neighbors" (1), .nJobs "n_jobs"]
  grids := [[("proportion", [.num (1 / 10), .num (1 / 4), .num (1 / 2), .num (3 / 4), .num (1), .num (3 / 2), .num (2)]), ("n_neighbors", [.num (3), .num (5), .num (7)])]]
  getKeys := [("proportion", "proportion"), ("n_neighbors", "n_neighbors"), ("nn_params", "nn_params"), ("n_jobs", "n_jobs"), ("random_state", "random_state")]
  hasClassName := true
  categories := ["extensive", "sample_componentwise", "metric_learning"]
  ss := none
  runtime := 164999961853027350

/-- oversampling/_rose.py:47 (`__init__`), 65 (`parameter_combinations`), 115 (`get_params`). -/
def specROSE : OsSpec where
  name := "ROSE"
  params := [("proportion", .num (1)), ("random_state", .none)]
  kwargs := true
  checks := [.ge "proportion" (0)]
  grids := [[("proportion", [.num (1 / 10), .num (1 / 4), .num (1 / 2), .num (3 / 4), .num (1), .num (3 / 2), .num (2)])]]
  getKeys := [("proportion", "proportion"), ("random_state", "random_state")]
  hasClassName := true
  categories := ["extensive", "sample_componentwise"]
  ss := none
  runtime := 48253536224365237

/-- oversampling/_rwo_sampling.py:36 (`__init__`), 81 (`parameter_combinations`), 130 (`get_params`). -/
def specRWO_sampling : OsSpec where
  name := "RWO_sampling"
  params := [("proportion", .num (1)), ("nn_params", .none), ("ss_params", .none), ("n_jobs", .num (1)), ("random_state", .none)]
  kwargs := true
  checks := [.ge "proportion" (0), .nJobs "n_jobs"]
  grids := [[("proportion", [.num (1 / 10), .num (1 / 4), .num (1 / 2), .num (3 / 4), .num (1), .num (3 / 2), .num (2)])]]
  getKeys := [("proportion", "proportion"), ("nn_params", "nn_params"), ("n_jobs", "n_jobs"), ("ss_params", "ss_params"), ("random_state", "random_state")]
  hasClassName := true
  categories := ["extensive"]
  ss := some ⟨1, "random", "random", false, true⟩
  runtime := 122277736663818360

/-- oversampling/_safe_level_smote.py:59 (`__init__`), 100 (`parameter_combinations`), 221 (`get_params`). -/
def specSafe_Level_SMOTE : OsSpec where
  name := "Safe_Level_SMOTE"
  params := [("proportion", .num (1)), ("n_neighbors", .num (5)), ("nn_params", .none), ("n_jobs", .num (1)), ("random_state", .none)]
  kwargs := true
  checks := [.ge "proportion" (0), .ge "n_neighbors" (1), .nJobs "n_jobs"]
  grids := [[("proportion", [.num (1 / 10), .num (1 / 4), .num (1 / 2), .num (3 / 4), .num (1), .num (3 / 2), .num (2)]), ("n_neighbors", [.num (3), .num (5), .num (7)])]]
  getKeys := [("proportion", "proportion"), ("n_neighbors", "n_neighbors"), ("nn_params", "nn_params"), ("n_jobs", "n_jobs"), ("random_state", "random_state")]
  hasClassName := true
  categories := ["borderline", "extensive", "sample_componentwise", "metric_learning"]
  ss := none
  runtime := 169680118560791000

/-- oversampling/_sdsmote.py:63 (`__init__`), 113 (`parameter_combinations`), 221 (`get_params`). -/
def specSDSMOTE : OsSpec where
  name := "SDSMOTE"
  params := [("proportion", .num (1)), ("n_neighbors", .num (5)), ("nn_params", .none), ("ss_params", .none), ("n_jobs", .num (1)), ("random_state", .none)]
  kwargs := true
  checks := [.ge "proportion" (0), .ge "n_neighbors" (1), .nJobs "n_jobs"]
  grids := [[("proportion", [.num (1 / 10), .num (1 / 4), .num (1 / 2), .num (3 / 4), .num (1), .num (3 / 2), .num (2)]), ("n_neighbors", [.num (3), .num (5), .num (7)])]]
  getKeys := [("proportion", "proportion"), ("n_neighbors", "n_neighbors"), ("nn_params", "nn_params"), ("n_jobs", "n_jobs"), ("ss_params", "ss_params"), ("random_state", "random_state")]
  hasClassName := true
  categories := ["extensive", "sample_ordinary", "borderline", "metric_learning"]
  ss := some ⟨2, "random", "random", false, true⟩
  runtime := 6174941062927246000

/-- oversampling/_selected_smote.py:41 (`__init__`), 85 (`parameter_combinations`), 212 (`get_params`). -/
def specSelected_SMOTE : OsSpec where
  name := "Selected_SMOTE"
  params := [("proportion", .num (1)), ("n_neighbors", .num (5)), ("nn_params", .none), ("perc_sign_attr", .num (1 / 2)), ("n_jobs", .num (1)), ("random_state", .none)]
  kwargs := true
  checks := [.ge "proportion" (0), .ge "n_neighbors" (1), .range "perc_sign_attr" (0) (1), .nJobs "n_jobs"]
  grids := [[("proportion", [.num (1 / 10), .num (1 / 4), .num (1 / 2), .num (3 / 4), .num (1), .num (3 / 2), .num (2)]), ("n_neighbors", [.num (3), .num (5), .num (7)]), ("perc_sign_attr", [.num (3 / 10), .num (1 / 2), .num (4 / 5)])]]
  getKeys := [("proportion", "proportion"), ("n_neighbors", "n_neighbors"), ("nn_params", "nn_params"), ("perc_sign_attr", "perc_sign_attr"), ("n_jobs", "n_jobs"), ("random_state", "random_state")]
  hasClassName := true
  categories := ["extensive", "sample_componentwise", "metric_learning"]
  ss := none
  runtime := 147976875305175800

/-- oversampling/_sl_graph_smote.py:49 (`__init__`), 100 (`parameter_combinations`), 173 (`get_params`). -/
def specSL_graph_SMOTE : OsSpec where
  name := "SL_graph_SMOTE"
  params := [("proportion", .num (1)), ("n_neighbors", .num (5)), ("nn_params", .none), ("ss_params", .none), ("n_jobs", .num (1)), ("random_state", .none)]
  kwargs := true
  checks := [.ge "proportion" (0), .ge "n_neighbors" (1), .nJobs "n_jobs"]
  grids := [[("proportion", [.num (1 / 10), .num (1 / 4), .num (1 / 2), .num (3 / 4), .num (1), .num (3 / 2), .num (2)]), ("n_neighbors", [.num (3), .num (5), .num (7)])]]
  getKeys := [("proportion", "proportion"), ("n_neighbors", "n_neighbors"), ("nn_params", "nn_params"), ("ss_params", "ss_params"), ("n_jobs", "n_jobs"), ("random_state", "random_state")]
  hasClassName := true
  categories := ["extensive", "borderline", "metric_learning"]
  ss := some ⟨2, "random", "random", false, true⟩
  runtime := 301840305328369150

/-- oversampling/_smmo.py:54 (`__init__`), 111 (`parameter_combinations`), 224 (`get_params`). -/
def specSMMO : OsSpec where
  name := "SMMO"
  params := [("proportion", .num (1)), ("n_neighbors", .num (5)), ("ensemble", .obj "(('sklearn.discriminant_analysis', 'QuadraticDiscriminantAnalysis', {}), ('sklearn.tree', 'DecisionTreeClassifier', {'random_state': 2}), ('sklearn.naive_bayes', 'GaussianNB', {}))"), ("nn_params", .none), ("ss_params", .none), ("n_jobs", .num (1)), ("random_state", .none)]
  kwargs := true
  checks := [.ge "proportion" (0), .ge "n_neighbors" (1), .nJobs "n_jobs"]
  grids := [[("proportion", [.num (1 / 10), .num (1 / 4), .num (1 / 2), .num (3 / 4), .num (1), .num (3 / 2), .num (2)]), ("n_neighbors", [.num (3), .num (5), .num (7)]), ("ensemble", [.obj "[('sklearn.discriminant_analysis', 'QuadraticDiscriminantAnalysis', {}), ('sklearn.tree', 'DecisionTreeClassifier', {'random_state': 2}), ('sklearn.naive_bayes', 'GaussianNB', {})]"])]]
  getKeys := [("proportion", "proportion"), ("n_neighbors", "n_neighbors"), ("ensemble", "ensemble"), ("nn_params", "nn_params"), ("n_jobs", "n_jobs"), ("ss_params", "ss_params"), ("random_state", "random_state")]
  hasClassName := true
  categories := ["borderline", "extensive", "uses_classifier", "metric_learning"]
  ss := some ⟨2, "random", "random", false, true⟩
  runtime := 318846702575683600

/-- oversampling/_smobd.py:64 (`__init__`), 115 (`parameter_combinations`), 241 (`get_params`). -/
def specSMOBD : OsSpec where
  name := "SMOBD"
  params := [("proportion", .num (1)), ("eta1", .num (1 / 2)), ("t", .num (9 / 5)), ("min_samples", .num (5)), ("nn_params", .none), ("max_eps", .num (1)), ("n_jobs", .num (1)), ("random_state", .none)]
  kwargs := true
  checks := [.ge "proportion" (0), .range "eta1" (0) (1), .ge "t" (0), .ge "min_samples" (1), .ge "max_eps" (0), .nJobs "n_jobs"]
  grids := [[("proportion", [.num (1 / 10), .num (1 / 4), .num (1 / 2), .num (3 / 4), .num (1), .num (3 / 2), .num (2)]), ("eta1", [.num (1 / 10), .num (1 / 2), .num (9 / 10)]), ("t", [.num (3 / 2), .num (5 / 2)]), ("min_samples", [.num (5)]), ("max_eps", [.num (1 / 10), .num (1 / 2), .num (1), .num (2)])]]
  getKeys := [("proportion", "proportion"), ("eta1", "eta1"), ("t", "t"), ("min_samples", "min_samples"), ("nn_params", "nn_params"), ("max_eps", "max_eps"), ("n_jobs", "n_jobs"), ("random_state", "random_state")]
  hasClassName := true
  categories := ["uses_clustering", "density_based", "extensive", "noise_removal", "metric_learning"]
  ss := none
  runtime := 565187931060791000

/-- oversampling/_smote_cosine.py:36 (`__init__`), 62 (`parameter_combinations`), 187 (`get_params`). -/
def specSMOTE_Cosine : OsSpec where
  name := "SMOTE_Cosine"
  params := [("proportion", .num (1)), ("n_neighbors", .num (5)), ("n_jobs", .num (1)), ("random_state", .none)]
  kwargs := true
  checks := [.ge "proportion" (0), .ge "n_neighbors" (1), .nJobs "n_jobs"]
  grids := [[("proportion", [.num (1 / 10), .num (1 / 4), .num (1 / 2), .num (3 / 4), .num (1), .num (3 / 2), .num (2)]), ("n_neighbors", [.num (3), .num (5), .num (7)])]]
  getKeys := [("proportion", "proportion"), ("n_neighbors", "n_neighbors"), ("n_jobs", "n_jobs"), ("random_state", "random_state")]
  hasClassName := true
  categories := ["extensive"]
  ss := none
  runtime := 288541316986083970

/-- oversampling/_smote_d.py:46 (`__init__`), 86 (`parameter_combinations`), 174 (`get_params`). -/
def specSMOTE_D : OsSpec where
  name := "SMOTE_D"
  params := [("proportion", .num (1)), ("k", .num (3)), ("nn_params", .none), ("n_jobs", .num (1)), ("random_state", .none)]
  kwargs := true
  checks := [.ge "proportion" (0), .ge "k" (1), .nJobs "n_jobs"]
  grids := [[("proportion", [.num (1 / 10), .num (1 / 4), .num (1 / 2), .num (3 / 4), .num (1), .num (3 / 2), .num (2)]), ("k", [.num (3), .num (5), .num (7)])]]
  getKeys := [("proportion", "proportion"), ("k", "k"), ("nn_params", "nn_params"), ("n_jobs", "n_jobs"), ("random_state", "random_state")]
  hasClassName := true
  categories := ["extensive", "metric_learning"]
  ss := none
  runtime := 385658740997314470

/-- oversampling/_smote_enn.py:56 (`__init__`), 108 (`parameter_combinations`), 151 (`get_params`). -/
def specSMOTE_ENN : OsSpec where
  name := "SMOTE_ENN"
  params := [("proportion", .num (1)), ("n_neighbors", .num (5)), ("nn_params", .none), ("ss_params", .none), ("n_jobs", .num (1)), ("random_state", .none)]
  kwargs := true
  checks := [.ge "proportion" (0), .ge "n_neighbors" (1), .nJobs "n_jobs"]
  grids := [[("proportion", [.num (1 / 10), .num (1 / 4), .num (1 / 2), .num (3 / 4), .num (1), .num (3 / 2), .num (2)]), ("n_neighbors", [.num (3), .num (5), .num (7), .num (11), .num (17)])]]
  getKeys := [("proportion", "proportion"), ("n_neighbors", "n_neighbors"), ("nn_params", "nn_params"), ("ss_params", "ss_params"), ("n_jobs", "n_jobs"), ("random_state", "random_state")]
  hasClassName := true
  categories := ["sample_ordinary", "noise_removal", "changes_majority", "metric_learning"]
  ss := some ⟨2, "random", "random", false, true⟩
  runtime := 1223127841949462800

/-- oversampling/_smote_frst_2t.py:67 (`__init__`), 117 (`parameter_combinations`), 286 (`get_params`). -/
def specSMOTE_FRST_2T : OsSpec where
  name := "SMOTE_FRST_2T"
  params := [("n_neighbors", .num (5)), ("nn_params", .none), ("ss_params", .none), ("gamma_S", .num (7 / 10)), ("gamma_M", .num (3 / 100)), ("n_jobs", .num (1)), ("random_state", .none)]
  kwargs := true
  checks := [.ge "n_neighbors" (1), .ge "gamma_S" (0), .ge "gamma_M" (0), .nJobs "n_jobs"]
  grids := [[("n_neighbors", [.num (3), .num (5), .num (7)]), ("gamma_S", [.num (4 / 5), .num (1)]), ("gamma_M", [.num (3 / 100), .num (1 / 20), .num (1 / 10)])]]
  getKeys := [("n_neighbors", "n_neighbors"), ("nn_params", "nn_params"), ("ss_params", "ss_params"), ("gamma_S", "gamma_S"), ("gamma_M", "gamma_M"), ("n_jobs", "n_jobs"), ("random_state", "random_state")]
  hasClassName := true
  categories := ["changes_majority", "noise_removal", "sample_ordinary", "application", "metric_learning"]
  ss := some ⟨2, "random", "random", false, true⟩
  runtime := 1406383514404296900

/-- oversampling/_smote_ipf.py:53 (`__init__`), 124 (`parameter_combinations`), 208 (`get_params`). -/
def specSMOTE_IPF : OsSpec where
  name := "SMOTE_IPF"
  params := [("proportion", .num (1)), ("n_neighbors", .num (5)), ("nn_params", .none), ("ss_params", .none), ("n_folds", .num (9)), ("k", .num (3)), ("p", .num (1 / 100)), ("voting", .str "majority"), ("classifier", .obj "('sklearn.tree', 'DecisionTreeClassifier', {'random_state': 2})"), ("n_jobs", .num (1)), ("random_state", .none)]
  kwargs := true
  checks := [.ge "proportion" (0), .ge "n_neighbors" (1), .ge "n_folds" (2), .ge "k" (1), .ge "p" (0), .isin "voting" ["majority", "consensus"], .nJobs "n_jobs"]
  grids := [[("proportion", [.num (1 / 10), .num (1 / 4), .num (1 / 2), .num (3 / 4), .num (1), .num (3 / 2), .num (2)]), ("n_neighbors", [.num (3), .num (5), .num (7), .num (11), .num (17)]), ("n_folds", [.num (9)]), ("k", [.num (3)]), ("p", [.num (1 / 100)]), ("voting", [.str "majority", .str "consensus"]), ("classifier", [.obj "('sklearn.tree', 'DecisionTreeClassifier', {'random_state': 2})"])]]
  getKeys := [("proportion", "proportion"), ("n_neighbors", "n_neighbors"), ("nn_params", "nn_params"), ("ss_params", "ss_params"), ("n_folds", "n_folds"), ("k", "k"), ("p", "p"), ("voting", "voting"), ("n_jobs", "n_jobs"), ("classifier", "classifier"), ("random_state", "random_state")]
  hasClassName := true
  categories := ["changes_majority", "uses_classifier", "metric_learning"]
  ss := some ⟨2, "random", "random", false, true⟩
  runtime := 2965595722198486500

/-- oversampling/_smote_out.py:37 (`__init__`), 76 (`parameter_combinations`), 206 (`get_params`). -/
def specSMOTE_OUT : OsSpec where
  name := "SMOTE_OUT"
  params := [("proportion", .num (1)), ("n_neighbors", .num (5)), ("nn_params", .none), ("n_jobs", .num (1)), ("random_state", .none)]
  kwargs := true
  checks := [.ge "proportion" (0), .ge "n_neighbors" (1), .nJobs "n_jobs"]
  grids := [[("proportion", [.num (1 / 10), .num (1 / 4), .num (1 / 2), .num (3 / 4), .num (1), .num (3 / 2), .num (2)]), ("n_neighbors", [.num (3), .num (5), .num (7)])]]
  getKeys := [("proportion", "proportion"), ("n_neighbors", "n_neighbors"), ("nn_params", "nn_params"), ("n_jobs", "n_jobs"), ("random_state", "random_state")]
  hasClassName := true
  categories := ["extensive", "metric_learning"]
  ss := none
  runtime := 236258506774902340

/-- oversampling/_smote_pso.py:67 (`__init__`), 128 (`parameter_combinations`), 626 (`get_params`). -/
def specSMOTE_PSO : OsSpec where
  name := "SMOTE_PSO"
  params := [("k", .num (3)), ("nn_params", .none), ("eps", .num (1 / 100)), ("n_pop", .num (10)), ("w", .num (1)), ("c1", .num (2)), ("c2", .num (2)), ("num_it", .num (15)), ("n_jobs", .num (1)), ("random_state", .none)]
  kwargs := true
  checks := [.ge "k" (1), .gt "eps" (0), .ge "n_pop" (1), .ge "w" (0), .ge "c1" (0), .ge "c2" (0), .ge "num_it" (1), .nJobs "n_jobs"]
  grids := [[("k", [.num (3), .num (5), .num (7)]), ("eps", [.num (1 / 100)]), ("n_pop", [.num (5)]), ("w", [.num (1 / 2), .num (1)]), ("c1", [.num (1), .num (2)]), ("c2", [.num (1), .num (2)]), ("num_it", [.num (20)])]]
  getKeys := [("k", "k"), ("nn_params", "nn_params"), ("eps", "eps"), ("n_pop", "n_pop"), ("w", "w"), ("c1", "c1"), ("c2", "c2"), ("num_it", "num_it"), ("n_jobs", "n_jobs"), ("random_state", "random_state")]
  hasClassName := true
  categories := ["extensive", "memetic", "uses_classifier", "metric_learning"]
  ss := none
  runtime := 323477416038513170000

/-- oversampling/_smote_psobat.py:75 (`__init__`), 150 (`parameter_combinations`), 816 (`get_params`). -/
def specSMOTE_PSOBAT : OsSpec where
  name := "SMOTE_PSOBAT"
  params := [("maxit", .num (50)), ("c1", .num (3 / 10)), ("c2", .num (1 / 10)), ("c3", .num (1 / 10)), ("alpha", .num (9 / 10)), ("gamma", .num (9 / 10)), ("method", .str "bat"), ("nn_params", .none), ("ss_params", .none), ("n_jobs", .num (1)), ("random_state", .none)]
  kwargs := true
  checks := [.ge "maxit" (1), .ge "c1" (0), .ge "c2" (0), .ge "c3" (0), .ge "alpha" (0), .ge "gamma" (0), .isin "method" ["pso", "bat"], .nJobs "n_jobs"]
  grids := [[("maxit", [.num (50)]), ("alpha", [.num (7 / 10), .num (9 / 10)]), ("gamma", [.num (7 / 10), .num (9 / 10)]), ("method", [.str "bat"])],
    [("maxit", [.num (50)]), ("c1", [.num (1 / 5), .num (1 / 2)]), ("c2", [.num (1 / 10), .num (1 / 5)]), ("c3", [.num (1 / 10), .num (1 / 5)]), ("method", [.str "pso"])]]
  getKeys := [("maxit", "maxit"), ("c1", "c1"), ("c2", "c2"), ("c3", "c3"), ("alpha", "alpha"), ("gamma", "gamma"), ("method", "method"), ("nn_params", "nn_params"), ("ss_params", "ss_params"), ("n_jobs", "n_jobs"), ("random_state", "random_state")]
  hasClassName := true
  categories := ["extensive", "uses_clustering", "sample_ordinary", "memetic", "metric_learning"]
  ss := some ⟨2, "random", "random", false, true⟩
  runtime := 83712158203125000000

/-- oversampling/_smote_rsb.py:64 (`__init__`), 114 (`parameter_combinations`), 221 (`get_params`). -/
def specSMOTE_RSB : OsSpec where
  name := "SMOTE_RSB"
  params := [("proportion", .num (1)), ("n_neighbors", .num (5)), ("nn_params", .none), ("ss_params", .none), ("n_jobs", .num (1)), ("random_state", .none)]
  kwargs := true
  checks := [.ge "proportion" (0), .ge "n_neighbors" (1), .nJobs "n_jobs"]
  grids := [[("proportion", [.num (1 / 10), .num (1 / 4), .num (1 / 2), .num (3 / 4), .num (1), .num (3 / 2), .num (2)]), ("n_neighbors", [.num (3), .num (5), .num (7)])]]
  getKeys := [("proportion", "proportion"), ("n_neighbors", "n_neighbors"), ("nn_params", "nn_params"), ("ss_params", "ss_params"), ("n_jobs", "n_jobs"), ("random_state", "random_state")]
  hasClassName := true
  categories := ["extensive", "sample_ordinary", "metric_learning"]
  ss := some ⟨2, "random", "random", false, true⟩
  runtime := 414657592773437500

/-- oversampling/_smote_tomeklinks.py:51 (`__init__`), 105 (`parameter_combinations`), 167 (`get_params`). -/
def specSMOTE_TomekLinks : OsSpec where
  name := "SMOTE_TomekLinks"
  params := [("proportion", .num (1)), ("n_neighbors", .num (5)), ("nn_params", .none), ("ss_params", .none), ("n_jobs", .num (1)), ("random_state", .none)]
  kwargs := true
  checks := [.ge "proportion" (0), .ge "n_neighbors" (1), .nJobs "n_jobs"]
  grids := [[("proportion", [.num (1 / 10), .num (1 / 4), .num (1 / 2), .num (3 / 4), .num (1), .num (3 / 2), .num (2)]), ("n_neighbors", [.num (3), .num (5), .num (7), .num (11), .num (17)])]]
  getKeys := [("proportion", "proportion"), ("n_neighbors", "n_neighbors"), ("nn_params", "nn_params"), ("ss_params", "ss_params"), ("n_jobs", "n_jobs"), ("random_state", "random_state")]
  hasClassName := true
  categories := ["sample_ordinary", "noise_removal", "changes_majority", "metric_learning"]
  ss := some ⟨2, "random", "random", false, true⟩
  runtime := 374014377593994120

/-- oversampling/_smote.py:39 (`__init__`), 90 (`parameter_combinations`), 141 (`get_params`). -/
def specSMOTE : OsSpec where
  name := "SMOTE"
  params := [("proportion", .num (1)), ("n_neighbors", .num (5)), ("nn_params", .none), ("ss_params", .none), ("n_jobs", .num (1)), ("random_state", .none)]
  kwargs := true
  checks := [.ge "proportion" (0), .ge "n_neighbors" (1), .nJobs "n_jobs"]
  grids := [[("proportion", [.num (1 / 10), .num (1 / 4), .num (1 / 2), .num (3 / 4), .num (1), .num (3 / 2), .num (2)]), ("n_neighbors", [.num (3), .num (5), .num (7), .num (11), .num (17)])]]
  getKeys := [("proportion", "proportion"), ("n_neighbors", "n_neighbors"), ("nn_params", "nn_params"), ("n_jobs", "n_jobs"), ("ss_params", "ss_params"), ("random_state", "random_state")]
  hasClassName := true
  categories := ["sample_ordinary", "extensive", "metric_learning"]
  ss := some ⟨2, "random", "random", false, true⟩
  runtime := 145490169525146490

/-- oversampling/_sn_smote.py:48 (`__init__`), 98 (`parameter_combinations`), 282 (`get_params`). -/
def specSN_SMOTE : OsSpec where
  name := "SN_SMOTE"
  params := [("proportion", .num (1)), ("n_neighbors", .num (5)), ("nn_params", .none), ("ss_params", .none), ("n_jobs", .num (1)), ("random_state", .none)]
  kwargs := true
  checks := [.ge "proportion" (0), .ge "n_neighbors" (1), .nJobs "n_jobs"]
  grids := [[("proportion", [.num (1 / 10), .num (1 / 4), .num (1 / 2), .num (3 / 4), .num (1), .num (3 / 2), .num (2)]), ("n_neighbors", [.num (3), .num (5), .num (7)])]]
  getKeys := [("proportion", "proportion"), ("n_neighbors", "n_neighbors"), ("nn_params", "nn_params"), ("n_jobs", "n_jobs"), ("ss_params", "ss_params"), ("random_state", "random_state")]
  hasClassName := true
  categories := ["extensive", "sample_ordinary", "metric_learning"]
  ss := some ⟨2, "random", "random", false, true⟩
  runtime := 655467510223388650

/-- oversampling/_soi_cj.py:45 (`__init__`), 98 (`parameter_combinations`), 469 (`get_params`). -/
def specSOI_CJ : OsSpec where
  name := "SOI_CJ"
  params := [("proportion", .num (1)), ("n_neighbors", .num (5)), ("nn_params", .none), ("ss_params", .none), ("method", .str "jittering"), ("n_jobs", .num (1)), ("random_state", .none)]
  kwargs := true
  checks := [.ge "proportion" (0), .ge "n_neighbors" (1), .isin "method" ["interpolation", "jittering"], .nJobs "n_jobs"]
  grids := [[("proportion", [.num (1 / 10), .num (1 / 4), .num (1 / 2), .num (3 / 4), .num (1), .num (3 / 2), .num (2)]), ("n_neighbors", [.num (3), .num (5), .num (7)]), ("method", [.str "interpolation", .str "jittering"])]]
  getKeys := [("proportion", "proportion"), ("n_neighbors", "n_neighbors"), ("nn_params", "nn_params"), ("method", "method"), ("n_jobs", "n_jobs"), ("ss_params", "ss_params"), ("random_state", "random_state")]
  hasClassName := true
  categories := ["extensive", "uses_clustering", "sample_componentwise", "metric_learning"]
  ss := some ⟨1, "random", "random", false, true⟩
  runtime := 1218855381011962900

/-- oversampling/_somo.py:51 (`__init__`), 108 (`parameter_combinations`), 425 (`get_params`). -/
def specSOMO : OsSpec where
  name := "SOMO"
  params := [("proportion", .num (1)), ("n_grid", .num (10)), ("sigma", .num (1 / 5)), ("learning_rate", .num (1 / 2)), ("n_iter", .num (100)), ("nn_params", .none), ("ss_params", .none), ("n_jobs", .num (1)), ("random_state", .none)]
  kwargs := true
  checks := [.ge "proportion" (0), .ge "n_grid" (2), .gt "sigma" (0), .gt "learning_rate" (0), .ge "n_iter" (1), .nJobs "n_jobs"]
  grids := [[("proportion", [.num (1 / 10), .num (1 / 4), .num (1 / 2), .num (3 / 4), .num (1), .num (3 / 2), .num (2)]), ("n_grid", [.num (5), .num (9), .num (13)]), ("sigma", [.num (2 / 5)]), ("learning_rate", [.num (3 / 10), .num (1 / 2)]), ("n_iter", [.num (100)])]]
  getKeys := [("proportion", "proportion"), ("n_grid", "n_grid"), ("sigma", "sigma"), ("learning_rate", "learning_rate"), ("n_iter", "n_iter"), ("n_jobs", "n_jobs"), ("ss_params", "ss_params"), ("random_state", "random_state")]
  hasClassName := true
  categories := ["extensive", "uses_clustering", "metric_learning"]
  ss := some ⟨2, "random", "random", false, true⟩
  runtime := 1285688877105712800

/-- oversampling/_spy.py:57 (`__init__`), 95 (`parameter_combinations`), 161 (`get_params`). -/
def specSPY : OsSpec where
  name := "SPY"
  params := [("n_neighbors", .num (5)), ("nn_params", .none), ("threshold", .num (1 / 2)), ("n_jobs", .num (1)), ("random_state", .none)]
  kwargs := true
  checks := [.ge "n_neighbors" (1), .range "threshold" (0) (1), .nJobs "n_jobs"]
  grids := [[("n_neighbors", [.num (3), .num (5), .num (7)]), ("threshold", [.num (3 / 10), .num (1 / 2), .num (7 / 10)])]]
  getKeys := [("n_neighbors", "n_neighbors"), ("nn_params", "nn_params"), ("threshold", "threshold"), ("random_state", "random_state")]
  hasClassName := true
  categories := ["changes_majority", "metric_learning"]
  ss := none
  runtime := 102939605712890630

/-- oversampling/_sso.py:63 (`__init__`), 110 (`parameter_combinations`), 428 (`get_params`). -/
def specSSO : OsSpec where
  name := "SSO"
  params := [("proportion", .num (1)), ("n_neighbors", .num (5)), ("nn_params", .none), ("h", .num (10)), ("n_iter", .num (5)), ("n_jobs", .num (1)), ("random_state", .none)]
  kwargs := true
  checks := [.ge "proportion" (0), .ge "n_neighbors" (1), .ge "h" (1), .ge "n_iter" (1), .nJobs "n_jobs"]
  grids := [[("proportion", [.num (1 / 10), .num (1 / 4), .num (1 / 2), .num (3 / 4), .num (1), .num (3 / 2), .num (2)]), ("n_neighbors", [.num (3), .num (5)]), ("h", [.num (2), .num (5), .num (10), .num (20)]), ("n_iter", [.num (5)])]]
  getKeys := [("proportion", "proportion"), ("n_neighbors", "n_neighbors"), ("nn_params", "nn_params"), ("h", "h"), ("n_iter", "n_iter"), ("n_jobs", "n_jobs"), ("random_state", "random_state")]
  hasClassName := true
  categories := ["extensive", "uses_classifier", "uses_clustering", "density_based", "metric_learning"]
  ss := none
  runtime := 16729803085327150000

/-- oversampling/_stefanowski.py:51 (`__init__`), 86 (`parameter_combinations`), 322 (`get_params`). -/
def specStefanowski : OsSpec where
  name := "Stefanowski"
  params := [("strategy", .str "weak_amp"), ("nn_params", .none), ("n_jobs", .num (1)), ("random_state", .none)]
  kwargs := true
  checks := [.isin "strategy" ["weak_amp", "weak_amp_relabel", "strong_amp"], .nJobs "n_jobs"]
  grids := [[("strategy", [.str "weak_amp"])],
    [("strategy", [.str "weak_amp_relabel"])],
    [("strategy", [.str "strong_amp"])]]
  getKeys := [("strategy", "strategy"), ("nn_params", "nn_params"), ("n_jobs", "n_jobs"), ("random_state", "random_state")]
  hasClassName := true
  categories := ["changes_majority", "noise_removal", "sample_copy", "borderline", "metric_learning"]
  ss := none
  runtime := 595650672912597700

/-- oversampling/_sundo.py:62 (`__init__`), 84 (`parameter_combinations`), 225 (`get_params`). -/
def specSUNDO : OsSpec where
  name := "SUNDO"
  params := [("nn_params", .none), ("n_jobs", .num (1)), ("random_state", .none)]
  kwargs := true
  checks := [.nJobs "n_jobs"]
  grids := [[]]
  getKeys := [("nn_params", "nn_params"), ("n_jobs", "n_jobs"), ("random_state", "random_state")]
  hasClassName := true
  categories := ["changes_majority", "application", "metric_learning"]
  ss := none
  runtime := 1314666271209716800

/-- oversampling/_supervised_smote.py:49 (`__init__`), 103 (`parameter_combinations`), 191 (`get_params`). -/
def specSupervised_SMOTE : OsSpec where
  name := "Supervised_SMOTE"
  params := [("proportion", .num (1)), ("th_lower", .num (1 / 2)), ("th_upper", .num (1)), ("classifier", .obj "('sklearn.ensemble', 'RandomForestClassifier', {'n_estimators': 50, 'n_jobs': 1, 'random_state': 5})"), ("ss_params", .none), ("n_jobs", .num (1)), ("random_state", .none)]
  kwargs := true
  checks := [.ge "proportion" (0), .range "th_lower" (0) (1), .range "th_upper" (0) (1), .nJobs "n_jobs"]
  grids := [[("proportion", [.num (1 / 10), .num (1 / 4), .num (1 / 2), .num (3 / 4), .num (1), .num (3 / 2), .num (2)]), ("th_lower", [.num (3 / 10), .num (1 / 2), .num (4 / 5)]), ("th_upper", [.num (1)]), ("classifier", [.obj "('sklearn.ensemble', 'RandomForestClassifier', {'n_estimators': 50, 'n_jobs': 1, 'random_state': 5})"])]]
  getKeys := [("proportion", "proportion"), ("th_lower", "th_lower"), ("th_upper", "th_upper"), ("classifier", "classifier"), ("n_jobs", "n_jobs"), ("ss_params", "ss_params"), ("random_state", "random_state")]
  hasClassName := true
  categories := ["extensive", "sample_ordinary", "uses_classifier", "application"]
  ss := some ⟨2, "random", "random", false, true⟩
  runtime := 7257795333862305000

/-- oversampling/_svm_balance.py:57 (`__init__`), 107 (`parameter_combinations`), 164 (`get_params`). -/
def specSVM_balance : OsSpec where
  name := "SVM_balance"
  params := [("proportion", .num (1)), ("n_neighbors", .num (5)), ("nn_params", .none), ("ss_params", .none), ("n_jobs", .num (1)), ("random_state", .none)]
  kwargs := true
  checks := [.ge "proportion" (0), .ge "n_neighbors" (1), .nJobs "n_jobs"]
  grids := [[("proportion", [.num (1 / 10), .num (1 / 4), .num (1 / 2), .num (3 / 4), .num (1), .num (3 / 2), .num (2)]), ("n_neighbors", [.num (3), .num (5), .num (7)])]]
  getKeys := [("proportion", "proportion"), ("n_neighbors", "n_neighbors"), ("nn_params", "nn_params"), ("ss_params", "ss_params"), ("n_jobs", "n_jobs"), ("random_state", "random_state")]
  hasClassName := true
  categories := ["extensive", "uses_classifier", "changes_majority", "metric_learning"]
  ss := some ⟨2, "random", "random", false, true⟩
  runtime := 4968364238739013400

/-- oversampling/_symprod.py:45 (`__init__`), 102 (`parameter_combinations`), 478 (`get_params`). -/
def specSYMPROD : OsSpec where
  name := "SYMPROD"
  params := [("proportion", .num (1)), ("std_outliers", .num (3)), ("k_neighbors", .num (7)), ("m_neighbors", .num (7)), ("cutoff_threshold", .num (5 / 4)), ("nn_params", .none), ("n_jobs", .num (1)), ("random_state", .none)]
  kwargs := true
  checks := [.ge "proportion" (0), .ge "std_outliers" (1), .ge "k_neighbors" (1), .ge "m_neighbors" (1), .ge "cutoff_threshold" (1 / 100)]
  grids := [[("proportion", [.num (1)]), ("std_outliers", [.num (3), .num (4)]), ("k_neighbors", [.num (5), .num (7)]), ("m_neighbors", [.num (5), .num (7)]), ("cutoff_threshold", [.num (1), .num (5 / 4), .num (3 / 2)])]]
  getKeys := [("proportion", "proportion"), ("std_outliers", "std_outliers"), ("k_neighbors", "k_neighbors"), ("m_neighbors", "m_neighbors"), ("cutoff_threshold", "cutoff_threshold"), ("nn_params", "nn_params"), ("random_state", "random_state")]
  hasClassName := true
  categories := ["noise_removal", "density_based", "sample_componentwise", "metric_learning"]
  ss := none
  runtime := 986847877502441400

/-- oversampling/_trim_smote.py:55 (`__init__`), 108 (`parameter_combinations`), 413 (`get_params`). -/
def specTRIM_SMOTE : OsSpec where
  name := "TRIM_SMOTE"
  params := [("proportion", .num (1)), ("n_neighbors", .num (5)), ("nn_params", .none), ("ss_params", .none), ("min_precision", .num (3 / 10)), ("n_jobs", .num (1)), ("random_state", .none)]
  kwargs := true
  checks := [.ge "proportion" (0), .ge "n_neighbors" (1), .range "min_precision" (0) (1), .nJobs "n_jobs"]
  grids := [[("proportion", [.num (1 / 10), .num (1 / 4), .num (1 / 2), .num (3 / 4), .num (1), .num (3 / 2), .num (2)]), ("n_neighbors", [.num (3), .num (5), .num (7)]), ("min_precision", [.num (3 / 10)])]]
  getKeys := [("proportion", "proportion"), ("n_neighbors", "n_neighbors"), ("nn_params", "nn_params"), ("min_precision", "min_precision"), ("n_jobs", "n_jobs"), ("ss_params", "ss_params"), ("random_state", "random_state")]
  hasClassName := true
  categories := ["extensive", "uses_clustering", "metric_learning"]
  ss := some ⟨2, "random", "random", false, true⟩
  runtime := 791945457458496000

/-- oversampling/_v_synth.py:57 (`__init__`), 83 (`parameter_combinations`), 286 (`get_params`). -/
def specV_SYNTH : OsSpec where
  name := "V_SYNTH"
  params := [("proportion", .num (1)), ("n_components", .num (3)), ("n_jobs", .num (1)), ("random_state", .none)]
  kwargs := true
  checks := [.ge "proportion" (0), .ge "n_components" (1), .nJobs "n_jobs"]
  grids := [[("proportion", [.num (1 / 10), .num (1 / 4), .num (1 / 2), .num (3 / 4), .num (1), .num (3 / 2), .num (2)]), ("n_components", [.num (3)])]]
  getKeys := [("proportion", "proportion"), ("n_components", "n_components"), ("n_jobs", "n_jobs"), ("random_state", "random_state")]
  hasClassName := true
  categories := ["extensive", "sample_ordinary"]
  ss := none
  runtime := 2547247409820556700

/-- oversampling/_vis_rst.py:53 (`__init__`), 102 (`parameter_combinations`), 482 (`get_params`). -/
def specVIS_RST : OsSpec where
  name := "VIS_RST"
  params := [("proportion", .num (1)), ("n_neighbors", .num (5)), ("nn_params", .none), ("ss_params", .none), ("n_jobs", .num (1)), ("random_state", .none)]
  kwargs := true
  checks := [.ge "proportion" (0), .ge "n_neighbors" (1), .nJobs "n_jobs"]
  grids := [[("proportion", [.num (1 / 10), .num (1 / 4), .num (1 / 2), .num (3 / 4), .num (1), .num (3 / 2), .num (2)]), ("n_neighbors", [.num (3), .num (5), .num (7)])]]
  getKeys := [("proportion", "proportion"), ("n_neighbors", "n_neighbors"), ("nn_params", "nn_params"), ("n_jobs", "n_jobs"), ("ss_params", "ss_params"), ("random_state", "random_state")]
  hasClassName := true
  categories := ["changes_majority", "noise_removal", "metric_learning"]
  ss := some ⟨2, "random", "random", false, true⟩
  runtime := 1610591411590576300

/-- oversampling/_msmote.py:60 (`__init__`), 101 (`parameter_combinations`), 205 (`get_params`). -/
def specMSMOTE : OsSpec where
  name := "MSMOTE"
  params := [("proportion", .num (1)), ("n_neighbors", .num (5)), ("nn_params", .none), ("n_jobs", .num (1)), ("random_state", .none)]
  kwargs := true
  checks := [.ge "proportion" (0), .ge "n_neighbors" (1), .nJobs "n_jobs"]
  grids := [[("proportion", [.num (1 / 10), .num (1 / 4), .num (1 / 2), .num (3 / 4), .num (1), .num (3 / 2), .num (2)]), ("n_neighbors", [.num (3), .num (5), .num (7)])]]
  getKeys := [("proportion", "proportion"), ("n_neighbors", "n_neighbors"), ("nn_params", "nn_params"), ("n_jobs", "n_jobs"), ("random_state", "random_state")]
  hasClassName := true
  categories := ["extensive", "noise_removal", "borderline", "metric_learning"]
  ss := none
  runtime := 106558799743652340

/-- oversampling/_smote_amsr.py:28 (`__init__`), 51 (`parameter_combinations`), 440 (`get_params`). -/
def specSMOTE_AMSR : OsSpec where
  name := "SMOTE_AMSR"
  params := [("proportion", .num (1)), ("topology", .str "mesh"), ("random_state", .none)]
  kwargs := false
  checks := [.ge "proportion" (0), .isin "topology" ["star", "bus", "mesh"]]
  grids := [[("proportion", [.num (1 / 10), .num (1 / 4), .num (1 / 2), .num (3 / 4), .num (1), .num (3 / 2), .num (2)]), ("topology", [.str "bus", .str "star", .str "mesh"])]]
  getKeys := [("proportion", "proportion"), ("topology", "topology"), ("random_state", "random_state")]
  hasClassName := false
  categories := ["extensive"]
  ss := none
  runtime := 630000000000000000

/-- oversampling/_smotewb.py:46 (`__init__`), 93 (`parameter_combinations`), 369 (`get_params`). -/
def specSMOTEWB : OsSpec where
  name := "SMOTEWB"
  params := [("proportion", .num (1)), ("n_iters", .num (100)), ("max_depth", .num (30)), ("nn_params", .none), ("n_jobs", .num (1)), ("random_state", .none)]
  kwargs := true
  checks := [.ge "proportion" (0), .ge "n_iters" (1), .ge "max_depth" (3), .nJobs "n_jobs"]
  grids := [[("proportion", [.num (1 / 10), .num (1 / 4), .num (1 / 2), .num (3 / 4), .num (1), .num (3 / 2), .num (2)]), ("n_iters", [.num (30), .num (50), .num (100)]), ("max_depth", [.num (5), .num (10), .num (20), .num (30)])]]
  getKeys := [("proportion", "proportion"), ("max_depth", "max_depth"), ("nn_params", "nn_params"), ("n_iters", "n_iters"), ("random_state", "random_state")]
  hasClassName := true
  categories := ["noise_removal", "uses_classifier", "sample_ordinary", "extensive", "metric_learning"]
  ss := none
  runtime := 1850919290022416700

/-- queries/_queries.py:159-251. -/
def registry : List OsSpec :=
  [specA_SUWO,
    specADASYN,
    specADG,
    specADOMS,
    specAHC,
    specAMSCO,
    specAND_SMOTE,
    specANS,
    specASMOBD,
    specAssembled_SMOTE,
    specBorderline_SMOTE1,
    specBorderline_SMOTE2,
    specCBSO,
    specCCR,
    specCE_SMOTE,
    speccluster_SMOTE,
    specCURE_SMOTE,
    specDBSMOTE,
    specDE_oversampling,
    specDEAGO,
    specdistance_SMOTE,
    specDSMOTE,
    specDSRBF,
    specE_SMOTE,
    specEdge_Det_SMOTE,
    specG_SMOTE,
    specGASMOTE,
    specGaussian_SMOTE,
    specpolynom_fit_SMOTE_star,
    specpolynom_fit_SMOTE_bus,
    specpolynom_fit_SMOTE_poly,
    specpolynom_fit_SMOTE_mesh,
    specGazzah,
    specIPADE_ID,
    specISMOTE,
    specISOMAP_Hybrid,
    specKernelADASYN,
    speckmeans_SMOTE,
    specLee,
    specLLE_SMOTE,
    specLN_SMOTE,
    specLVQ_SMOTE,
    specMCT,
    specMDO,
    specMOT2LD,
    specMSYN,
    specMWMOTE,
    specNDO_sampling,
    specNEATER,
    specNRAS,
    specNRSBoundary_SMOTE,
    specNT_SMOTE,
    specOUPS,
    specPDFOS,
    specProWSyn,
    specRandom_SMOTE,
    specROSE,
    specRWO_sampling,
    specSafe_Level_SMOTE,
    specSDSMOTE,
    specSelected_SMOTE,
    specSL_graph_SMOTE,
    specSMMO,
    specSMOBD,
    specSMOTE_Cosine,
    specSMOTE_D,
    specSMOTE_ENN,
    specSMOTE_FRST_2T,
    specSMOTE_IPF,
    specSMOTE_OUT,
    specSMOTE_PSO,
    specSMOTE_PSOBAT,
    specSMOTE_RSB,
    specSMOTE_TomekLinks,
    specSMOTE,
    specSN_SMOTE,
    specSOI_CJ,
    specSOMO,
    specSPY,
    specSSO,
    specStefanowski,
    specSUNDO,
    specSupervised_SMOTE,
    specSVM_balance,
    specSYMPROD,
    specTRIM_SMOTE,
    specV_SYNTH,
    specVIS_RST,
    specMSMOTE,
    specSMOTE_AMSR,
    specSMOTEWB]

end Verif

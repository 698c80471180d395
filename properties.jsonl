{"id": "C01", "title": "Oversampling keeps the original data and adds only minority rows", "statement": "For every SMOTE-style oversampler that ends in 'stack X with the samples', sample(X, y) (and fit_resample) returns a dataset whose first len(X) rows and labels are exactly the input, in order; every further row is labelled with the minority label; rows and labels have equal length.", "quantifier": "all binary datasets, all parameter values accepted by the constructor, all random draws, all kNN answers", "why_tests_cant": "The number of datasets, parameters and draws is infinite; a dropped or permuted row only shows on particular shapes.", "anchors": ["smote_variants/base/_oversampling.py:OverSamplingBase.sample", "smote_variants/oversampling/_smote.py:SMOTE.sampling_algorithm", "smote_variants/base/_simplexsampling.py:SimplexSamplingMixin.sample_simplex"]}
{"id": "C02", "title": "The number of synthetic samples is exactly the requested share of the class gap", "statement": "sample(X, y) of SMOTE adds exactly max(0, trunc((n_maj-n_min)*proportion)) rows: proportion 1 balances the classes exactly, proportion in [0,1] never makes the minority larger than the majority, the count is monotone in proportion, and a non-numeric strategy raises ValueError.", "quantifier": "all class counts, all rational proportions, all random draws", "why_tests_cant": "Truncation boundaries and interaction of sampling modes with the requested count depend on unbounded integers.", "anchors": ["smote_variants/base/_oversampling.py:OverSamplingBase.det_n_to_sample", "smote_variants/oversampling/_smote.py:SMOTE.sampling_algorithm"]}
{"id": "C03", "title": "Synthetic SMOTE samples lie in the convex hull of minority points", "statement": "Without a gaussian component every row generated by SMOTE is a convex combination of original minority rows that are the base point and its listed neighbours, hence lies coordinatewise between the minimum and maximum of the minority class.", "quantifier": "all datasets, neighbour lists, simplex dimensions and draws (every mode of the simplex sampler)", "why_tests_cant": "A single weight outside the simplex for one draw breaks it; draws form a continuum.", "anchors": ["smote_variants/base/_simplexsampling.py:random_samples_from_simplices", "smote_variants/base/_simplexsampling.py:SimplexSamplingMixin.sample_simplex", "smote_variants/base/_simplexsampling.py:add_samples"]}
{"id": "C04", "title": "Too small or balanced datasets are returned unchanged", "statement": "If the minority class has at most the configured minimum number of samples (default 2), or the feature dimension is below the configured minimum, or no sample is needed, sample(X, y) returns copies equal to the input and never runs the sampling algorithm; otherwise the algorithm's result is returned as is.", "quantifier": "all datasets, all check configurations", "why_tests_cant": "The guard is an ordered dictionary of user-supplied checks; all combinations matter.", "anchors": ["smote_variants/base/_oversampling.py:OverSamplingBase.sample", "smote_variants/base/_oversampling.py:OverSamplingBase.return_copies"]}
{"id": "C05", "title": "The minority class is identified correctly", "statement": "For every label vector with exactly two classes the recorded minority label is a class of minimal frequency, the majority label is the other one, and class_stats are the exact counts; on ties the larger label is the minority; with one class the call raises IndexError. With three or more classes only the two smallest labels are looked at, so the recorded minority label can be the most frequent class.", "quantifier": "all label vectors over the integers", "why_tests_cant": "Label values, orders and counts are unbounded; ties and extra classes are rarely sampled.", "anchors": ["smote_variants/base/_base.py:StatisticsMixin.class_label_statistics"]}
{"id": "C06", "title": "Deterministic simplex selection returns exactly the requested number of picks", "statement": "deterministic_sample(choices, n, p) returns exactly n picks for every distribution p and every n (its internal assertion never fails), each simplex i is picked at most ceil(n*p_i) times and never negatively often, and a simplex with zero probability is never picked.", "quantifier": "all n, all probability vectors of any length summing to one", "why_tests_cant": "The removal step indexes a derived array at floors of equally spaced points; correctness depends on ceil/floor interplay for every n and p.", "anchors": ["smote_variants/base/_simplexsampling.py:deterministic_sample", "smote_variants/base/_simplexsampling.py:counts_to_vector"]}
{"id": "C07", "title": "Simplex enumeration is complete, duplicate free and in bounds", "statement": "The simplices considered for a base point are exactly the choices of n_dim-1 of its listed neighbours, each once, n_base*C(k-1,n_dim-1) in total, and every vertex index is one of the neighbour indices; with the clamping n_dim=min(n_dim,k) there is at least one simplex per base. Without the clamping, asking for more vertices than the neighbour table has columns raises ValueError.", "quantifier": "all neighbour tables and simplex dimensions", "why_tests_cant": "Combinatorial enumeration over unbounded sizes.", "anchors": ["smote_variants/base/_simplexsampling.py:base_idx_neighbor_idx_simplices", "smote_variants/base/_simplexsampling.py:all_neighbor_simplices_real_idx", "smote_variants/base/_simplexsampling.py:SimplexSamplingMixin.sample_simplex"]}
{"id": "C08", "title": "Weighted choice never selects an entry of zero weight", "statement": "A weighted choice by cumulative weights selects index i exactly when the draw falls in [c_{i-1},c_i); for weights summing to one and a draw in [0,1) the index is in range and its weight is positive. If the weights sum to less than the draw the vectorised variant silently returns index 0.", "quantifier": "all weight vectors, all draws in [0,1)", "why_tests_cant": "Continuum of draws; boundary draws have probability zero in tests.", "anchors": ["smote_variants/base/_simplexsampling.py:vector_choice", "smote_variants/base/_simplexsampling.py:SimplexSamplingMixin.sample_simplex"]}
{"id": "C09", "title": "Density repair always yields a probability distribution", "statement": "fix_density returns non-negative entries summing to one for every non-empty vector of non-negative, infinite or NaN entries, keeps the ratios of the finite ones, gives zero to NaN/inf entries unless everything vanishes, and the uniform distribution in that case.", "quantifier": "all vectors over rationals extended by inf and NaN", "why_tests_cant": "NaN/inf patterns and zero sums are corner cases in an infinite domain.", "anchors": ["smote_variants/base/_base.py:fix_density"]}
{"id": "C10", "title": "Deterministic in-simplex sampling yields one distinct interior point per pick on the right segment", "statement": "With within_simplex_sampling='deterministic' and n_dim=2 the sampler returns one row per picked pair; the c rows generated for a pair chosen c times are the points at j/(c+1), j=1..c, of the segment between its two vertices (order of the vertices ignored), so they are distinct when the end points differ; with n_dim=1 it returns the picked points themselves; other dimensions raise ValueError.", "quantifier": "all vertex sets, all multisets of picked pairs", "why_tests_cant": "Grouping and repeating by counts is a permutation-heavy algorithm; errors show only for special multiplicities.", "anchors": ["smote_variants/base/_simplexsampling.py:SimplexSamplingMixin.deterministic_samples_dim_2", "smote_variants/base/_simplexsampling.py:add_samples", "smote_variants/base/_simplexsampling.py:SimplexSamplingMixin.deterministic_samples_from_simplices"]}
{"id": "C11", "title": "Parameter dictionary merging and comparison behave like map override and map equality", "statement": "coalesce_dict(a,b) contains exactly the keys of a and b with a winning; coalesce returns the first non-None argument. equal_dicts decides equality of dictionaries with the same keys (including nested ones) and is symmetric there; two dictionaries of equal size with different keys raise KeyError instead of returning False.", "quantifier": "all (nested) dictionaries", "why_tests_cant": "Nested finite maps of any depth.", "anchors": ["smote_variants/base/_base.py:coalesce", "smote_variants/base/_base.py:coalesce_dict", "smote_variants/base/_base.py:equal_dicts"]}
{"id": "C12", "title": "Parameter grids enumerate every combination exactly once", "statement": "generate_parameter_combinations turns a dict of value lists into exactly the cartesian product: every choice of one value per key appears, nothing else appears, the count is the product of the list lengths, without repetition when the lists have none; a raw request returns the dict unchanged; a key with an empty list yields no combination.", "quantifier": "all dictionaries of lists", "why_tests_cant": "Product enumeration over unbounded keys and lists.", "anchors": ["smote_variants/base/_base.py:ParametersMixin.generate_parameter_combinations"]}
{"id": "C13", "title": "Confusion counts partition the test set and label scores obey their identities and ranges", "statement": "For all label vectors the four confusion counts are a partition of the test items and p, n are the class sizes; accuracy, sensitivity, specificity, ppv, npv, fpr, fnr, fdr, bacc, f1 lie in [0,1] whenever they are defined, fpr=1-spec, fnr=1-sens, fdr=1-ppv, and |mcc|<=1 (mcc is None exactly when a marginal is empty).", "quantifier": "all pairs of true and predicted binary label vectors", "why_tests_cant": "Unbounded vectors; degenerate marginals are easy to miss.", "anchors": ["smote_variants/base/_metrics.py:calculate_atoms", "smote_variants/base/_metrics.py:calculate_label_scores"]}
{"id": "C14", "title": "Probability scores become labels by a fixed threshold with a balanced tie rule", "statement": "prediction_labels assigns 1 above 0.5, 0 below, and splits the items scoring exactly 0.5: the first half (rounded down) of them gets 0 and the rest 1, except that a single tied item gets 0; lengths agree and strict scores are never altered.", "quantifier": "all probability vectors", "why_tests_cant": "Tie patterns of any size and position.", "anchors": ["smote_variants/base/_metrics.py:prediction_labels"]}
{"id": "C15", "title": "Tomek-link removal returns a sub-dataset and removes only link members", "statement": "TomekLinkRemoval.remove_noise returns a subsequence of the (row,label) pairs; every removed item is a member of a mutual nearest neighbour pair with different labels; with remove_majority no minority item is removed and with remove_both both members of each link are removed.", "quantifier": "all datasets and all nearest neighbour answers", "why_tests_cant": "Depends on all neighbour graphs, including duplicates where a point is not its own first neighbour.", "anchors": ["smote_variants/noise_removal/_tomeklinkremoval.py:TomekLinkRemoval.remove_noise"]}
{"id": "C16", "title": "Edited-nearest-neighbour style filters return sub-datasets and respect the protected class", "statement": "EditedNearestNeighbors and NeighborhoodCleaningRule return subsequences of the (row,label) pairs; ENN removes exactly the items whose three-neighbour mode differs from their label restricted to the configured classes, and returns fewer-than-four datasets unchanged; NeighborhoodCleaningRule never removes a minority item.", "quantifier": "all datasets, neighbour answers, strategies", "why_tests_cant": "All neighbour graphs and label patterns.", "anchors": ["smote_variants/noise_removal/_editednn.py:EditedNearestNeighbors.remove_noise", "smote_variants/noise_removal/_neighborhoodcleaningrule.py:NeighborhoodCleaningRule.remove_noise", "smote_variants/base/_base.py:mode"]}
{"id": "C17", "title": "Condensed nearest neighbours terminates with a consistent subset keeping the whole minority class", "statement": "CondensedNearestNeighbors.remove_noise terminates on every dataset having both classes, keeps every minority item and at least one majority item, keeps rows paired with their labels, never duplicates a majority item, and every majority item left out is classified as majority by the 1-NN rule on the result at the last sweep. CNNTomekLinks then removes exactly the members of Tomek links of the condensed data set outside the class that is now the smaller one, so it may remove minority items.", "quantifier": "all datasets, all deterministic 1-NN rules", "why_tests_cant": "Termination and consistency are statements about all runs of an unbounded loop.", "anchors": ["smote_variants/noise_removal/_condensednn.py:CondensedNearestNeighbors.remove_noise", "smote_variants/noise_removal/_cnntomeklinks.py:CNNTomekLinks.remove_noise"]}
{"id": "C18", "title": "Random undersampling balances the classes with distinct original majority rows", "statement": "RandomUndersampling.sample on 0/1 labels with majority label 0 returns all minority rows and exactly n_min distinct majority rows, rows paired with their labels; if label 1 is more frequent the call raises ValueError.", "quantifier": "all binary datasets and random choices", "why_tests_cant": "All subsets chosen by the generator.", "anchors": ["smote_variants/undersampling/_random_undersampling.py:RandomUndersampling.sample"]}
{"id": "C19", "title": "Multiclass balancing", "statement": "MulticlassOversampling.sample keeps the original data as prefix and appends only rows labelled with the class being oversampled. The successive strategy brings every non-majority class to the size of the largest class in exact arithmetic when class sizes differ; the equalize strategy does not: it brings class i up to N-n_i. A class tied with the largest class makes the call fail.", "quantifier": "all multiclass datasets, all inner oversamplers meeting the binary contract", "why_tests_cant": "All class-size vectors.", "anchors": ["smote_variants/multiclassoversampling/_multiclassoversampling.py:MulticlassOversampling"]}
{"id": "C20", "title": "The timeout process pool runs every job exactly once and files each result under its own index", "statement": "For every interleaving of the pool threads, every job is started exactly once, results[i] is job i's own value or job i's timeout() value, nobody else's (the latter only with a time limit or when the job gives no value); every execution is finite and does not get stuck before all threads are done, provided there is a time limit or all results fit into the pipe, and all processes can be started; with n_jobs=0 nothing runs and all results are None. Otherwise it hangs: a large result without a time limit blocks its job forever, and a process that cannot be started blocks the whole pool forever, with any time limit, and no later job is started.", "quantifier": "all job lists, pool sizes, interleavings, job durations, crash/timeout outcomes", "why_tests_cant": "Schedules are unbounded; races are not reproducible in tests.", "anchors": ["smote_variants/evaluation/_parallelization.py:ThreadTimeoutProcessPool.execute", "smote_variants/evaluation/_parallelization.py:pooling_thread", "smote_variants/evaluation/_parallelization.py:process_manager"]}
{"id": "C21", "title": "A torn cache write is always detected and recomputed", "statement": "If a json result file is cut at any point by a crash, the next run sees it as damaged and recomputes; an intact file is never reported damaged. A truncated pickle file is not: the load error propagates.", "quantifier": "all written dictionaries, all crash points", "why_tests_cant": "Crash points at each byte of unboundedly many files.", "anchors": ["smote_variants/base/_base.py:dump_dict", "smote_variants/base/_base.py:load_dict", "smote_variants/base/_base.py:check_if_damaged", "smote_variants/evaluation/_sampling.py:SamplingJob.do_oversampling"]}
{"id": "C22", "title": "Cached dictionaries round-trip", "statement": "dump_dict followed by load_dict with the same serialization gives back the dictionary, with the array keys restored as arrays of the same numbers; for json the dictionary passed in is itself altered (arrays replaced by lists); an unknown serialization raises ValueError before touching any file. Without an explicit serialization what follows the last dot of the file name is used (the whole name if it has no dot).", "quantifier": "all dictionaries and array key lists", "why_tests_cant": "All values.", "anchors": ["smote_variants/base/_base.py:dump_dict", "smote_variants/base/_base.py:load_dict"]}
{"id": "C23", "title": "Fold descriptors identify folds", "statement": "Folding yields repeats*splits folds; the (repeat, fold) index pairs are pairwise distinct and cover the grid; cached file names are distinct and complete. Collecting the un-cached iterator into a list makes every element share the last descriptor.", "quantifier": "all splits/repeats, all consumers of the iterator", "why_tests_cant": "Aliasing shows only for consumers that keep earlier items.", "anchors": ["smote_variants/evaluation/_folding.py:Folding.fold", "smote_variants/evaluation/_folding.py:Folding.cache_foldings", "smote_variants/evaluation/_folding.py:Folding.folding_files"]}
{"id": "C24", "title": "An oversampling job always produces a well-formed record", "statement": "For every outcome of the oversampler (value, ValueError/RuntimeError, timeout) the sampling job yields a record with the same keys; on error or timeout the training set is the untouched (scaled) fold and the error text is set; on success the error is None and the warnings raised are recorded. The test set is scaled on failure but not on success when a scaler is configured.", "quantifier": "all folds, oversamplers, scalers and outcomes", "why_tests_cant": "Error paths are data dependent.", "anchors": ["smote_variants/evaluation/_sampling.py:SamplingJob.do_oversampling", "smote_variants/evaluation/_sampling.py:SamplingJob.timeout"]}
{"id": "C25", "title": "Cached oversampling results are keyed by everything that determines them", "statement": "The name of the cache file of a sampling job is determined by the oversampler, its parameters and the position of the fold, and by nothing else; a missing file is computed and stored, an existing intact one is returned as stored. Hence two jobs that differ in something else share the file: a run with another scaler silently returns the result of the first one, and a result recorded after a timeout is kept for ever.", "quantifier": "all pairs of jobs and cache histories", "why_tests_cant": "Histories of runs sharing a cache directory.", "anchors": ["smote_variants/evaluation/_sampling.py:SamplingJob", "smote_variants/evaluation/_evaluation.py:EvaluationJob"]}
{"id": "C26", "title": "Evaluation yields one result per classifier in order, failures included", "statement": "EvaluationJob.do_evaluation returns exactly one record per classifier, in the given order; a classifier that raises gets all-zero probability predictions of the right shape and its error text; cached, undamaged results are not recomputed unless reset is set. Every record names the fold, the oversampler with its parameters, error, warning and runtime, and the classifier it was computed with. The name of a cache file is determined by the classifier, the oversampler parameters and the fold position, and by nothing else.", "quantifier": "all classifier lists and outcomes, cache states", "why_tests_cant": "All mixes of failing and succeeding classifiers.", "anchors": ["smote_variants/evaluation/_evaluation.py:EvaluationJob"]}
{"id": "C27", "title": "Model selection returns a maximal candidate", "statement": "model_selection returns the oversampler/classifier pair whose mean score is the maximum over all evaluated pairs.", "quantifier": "all score tables", "why_tests_cant": "All tables.", "anchors": ["smote_variants/evaluation/_functions.py:model_selection"]}
{"id": "C28", "title": "n_quickest queries return the quickest oversamplers", "statement": "determine_n_quickest(n) returns min(n, #oversamplers) distinct oversamplers, none of the omitted ones having a smaller recorded runtime; n=-1 returns all; every oversampler has a recorded runtime.", "quantifier": "all n; the complete runtime table", "why_tests_cant": "Needs the complete table and all n.", "anchors": ["smote_variants/queries/_queries.py:determine_n_quickest", "smote_variants/queries/_runtimes.py"]}
{"id": "C29", "title": "Chunked distance computation equals the direct one", "statement": "pairwise_distances_mahalanobis gives the same matrix for every memory limit for which it terminates: entry (i,j) is the distance of row i and row j; it does not terminate when a single row alone exceeds the limit. A tensor is taken for the identity exactly when no entry differs from that of the identity by more than 1e-8 (1e-5 + 1e-8 on the diagonal).", "quantifier": "all matrices, tensors, memory limits", "why_tests_cant": "Block boundaries for all sizes and limits.", "anchors": ["smote_variants/base/_metrictensor.py:pairwise_distances_mahalanobis"]}
{"id": "C30", "title": "Constructor checks reject exactly the documented invalid values", "statement": "check_greater_or_equal, check_in_range, check_isin, check_n_jobs etc. raise ValueError exactly on values violating the relation and otherwise have no effect; they raise nothing else. For not-a-number no order check fails: it is accepted as a proportion or as any other bounded parameter. The kernel of ADG (the method of G_SMOTE) may be inner (linear); any other text that does not start with rbf (non-linear) is a ValueError, and one that does and ends with an underscore and a plain decimal number is accepted exactly if that number is positive, whatever stands in between.", "quantifier": "all parameter values and bounds", "why_tests_cant": "Boundary values of a continuum.", "anchors": ["smote_variants/base/_base.py:ParametersMixin", "smote_variants/oversampling/_adg.py:ADG.__init__", "smote_variants/oversampling/_g_smote.py:G_SMOTE.__init__"]}
{"id": "C31", "title": "Component-wise interpolating oversamplers stay in the box of base and neighbour", "statement": "Random_SMOTE, MSMOTE and Safe_Level_SMOTE generate rows that lie coordinatewise between the points they interpolate; Random_SMOTE rows lie in the minority bounding box; in MSMOTE a noise point is never a base; in Safe_Level_SMOTE a zero-safe-level neighbour of a safe base leaves the base unmoved and the gap is in [0,1]. None of the three ever raises on a two-class data set; MSMOTE leaves the data as it is if no minority row has a minority neighbour, Safe_Level_SMOTE if every minority row and all its neighbours have safe level zero, and otherwise (with more than two minority rows) exactly the requested number of rows is added.", "quantifier": "all datasets, neighbour tables, draws", "why_tests_cant": "Continuum of draws and all safe level combinations.", "anchors": ["smote_variants/oversampling/_random_smote.py:Random_SMOTE", "smote_variants/oversampling/_msmote.py:MSMOTE", "smote_variants/oversampling/_safe_level_smote.py:Safe_Level_SMOTE"]}
{"id": "C32", "title": "The rejection loop of Lee terminates and returns exactly the requested number of samples", "statement": "Lee.sample stops after finitely many rounds for every data set and every sequence of draws, because the rejection level is raised after repeated failures, and returns exactly the number of samples asked for. Because the level is raised, the rejection level given by the user is not guaranteed for the samples returned.", "quantifier": "all data, all draw sequences", "why_tests_cant": "Termination is a statement about all infinite draw sequences.", "anchors": ["smote_variants/oversampling/_lee.py:Lee.generate_samples"]}
{"id": "C33", "title": "DBSMOTE shortest paths are sound and its path walk terminates", "statement": "For non-negative edge weights bellman_ford never fails its final assertion, distances are those of shortest walks, and following parent pointers from any node ends after at most the number of nodes, so sample generation terminates.", "quantifier": "all finite weighted graphs", "why_tests_cant": "Unbounded graphs.", "anchors": ["smote_variants/oversampling/_dbsmote.py:bellman_ford", "smote_variants/oversampling/_dbsmote.py:DBSMOTE.generate_samples"]}
{"id": "C34", "title": "ProWSyn proximity levels partition the minority class", "statement": "The level sets are disjoint, cover all minority indices, contain only minority indices, and there are at most L+1 of them; the level numbers are between 1 and L.", "quantifier": "all datasets, neighbour answers, L", "why_tests_cant": "All neighbour answers.", "anchors": ["smote_variants/oversampling/_prowsyn.py:ProWSyn.determine_clusters_proximity_levels"]}
{"id": "C35", "title": "Agglomerative clustering loops terminate and partition the points", "statement": "The merging loops of CBSO, Assembled_SMOTE and A_SUWO terminate on every distance matrix, raise nothing, and their clusters form a partition of the points they start with. For CBSO two points share a cluster exactly when a chain of steps not longer than the threshold joins them; for Assembled_SMOTE every cluster reaches the population limit unless only one is left, and two clusters are joined only if one of them is below the limit or their directions are aligned; for A_SUWO points of one cluster are joined by such a chain, two clusters are joined only over a pair of points within the threshold with no majority cluster closer than that pair to both, and points of different clusters are further apart than the threshold or have such a majority cluster between their clusters.", "quantifier": "all distance matrices, thresholds, merge/no-merge answers", "why_tests_cant": "Loop over a shrinking matrix with aliasing row updates.", "anchors": ["smote_variants/oversampling/_cbso.py:CBSO.do_clustering", "smote_variants/oversampling/_assembled_smote.py:Assembled_SMOTE.do_the_clustering", "smote_variants/oversampling/_a_suwo.py:A_SUWO.cluster_minority_samples"]}
{"id": "C36", "title": "SMOTE_D sample count is bounded by the rounded expected counts", "statement": "For every count matrix the generation loop terminates, emits for each pair between floor(c) and ceil(c) samples, each strictly inside the segment from the base to the neighbour; SMOTE_D always returns and the number of new rows differs from the requested one by at most the number of pairs.", "quantifier": "all count matrices, all draws", "why_tests_cant": "Continuum of draws.", "anchors": ["smote_variants/oversampling/_smote_d.py:SMOTE_D.generate_samples"]}
{"id": "C37", "title": "CCR sample budget and taxicab geometry", "statement": "CCR always returns: its radii are positive for all distances and energies. The un-rounded number of samples it allots sums to at least the requested number, with equality only for equal radii; each coordinate of a new row is within the radius of a minority row; the L1 norm of the offset is within the radius in at most two dimensions but not in three. The radius is not limited by the energy as documented.", "quantifier": "all datasets, energies and draws", "why_tests_cant": "Continuum.", "anchors": ["smote_variants/oversampling/_ccr.py:CCR.sampling_algorithm", "smote_variants/oversampling/_ccr.py:CCR.taxicab_sample"]}
{"id": "C38", "title": "Relabelling and cleaning oversamplers only do what they advertise", "statement": "SPY returns the same rows; exactly the majority rows listed among the neighbours of a minority row with fewer majority neighbours than the threshold become minority, no other label changes. Stefanowski removes exactly the majority rows whose label is not the mode of their neighbours (unless the relabelling strategy turns them into minority rows), appends each minority row of the chosen kind as many times as it has safe majority neighbours, and returns the input if no majority row would be left; the strong amplification raises IndexError when every minority row is safe. SMOTE_ENN and SMOTE_TomekLinks return the input or the SMOTE output minus exactly the misclassified rows (the ends of Tomek links); SMOTE_ENN never returns a single class or a larger minority, SMOTE_TomekLinks can return a data set without minority rows. Gazzah returns near majority rows and generated rows, and drops all original minority rows when it generates samples. SMOTE_ENN and SMOTE_TomekLinks never raise on a two-class data set.", "quantifier": "all datasets, neighbour answers", "why_tests_cant": "The removed and relabelled rows depend on the whole neighbour graph; a test sees one graph.", "anchors": ["smote_variants/oversampling/_spy.py:SPY", "smote_variants/oversampling/_stefanowski.py:Stefanowski", "smote_variants/oversampling/_smote_enn.py:SMOTE_ENN", "smote_variants/oversampling/_smote_tomeklinks.py:SMOTE_TomekLinks", "smote_variants/oversampling/_gazzah.py:Gazzah"]}
{"id": "C39", "title": "Copies and parameter round-trips preserve configuration", "statement": "Re-creating an object from get_params() gives the same configuration. It fails for MLPClassifierWrapper.copy (max_iter is reset) and set_params(random_state=int) leaves an unusable generator; seeds from 0 below 2**32, generators, np.random and None are accepted as random_state and reported unchanged, anything else is a ValueError; OversamplingClassifier fits its classifier on exactly the oversampled data.", "quantifier": "all parameter values", "why_tests_cant": "All values.", "anchors": ["smote_variants/classifiers/_mlpclassifierwrapper.py:MLPClassifierWrapper", "smote_variants/classifiers/_oversamplingclassifier.py:OversamplingClassifier", "smote_variants/base/_oversampling.py:OverSamplingBase.set_params"]}
{"id": "C40", "title": "AMSCO: what it keeps, what it returns and when it raises", "statement": "For every classifier and all random choices: the SMOTE tuning returns the best of the candidates it evaluated (proportions within [0.25, 4], neighbours within [3, 10]) and raises TypeError when no candidate has a positive product of kappa and accuracy; the instance selection never runs out of rows to remove or add and returns the most accurate selection it evaluated, raising only when none has a positive accuracy; the output consists of majority rows of the input, all minority rows of the input, and new minority rows that are convex combinations of input rows. The claim that each round continues with the best of the four candidate combinations is false: when (old, old) is strictly best (old, new) is stored, when (new, new) is strictly best (new, old) is stored. The claim that new minority rows come from the minority is false: when the selection leaves fewer majority than minority rows, convex combinations of majority rows get the minority label.", "quantifier": "all data sets, fitness functions, swarm parameters, random choices and neighbour answers", "why_tests_cant": "All orderings of the scores and all random choices of two nested swarms; a test fixes one seed and one classifier.", "anchors": ["smote_variants/oversampling/_amsco.py:AMSCO.evaluate", "smote_variants/oversampling/_amsco.py:AMSCO.osmote", "smote_variants/oversampling/_amsco.py:AMSCO.sis", "smote_variants/oversampling/_amsco.py:AMSCO.sampling_algorithm"]}
{"id": "C41", "title": "Every default parameter combination is accepted by its constructor", "statement": "For every oversampler, each element of parameter_combinations() uses only parameter names of the constructor and passes all its range and membership checks, so instantiating it never raises.", "quantifier": "all oversamplers of the library and all combinations of their grids", "why_tests_cant": "The grids multiply to thousands of combinations; tests instantiate samples of them.", "anchors": ["smote_variants/oversampling/*.py:parameter_combinations", "smote_variants/oversampling/*.py:__init__"]}
{"id": "C42", "title": "Oversampling driven undersampling keeps original rows near the synthetic ones", "statement": "OversamplingDrivenUndersampling.sample returns all minority rows and only original majority rows. In mode 'random' exactly n_min distinct majority rows are kept and never one at maximal distance from the synthetic rows; it raises ValueError when all are equally distant. Mode 'farthest' keeps the n_min majority rows closest to the synthetic rows (not the farthest). Any other mode removes nothing. If the oversampler generates nothing the call raises ValueError.", "quantifier": "all binary data sets, oversamplers, distances and random choices", "why_tests_cant": "All data sets and all random subsets.", "anchors": ["smote_variants/undersampling/_oversampling_driven_undersampling.py:OversamplingDrivenUndersampling.sample"]}
{"id": "C43", "title": "Generated parameter lists contain the promised number of valid entries", "statement": "generate_parameter_combinations returns, for every class, min(n_max_comb, size of its grid) entries, each the parameters of an object built from a combination of that grid, for every random seed. This is false for any list containing SMOTE_AMSR (in particular for all oversamplers): the call always ends with KeyError.", "quantifier": "all lists of oversamplers, all limits, all shuffles", "why_tests_cant": "All subsets of classes and all seeds.", "anchors": ["smote_variants/queries/_queries.py:generate_parameter_combinations", "smote_variants/oversampling/_smote_amsr.py:SMOTE_AMSR.get_params"]}
{"id": "C44", "title": "Border points of the two classes are returned with their labels", "statement": "ClosestNeighborsInClasses.fit_transform returns as many labels as rows, the label of each returned row being its class. This is false: the rows kept are those with a mixed neighbourhood, the labels are counted from the rows with a pure neighbourhood, so the numbers agree only if exactly half of the neighbourhoods are pure.", "quantifier": "all data sets, all neighbour tables", "why_tests_cant": "The number of returned rows depends on every neighbourhood of the data set.", "anchors": ["smote_variants/base/_metrictensor.py:ClosestNeighborsInClasses.fit_transform"]}
{"id": "C45", "title": "polynom_fit_SMOTE: where the samples lie and how many there are", "statement": "polynom_fit_SMOTE never raises on a two-class data set and keeps the input as a prefix of its output. With the star topology every new row lies strictly inside the segment from a minority row to the mean of the minority rows; with the bus topology strictly inside the segment between two minority rows that follow one another in the data; the number of new rows is m*k (star) or (m-1)*k (bus), where m is the number of minority rows and k the rounded share of the requested number per minority row, at least one, so the requested number is in general not met. The curve topology and the mesh class return exactly the requested number of rows; the parameters at which the curve is evaluated range over all of [0, m) and nothing else; the rows of mesh are convex combinations of minority rows.", "quantifier": "all finite two-class data sets, all proportions, all fitted polynomials, all random draws, all mesh partners", "why_tests_cant": "The number of samples depends on a rounding of a quotient of the class sizes and the positions on all rows; tests only look at one data set and its shapes.", "anchors": ["smote_variants/oversampling/_polynom_fit_smote.py: polynom_fit_SMOTE.sampling_algorithm", "smote_variants/oversampling/_polynom_fit_smote.py: polynom_fit_SMOTE_star", "smote_variants/oversampling/_polynom_fit_smote.py: polynom_fit_SMOTE_bus", "smote_variants/oversampling/_polynom_fit_smote.py: polynom_fit_SMOTE_poly", "smote_variants/oversampling/_polynom_fit_smote.py: polynom_fit_SMOTE_mesh"]}
{"id": "C46", "title": "The gaussian component only adds scaled normal noise", "statement": "When the optional gaussian component of SMOTE is switched on, the number of new rows and their labels are unchanged, and the i-th new row equals a point in the convex hull of the minority rows plus, in each coordinate, the normal draw for that entry times the requested deviation (the same for all coordinates, or one per coordinate). Without the component nothing is added.", "quantifier": "all two-class datasets, all draws, all deviations (scalar or one per coordinate), every index of a new row and every coordinate", "why_tests_cant": "Tests with random draws cannot tell noise added to the sample from noise replacing it or scaled by the wrong coordinate's deviation, except statistically on particular data.", "anchors": ["smote_variants/base/_simplexsampling.py:SimplexSamplingMixin.add_gaussian_noise", "smote_variants/oversampling/_smote.py:SMOTE.sampling_algorithm"]}
{"id": "C47", "title": "ADASYN samples only around minority rows that have majority neighbours", "statement": "ADASYN (without gaussian component) never raises on a two-class data set. It returns its input unchanged exactly when nothing is requested, the class ratio exceeds d_th, or no minority row has a majority row among its neighbours. Otherwise it returns the input followed by exactly the requested number of minority rows, and each new row is a convex combination of a minority row that has at least one majority neighbour and of further minority rows.", "quantifier": "all finite two-class data sets, all neighbour answers within the contract of the search, all random draws, all values of n_neighbors, d_th, beta, every simplex dimension and sampling mode", "why_tests_cant": "The weights are random selection probabilities: a test sees a few draws on one data set and cannot tell a zero probability from a small one, nor enumerate the neighbour answers.", "anchors": ["smote_variants/oversampling/_adasyn.py:ADASYN.sampling_algorithm", "smote_variants/base/_simplexsampling.py:SimplexSamplingMixin.sample_simplex", "smote_variants/base/_simplexsampling.py:SimplexSamplingMixin.determine_weights"]}
{"id": "C48", "title": "Borderline-SMOTE samples only around rows in danger", "statement": "Borderline_SMOTE1 and Borderline_SMOTE2 (without gaussian component) never raise on a two-class data set. They return their input, or append exactly the requested number of minority rows. Each new row is a convex combination whose first vertex is a minority row in danger (the majority label is the most frequent one among its neighbours, but not the only one). For Borderline_SMOTE1 the other vertices are minority rows that are not noise; for Borderline_SMOTE2 they are rows of the data set, and a majority row has a weight of at most one half. The two closest entries of a row in danger (itself and its nearest neighbour) are never used as vertices by Borderline_SMOTE1, so that with k_neighbors = 1 it only copies minority rows.", "quantifier": "all finite two-class data sets, all neighbour answers within the contract of the search, all random draws, all parameter values, every simplex dimension and sampling mode", "why_tests_cant": "Tests check shapes on a few data sets; that no noise row is ever a vertex, that no majority row ever gets more than half of the weight, and that one neighbour is never used, concern every draw and every data set.", "anchors": ["smote_variants/oversampling/_borderline_smote.py:determine_danger_remove_noise", "smote_variants/oversampling/_borderline_smote.py:Borderline_SMOTE1.sampling_algorithm", "smote_variants/oversampling/_borderline_smote.py:Borderline_SMOTE2.sampling_algorithm"]}
{"id": "C49", "title": "Scores computed from predicted probabilities", "statement": "For test labels 0/1 and predicted probabilities in [0,1], the reported brier score is the mean squared difference, lies in [0,1], is 0 exactly for a perfect prediction and does not depend on the order of the test items. The reported p_top20 is the share of minority items among the first fifth (at least one item) of the test items in the order given; it lies in [0,1]. It does not look at the probabilities: reordering the items changes it.", "quantifier": "every non-empty list of test items with their labels and probabilities, every minority label, every reordering", "why_tests_cant": "the range, the zero case and the order independence are statements about all lists of items; a test with items sorted by probability cannot see that p_top20 ignores the probabilities", "anchors": ["smote_variants/base/_metrics.py:calculate_prob_scores", "smote_variants/base/_metrics.py:calculate_all_scores"]}
{"id": "C50", "title": "SDSMOTE does the same as SMOTE", "statement": "With random or deterministic simplex sampling, SDSMOTE returns, for the same parameters and the same random draws, exactly what SMOTE returns: the density it computes to weight the minority rows counts the answers to a query for one row, which is always one, so every row gets the same weight.", "quantifier": "every data set, every parameter set with random or deterministic simplex sampling, every radius search that gives one answer per query, every neighbour search, every stream of draws", "why_tests_cant": "two implementations that agree on some data sets can differ on others; that the weights are equal for every data set is a statement about all of them, and a test of output shapes passes either way", "anchors": ["smote_variants/oversampling/_sdsmote.py:SDSMOTE.sampling_algorithm", "smote_variants/oversampling/_sdsmote.py:SDSMOTE.calculate_density", "smote_variants/oversampling/_smote.py:SMOTE.sampling_algorithm"]}
{"id": "C51", "title": "AND_SMOTE samples inside the neighbourhoods it determined", "statement": "For every data set with more than two minority rows AND_SMOTE finishes without an exception. It returns the input unchanged exactly when no minority row has two rows outside the majority class among its neighbours; otherwise it appends exactly the requested number of minority rows. Each is a convex combination of a minority row and of minority rows standing at the positions 1 to kappa of the list of its nearest minority rows, where kappa is the number determined for that row: the precision of the growing axis-parallel regions drops most there. Rows with kappa = 0 are never used as a base.", "quantifier": "every two-class data set, every parameter set, every neighbour search that returns that many valid indices, every stream of draws", "why_tests_cant": "the regions, their precisions and the index arithmetic between the neighbour lists depend on the whole data set, and the selection of the neighbours is random", "anchors": ["smote_variants/oversampling/_and_smote.py:AND_SMOTE.sampling_algorithm", "smote_variants/oversampling/_and_smote.py:AND_SMOTE.calculate_r_min_maj", "smote_variants/oversampling/_and_smote.py:AND_SMOTE.calculate_kappa", "smote_variants/base/_simplexsampling.py:SimplexSamplingMixin.sample_simplex"]}
{"id": "C52", "title": "ISMOTE trades majority rows for minority rows", "statement": "On a two-class data set with more than two minority rows and unequal classes ISMOTE finishes without an exception. With n half of the difference of the class sizes, rounded up: n majority rows are removed, and none of them is closer to the minority (in the sum of the distances) than a row that is kept; every minority row is kept; n minority rows are added, so the size of the data set does not change and the class sizes end up equal or differ by one. With a minority weight in [0,1] each new row is a convex combination of a minority row and of rows from the third place on in the list of its nearest rows, kept majority rows weighted at most 1 - minority_weight, minority rows at most minority_weight. With n_neighbors=1 new rows are copies. A weight above one is accepted and can place new rows outside the range of the data. Otherwise the input is returned unchanged.", "quantifier": "every two-class data set, every parameter set, every distance, every exact neighbour search, every stream of draws", "why_tests_cant": "which rows are removed depends on sums of distances over the whole data set and the bounds have to hold for every random draw", "anchors": ["smote_variants/oversampling/_ismote.py:ISMOTE.sampling_algorithm"]}
{"id": "C53", "title": "ANS uses no outcast rows and one common radius", "statement": "On a two-class data set with more than two minority rows ANS finishes without an exception. A minority row is used when fewer than C majority rows lie within the distance of its nearest minority neighbour, where C is determined from these counts as in determine_C; the radius is the largest of those distances over the used rows. Without a used row, or when no two different used rows are within the radius, the input is returned; otherwise exactly the requested number of rows is appended, each a convex combination of a used minority row and at least one used minority row within the radius of it. With fewer than eight rows, or when no majority row is as close to a minority row as its nearest minority neighbour, nothing is ever generated.", "quantifier": "every two-class data set, every parameter set, every non-negative distance that is zero on equal rows, every exact neighbour and radius search, every stream of draws", "why_tests_cant": "the claim relates the dense neighbour table, the sparse radius answers and the weights of the simplices for all data sets; that ANS does nothing on separated classes is a statement about all of them", "anchors": ["smote_variants/oversampling/_ans.py:ANS.sampling_algorithm", "smote_variants/oversampling/_ans.py:ANS.determine_Pused", "smote_variants/oversampling/_ans.py:ANS.determine_C", "smote_variants/oversampling/_ans.py:ANS.determine_simplex_weights"]}
{"id": "C54", "title": "distance_SMOTE samples between a row and the mean of its neighbours", "statement": "On a two-class data set distance_SMOTE finishes without an exception (no NaN arises, every minority row has a neighbour) and, with more than two minority rows, appends exactly the requested number of minority rows. Each is a convex combination of the mean of the neighbours of a minority row p, of p itself and, for n_dim above two, of the first n_dim - 2 neighbours of p; with the default n_dim it is on the segment between p and that mean. All new rows are in the convex hull of the minority.", "quantifier": "every two-class data set, every parameter set, every neighbour search, every stream of draws", "why_tests_cant": "the position of the rows has to hold for every draw and every neighbour table; the table handed to the sampler mixes two coordinate lists", "anchors": ["smote_variants/oversampling/_distance_smote.py:distance_SMOTE.sampling_algorithm"]}
{"id": "C55", "title": "Gaussian_SMOTE adds noise in standardised coordinates", "statement": "On a two-class data set Gaussian_SMOTE finishes without an exception and, with more than two minority rows, appends exactly the requested number of minority rows. The i-th new row is a point of the convex hull of the original minority rows plus, in every coordinate, a normal draw times sigma times the standard deviation of that coordinate over all rows. A feature which is constant over the data set does not stay constant, since the scaler gives it the scale one.", "quantifier": "every two-class data set, every parameter set, every scaler with positive scales, every neighbour search, every stream of draws", "why_tests_cant": "the bound relates standardised and original coordinates for all scales and all draws", "anchors": ["smote_variants/oversampling/_gaussian_smote.py:Gaussian_SMOTE.sampling_algorithm", "smote_variants/base/_simplexsampling.py:SimplexSamplingMixin.add_gaussian_noise"]}
{"id": "C56", "title": "NT_SMOTE and RWO_sampling: the n_dim nearest rows and the random walk", "statement": "With more than two minority rows and rows to add, NT_SMOTE and RWO_sampling raise ValueError exactly when n_dim exceeds the number of minority rows (never with the default n_dim); otherwise they append exactly the requested number of minority rows. NT_SMOTE: each is a convex combination of a minority row and of all rows that follow in the list of its n_dim nearest minority rows. RWO_sampling: each is such a point (a minority row for the default n_dim = 1) moved in every coordinate by a normal draw times the standard error of that coordinate in the minority; a feature that is constant in the minority keeps its value in all new rows.", "quantifier": "every two-class data set, every parameter set, every neighbour search, every stream of draws, every standard error that is zero on constant columns", "why_tests_cant": "the condition for the exception and the invariance of constant features are statements about all data sets and all draws", "anchors": ["smote_variants/oversampling/_nt_smote.py:NT_SMOTE.sampling_algorithm", "smote_variants/oversampling/_rwo_sampling.py:RWO_sampling.sampling_algorithm"]}
{"id": "C57", "title": "kmeans_SMOTE and cluster_SMOTE interpolate only within clusters", "statement": "On a two-class data set both finish without an exception and append either nothing or exactly the requested number of minority rows. kmeans_SMOTE clusters all rows and uses the clusters with at least two minority rows in which (majority rows + 1)/(minority rows + 1) is below irt; with none the input comes back. A cluster is drawn with a share in proportion to (mean distance of its minority rows)^d / (number of its minority rows), equal shares if all are zero. cluster_SMOTE clusters the minority and draws a cluster uniformly; with no cluster of two rows the input comes back. Every new row is a convex combination of minority rows of one cluster: a row and some of its nearest in that cluster. With n_neighbors = 1 cluster_SMOTE only duplicates rows.", "quantifier": "every two-class data set, every parameter set, every clustering, every neighbour search, every distance, every stream of draws", "why_tests_cant": "that no row mixes two clusters and that the counts add up must hold for every clustering and every sequence of draws", "anchors": ["smote_variants/oversampling/_kmeans_smote.py:kmeans_SMOTE.sampling_algorithm", "smote_variants/oversampling/_cluster_smote.py:cluster_SMOTE.sampling_algorithm"]}
{"id": "C58", "title": "MWMOTE samples around informative minority rows and within their clusters", "statement": "With positive k3, cf_th and cmax MWMOTE finishes without an exception on every two-class data set. It keeps the minority rows with another minority row among their k1 nearest; with none kept the input comes back. The border are the majority rows among the k2 + 1 nearest majority rows of a kept row, the informative rows the minority rows among the k3 nearest minority rows of a border row. Exactly the requested number of minority rows is appended. A cluster of the minority is drawn with a share proportional to the summed weights of its informative rows, the weight of a row being the sum over the border of closeness times share of closeness. Every new row is a convex combination of an informative row of one cluster and of other rows of the same cluster. With cf_th = 0 or cmax = 0, both accepted by the constructor, it raises ValueError.", "quantifier": "every two-class data set, every parameter set, every clustering, every neighbour search, every distance, every stream of draws", "why_tests_cant": "three chained neighbour searches, a weighting and a clustering choose the rows; that the parents are informative rows and that no row mixes two clusters must hold for all their answers", "anchors": ["smote_variants/oversampling/_mwmote.py:MWMOTE.sampling_algorithm"]}
{"id": "C59", "title": "CE_SMOTE samples in an ensemble boundary, NRAS removes noise and keeps the class sizes", "statement": "CE_SMOTE finishes without an exception on every two-class data set. Its boundary are the minority rows to which no label is given by more than the share alpha of the h clusterings; with at most n_dim - 1 of them the input comes back, otherwise exactly the requested number of minority rows is appended, each a convex combination of a boundary row and of nearest boundary rows. The result should not depend on the names a clustering gives to its clusters; the matching of the clusters is the identity, so it does. NRAS finishes without an exception and removes the minority rows with fewer than t * (n_neighbors + 1) minority rows among the neighbours; if at most one row is left the input comes back. Otherwise the result is the majority unchanged, the kept minority rows unchanged, and new minority rows, as many as requested plus one for each removed row. Every new row is a convex combination of a kept minority row and of its neighbours of either class, removed rows included.", "quantifier": "every two-class data set, every parameter set, every ensemble of clusterings, every neighbour search, every scaler with positive ranges, every propensity score, every stream of draws", "why_tests_cant": "renaming of clusters and the balance of removed and generated rows have to be considered for all clusterings and all data sets; the ineffective assignments raise nothing", "anchors": ["smote_variants/oversampling/_ce_smote.py:CE_SMOTE.sampling_algorithm", "smote_variants/oversampling/_ce_smote.py:CE_SMOTE.cluster_matching", "smote_variants/oversampling/_nras.py:NRAS.sampling_algorithm", "smote_variants/oversampling/_nras.py:NRAS.generate_samples"]}
{"id": "C60", "title": "CURE_SMOTE clusters by single linkage and samples around the means", "statement": "On every two-class data set CURE_SMOTE ends without an exception. While there are more than n_clusters clusters of minority rows it joins two clusters with the closest pair of rows, and in every n_clusters-th round it first drops a smallest cluster; clusters with fewer than noise_th rows are dropped at the end. The clusters are disjoint; there are at most n_clusters, and at least one before the last filter if n_clusters >= 2. With none left the input comes back, otherwise exactly the requested number of minority rows is appended, each a convex combination of the mean of one cluster and of different rows of that cluster. With n_clusters = 1, accepted by the constructor, and an even number of minority rows the input always comes back.", "quantifier": "every two-class data set, every parameter set, every symmetric distance, every scaler with positive ranges, every choice among smallest clusters, every stream of draws", "why_tests_cant": "the matrix, the list of clusters and the removal must stay in step in every round, for every order of merges; the loss of all clusters depends on the parity of the class size", "anchors": ["smote_variants/oversampling/_cure_smote.py:CURE_SMOTE.do_the_clustering", "smote_variants/oversampling/_cure_smote.py:CURE_SMOTE.generate_samples_in_clusters", "smote_variants/oversampling/_cure_smote.py:CURE_SMOTE.sampling_algorithm"]}
{"id": "C61", "title": "MCT, Edge_Det_SMOTE and ADASYN draw the base rows with the stated probabilities", "statement": "With random sampling the i-th new row is a convex combination of a minority row and its neighbours, where the minority row is the one in whose share the i-th random number falls: the shares are, for MCT, the sum of the distances of all minority rows from their coordinatewise median minus the row's own distance (so a row closer to the median never has a smaller share), for Edge_Det_SMOTE the square roots of the shares of the numbers of attributes in which the row stands between two rows of different classes, and for ADASYN the number of majority rows among its neighbours. If all weights are zero MCT and Edge_Det_SMOTE take equal shares. Neither of the two raises on a two-class data set, and MCT with its default parameters clones minority rows.", "quantifier": "every two-class data set, every parameter set, every neighbour table satisfying the query contract, every nonnegative distance, every stream of draws", "why_tests_cant": "the law of the draws is a statement about every random number and every set of weights; a wrong offset by one in the ordering of the rows or a weight table in another order is invisible in a sampled output", "anchors": ["smote_variants/oversampling/_mct.py:MCT.sampling_algorithm", "smote_variants/oversampling/_edge_det_smote.py:Edge_Det_SMOTE.determine_magnitudes", "smote_variants/oversampling/_adasyn.py:ADASYN.sampling_algorithm", "smote_variants/base/_simplexsampling.py:SimplexSamplingMixin.simplices_sel"]}
{"id": "C62", "title": "SN_SMOTE and SMMO sample on one segment per base row", "statement": "SN_SMOTE appends exactly the requested number of minority rows, each on the segment between a minority row, drawn as often as it is the base, and the nearest other row of its neighbour table; no value of n_neighbors from 2 on changes the result. It ends without an exception for n_neighbors >= 2; with n_neighbors = 1, accepted by the constructor, it raises IndexError exactly if for some minority row the mean of its two nearest rows is closer than the nearest. SMMO appends the requested number of rows, each on the segment between a selected minority row and the mean of its neighbours, or gives the input back if fewer than two rows are selected, and never raises; with the labels 0 and 1 (minority) the selected rows are those for which at most half of the classifiers answer 1. With a minority label other than 0 and 1 all minority rows are selected whatever the classifiers say, and with the minority label 1 and a larger majority label nothing is ever generated.", "quantifier": "every two-class data set, every parameter set, every neighbour table satisfying the query contract, every distance, every ensemble, every choice and stream of draws", "why_tests_cant": "the independence of n_neighbors and the influence of label names are statements about all data sets; the IndexError depends on the geometry", "anchors": ["smote_variants/oversampling/_sn_smote.py:SN_SMOTE.generate_centroid_neighborhood", "smote_variants/oversampling/_sn_smote.py:SN_SMOTE.generate_samples", "smote_variants/oversampling/_smmo.py:SMMO.sampling_algorithm", "smote_variants/oversampling/_smmo.py:SMMO.generate_samples"]}
{"id": "C63", "title": "The rejection loops of Supervised_SMOTE and NRSBoundary_SMOTE end", "statement": "Supervised_SMOTE ends for every classifier, every parameter set and every stream of draws, without an exception, and appends exactly the requested number of minority rows; each is a convex combination of different minority rows and lies within the probability thresholds, both relaxed by the same number of tenths, at most ten. If the whole first batch is acceptable the thresholds are not relaxed. NRSBoundary_SMOTE ends after at most ten rounds; it returns the input if no minority row has the other class within its radius or no majority row has only its own class within its radius; otherwise it appends at least one and at most the requested number of minority rows, each a convex combination of a boundary row and minority rows from its neighbour list, and farther from every such majority row than its radius shortened by less than ten tenths, or it raises ValueError. It raises ValueError for w = 0 whenever the data has a duplicated majority row that no minority row equals and some minority row has a majority row as a nearest row; it may append fewer rows than requested.", "quantifier": "every two-class data set, every parameter set, every classifier, distance and radius search, every neighbour table satisfying the query contract, every stream of draws of every batch", "why_tests_cant": "termination for every classifier and every stream of draws cannot be observed; the number of rounds depends on the classifier's answers", "anchors": ["smote_variants/oversampling/_supervised_smote.py:Supervised_SMOTE.sampling_algorithm", "smote_variants/oversampling/_nrsboundary_smote.py:NRSBoundary_SMOTE.generate_samples", "smote_variants/oversampling/_nrsboundary_smote.py:NRSBoundary_SMOTE.determine_bound_pos_set_delta", "smote_variants/oversampling/_nrsboundary_smote.py:NRSBoundary_SMOTE.determine_delta", "smote_variants/oversampling/_nrsboundary_smote.py:NRSBoundary_SMOTE.sampling_algorithm"]}
{"id": "C64", "title": "TRIM_SMOTE finds seeds which no cut improves", "statement": "The trimming of TRIM_SMOTE ends on every data set. Every seed has at least two rows, at least one minority row, and is the set of all rows of the data within a box of attribute thresholds; no row is in two seeds; and for no attribute and no threshold does one of the two parts of a seed have a larger trim (squared number of minority rows by number of rows) than the seed. The cut chosen in the second phase is the best of all cuts. The search for a precision threshold ends after at most 22 reductions by a tenth and takes the first threshold some seed exceeds. Exactly the requested number of minority rows is appended, each a convex combination of a minority row of a chosen seed and further such rows from its neighbour list, or the input is returned if no seed has a precision above a tenth of min_precision; there is no exception. Parts of one row are dropped, so that for mutually isolated minority rows nothing is generated.", "quantifier": "every two-class data set, every parameter set, every neighbour table satisfying the query contract, every stream of draws", "why_tests_cant": "termination, the optimality of the cuts and the disjointness of the seeds are statements about all data sets", "anchors": ["smote_variants/oversampling/_trim_smote.py:TRIM_SMOTE.determine_splitting_point", "smote_variants/oversampling/_trim_smote.py:TRIM_SMOTE.trimming", "smote_variants/oversampling/_trim_smote.py:TRIM_SMOTE.leaf_loop", "smote_variants/oversampling/_trim_smote.py:TRIM_SMOTE.candidate_loop", "smote_variants/oversampling/_trim_smote.py:TRIM_SMOTE.sampling_algorithm"]}
{"id": "C65", "title": "VIS_RST changes labels of the training data", "statement": "Before generating, VIS_RST turns every majority row which has a row of the other class among its neighbours (of the standardised data) into a minority row, and the output carries the changed labels; the labels of the data are kept exactly if there is no such row. If then the majority is not larger than the minority, or every minority row has majority rows only as neighbours, the input is returned with its own labels. Otherwise exactly the number of rows requested by the original labels is made: without safe rows, convex combinations of minority rows and listed neighbours; with more than three tenths of the rows in danger, copies of rows in danger and combinations around safe rows; else copies of safe rows and combinations around rows in danger. Exactly those with no majority row among their neighbours behind the first are appended. The sampling loop ends after one pass and there is no exception.", "quantifier": "every two-class data set with at least three minority rows, every parameter set, every scaler with positive scales, every neighbour search, every stream of draws", "why_tests_cant": "the change of the labels depends on the whole neighbour structure of the data, the two loops and the caught exceptions on all draws", "anchors": ["smote_variants/oversampling/_vis_rst.py:VIS_RST.relabel_boundary", "smote_variants/oversampling/_vis_rst.py:VIS_RST.label_minority_samples", "smote_variants/oversampling/_vis_rst.py:VIS_RST.generate_samples", "smote_variants/oversampling/_vis_rst.py:VIS_RST.noise_removal", "smote_variants/oversampling/_vis_rst.py:VIS_RST.sampling_algorithm"]}
{"id": "C66", "title": "OUPS mixes minority rows with rows two or more places down the propensity order, wrapping around at the end", "statement": "With the rows in the order of their propensity scores and w the ratio of the class sizes rounded up, OUPS appends exactly the requested number of minority rows, each a convex combination of a minority row at some position i other than the last and of rows (of either class) at positions from i+2 to i+w; the row at the next position i+1 is never used. The weights that are meant to exclude positions behind the last row are all positive for the rows in use: such positions stand for minority rows, counted from the last one backwards, so that a row can be mixed with one of higher propensity. There is no exception.", "quantifier": "every two-class data set with at least three minority rows, every order of the rows, every parameter set with random points in the simplices, every stream of draws", "why_tests_cant": "which positions a simplex may contain, and that no draw leaves the arrays, concerns all orders and all draws", "anchors": ["smote_variants/oversampling/_oups.py:OUPS.determine_sorting", "smote_variants/oversampling/_oups.py:OUPS.sampling_algorithm", "smote_variants/base/_simplexsampling.py:random_samples_from_simplices"]}
{"id": "C67", "title": "SOMO samples within dense cells and between adjacent dense cells of the map", "statement": "A cell of the self-organising map is dense if it holds more minority than majority rows. Without dense cells SOMO returns the input. Otherwise exactly the requested number of minority rows is appended: half of it, rounded down (all, if no two dense cells are adjacent), are convex combinations of different minority rows of one dense cell, copies in a cell with one row; the rest are on segments between minority rows of two adjacent dense cells. Cells and pairs are drawn with probabilities in proportion to the reciprocal of their density (rows by squared mean distance; 10 for a single row and for coinciding rows; for pairs the sum). There is no exception.", "quantifier": "every two-class data set with at least three minority rows, every assignment of rows to cells, every distance, every parameter set, every stream of draws", "why_tests_cant": "the cells come from the training of a map; the claims hold for all assignments, densities and draws", "anchors": ["smote_variants/oversampling/_somo.py:SOMO.construct_grid", "smote_variants/oversampling/_somo.py:SOMO.determine_densities", "smote_variants/oversampling/_somo.py:SOMO.determine_pair_densities", "smote_variants/oversampling/_somo.py:SOMO.generate_intra", "smote_variants/oversampling/_somo.py:SOMO.generate_inter", "smote_variants/oversampling/_somo.py:SOMO.sampling_algorithm"]}
{"id": "C68", "title": "G_SMOTE mixes a minority row with the neighbours closest in direction; the direction need not be the leading eigenvector", "statement": "G_SMOTE appends exactly the requested number of minority rows, each a convex combination of a minority row and exactly those n_dim - 1 (fewer if there are fewer) of its nearest minority rows whose angles are the smallest; in the linear method those with the largest unsigned cosine between the difference and the vector H. H is the row, not the column, of the eigenvector matrix of the covariance at the position of the largest eigenvalue, so it need not be the leading eigenvector: a row can be mixed with a neighbour at a right angle to the principal direction although another neighbour lies in that direction. There is no exception.", "quantifier": "every two-class data set with at least three minority rows and two features, every parameter set, every neighbour table, every eigen decomposition, norm and arc cosine meeting their contracts, every sorting, every stream of draws", "why_tests_cant": "the optimality of the chosen neighbours is a statement over all data sets and neighbour structures", "anchors": ["smote_variants/oversampling/_g_smote.py:G_SMOTE.determine_H", "smote_variants/oversampling/_g_smote.py:G_SMOTE.update_indices_by_angles", "smote_variants/oversampling/_g_smote.py:G_SMOTE.angles", "smote_variants/oversampling/_g_smote.py:G_SMOTE.sampling_algorithm"]}
{"id": "C69", "title": "LLE_SMOTE maps points of the embedding back with the best weights, but with equal weights by default; the result may leave the minority hull", "statement": "LLE_SMOTE appends exactly the requested number of minority rows without an exception. For every new row there is a point of the embedding in a simplex of a minority row and its neighbours there, and the new row is an affine combination (weights of sum one, possibly negative) of the minority rows which are nearest to that point in the embedding. The weights reconstruct the point from the embedded neighbours at least as well as any other weights of sum one, or they are all equal. With more neighbours than components, as with the default parameters (6 and 2), they are always equal: every new row is the plain mean of the k nearest minority rows, wherever the point of the embedding lies. With enough components a new row can lie outside the convex hull of the minority class.", "quantifier": "every two-class data set with at least three minority rows, every parameter set, every embedding, neighbour table and linear solver meeting their contracts, every stream of draws", "why_tests_cant": "optimality among all weights and the degeneracy for more neighbours than components are statements over all data sets and embeddings", "anchors": ["smote_variants/oversampling/_lle_smote.py:solve_for_weights", "smote_variants/oversampling/_lle_smote.py:LLE_SMOTE.embed_in_original_space", "smote_variants/oversampling/_lle_smote.py:LLE_SMOTE.sampling_algorithm"]}
{"id": "C70", "title": "SMOTE_OUT and SMOTE_Cosine step away from the majority by a bounded amount; SMOTE_Cosine ignores n_neighbors for the minority", "statement": "SMOTE_OUT and SMOTE_Cosine append exactly the requested number of minority rows without an exception. Every coordinate of a new row is x + t*((u + s*(u - v)) - x) with 0 <= s < 3/10 and 0 <= t < 1/2, for a minority row u, one of its nearest majority rows v and another minority row x (for SMOTE_OUT one of its n_neighbors nearest), so a coordinate leaves the interval of x and u by at most 3/20 of |u - v|; new rows can lie outside the box of the minority class. In SMOTE_Cosine the composite ranking lists the row itself first and then every other minority row, and the partner is drawn from all of them: n_neighbors does not restrict it.", "quantifier": "every two-class data set with at least three minority rows, every proportion, every n_neighbors >= 1, every neighbour table and sorting meeting their contracts, every stream of draws", "why_tests_cant": "the bound must hold for every draw, and that every other minority row is a candidate for every ranking", "anchors": ["smote_variants/oversampling/_smote_out.py:SMOTE_OUT.generate_samples", "smote_variants/oversampling/_smote_out.py:SMOTE_OUT.sampling_algorithm", "smote_variants/oversampling/_smote_cosine.py:SMOTE_Cosine.generate_samples", "smote_variants/oversampling/_smote_cosine.py:SMOTE_Cosine.sampling_algorithm"]}
{"id": "C71", "title": "Selected_SMOTE changes only the attributes of the largest overlap, or all; ROSE keeps constant attributes", "statement": "Selected_SMOTE appends exactly the requested number of minority rows, each between a minority row and one of its n_neighbors nearest minority rows, coordinate by coordinate. If perc_sign_attr times the number of attributes exceeds one half, a new row differs from the minority row only in attributes for which the majority range covers the largest part of the minority range, and all such values of perc_sign_attr give the same result for the same draws; otherwise (for instance for perc_sign_attr = 0) every attribute may change. ROSE appends exactly the requested number of minority rows, each a minority row plus noise whose width for an attribute is the deviation in the minority class times a factor of the number of all rows; an attribute constant in the minority class stays constant. There is no exception.", "quantifier": "every two-class data set with at least three minority rows, every proportion, perc_sign_attr >= 0, n_neighbors >= 1, every neighbour table meeting the contract, every stream of draws", "why_tests_cant": "the claims hold for every data set and every draw; that perc_sign_attr has no influence is a statement about all its values", "anchors": ["smote_variants/oversampling/_selected_smote.py:Selected_SMOTE.significant_attributes", "smote_variants/oversampling/_selected_smote.py:Selected_SMOTE.generate_samples", "smote_variants/oversampling/_selected_smote.py:Selected_SMOTE.sampling_algorithm", "smote_variants/oversampling/_rose.py:ROSE.sampling_algorithm"]}
{"id": "C72", "title": "LVQ_SMOTE moves a cluster centre by the offset of a minority row from another centre", "statement": "LVQ_SMOTE appends exactly the requested number of minority rows and raises no exception. Each new row is a cluster centre c0 plus the offset of a minority row from a third centre o, where the row is one of the nearest minority rows of o. The centre o is one of two centres (possibly the same one twice), different from c0 and from another centre c1, whose difference is the closest to the difference of c0 and c1 among all such pairs; there is always such a pair. The new row may lie outside the range of the minority class.", "quantifier": "every two-class data set with at least three minority rows, every proportion, n_neighbors >= 1, n_clusters >= 3, every clustering and neighbour table meeting the contracts, every norm, every stream of draws", "why_tests_cant": "the loop over pairs must find a pair for every choice of two codes, and the minimum is over all pairs; tests see a few draws", "anchors": ["smote_variants/oversampling/_lvq_smote.py:LVQ_SMOTE.generate_samples", "smote_variants/oversampling/_lvq_smote.py:LVQ_SMOTE.sampling_algorithm"]}
{"id": "C73", "title": "SL_graph_SMOTE chooses its oversampler by the names of the classes as well", "statement": "SL_graph_SMOTE returns what Safe_Level_SMOTE or Borderline_SMOTE1 (with k_neighbors = 5) returns for the same parameters and data. It is Safe_Level_SMOTE exactly if the skewness of the numbers of minority rows among the nearest n_neighbors rows of the minority rows is negative and the minority label is the larger one, or the skewness is positive and the minority label is the smaller one. So exchanging the two labels exchanges the oversamplers whenever the skewness is not zero.", "quantifier": "every two-class data set, every proportion, n_neighbors, neighbour table meeting the contract, simplex parameters and draws", "why_tests_cant": "the rule is about the sign of a moment for every data set and for every pair of labels; tests use the labels 0 and 1 with 1 as the minority", "anchors": ["smote_variants/oversampling/_sl_graph_smote.py:SL_graph_SMOTE.sampling_algorithm"]}
{"id": "C74", "title": "SMOBD draws base rows by core distance and neighbour count; its noise filter never fires", "statement": "If OPTICS refuses its arguments, all core distances are infinite or no row has a neighbour within max_eps, SMOBD returns the input. Otherwise it appends exactly the requested number of minority rows. The base rows are drawn with probabilities in proportion to eta1 times the core distance (infinite ones taken as 1.1 times the largest finite one) over the largest, plus 1 - eta1 times the number of rows within max_eps over the largest; each new row lies coordinatewise between its base row and one of the other min_samples nearest minority rows. No row is ever taken for noise, so the threshold t has no effect. There is no exception.", "quantifier": "every two-class data set with at least three minority rows, every proportion, eta1 in [0, 1], t, min_samples >= 1, max_eps, every result of OPTICS and of the neighbour queries meeting the contracts, every stream of draws", "why_tests_cant": "the validity of the probabilities and the absence of noise hold for every result of OPTICS; tests see a few", "anchors": ["smote_variants/oversampling/_smobd.py:SMOBD.determine_indices_and_density", "smote_variants/oversampling/_smobd.py:SMOBD.sampling_algorithm", "smote_variants/base/_base.py:fix_density"]}
{"id": "C75", "title": "ADOMS moves a minority row along the principal direction of its neighbourhood", "statement": "ADOMS appends exactly the requested number of minority rows and raises no exception. Each new row is a minority row plus a multiple of the principal direction of its nearest n_neighbors + 1 minority rows; the step goes to the side of one of the neighbours and is at most as long as the distance of that neighbour. So the new row is not farther from its base row than the neighbour, and with one attribute it lies between the two; with more attributes it may lie outside the range of the minority class.", "quantifier": "every two-class data set with at least three minority rows, every proportion, n_neighbors >= 1, every neighbour table and principal direction meeting the contracts, every stream of draws", "why_tests_cant": "the bound on the step holds for every direction and every draw", "anchors": ["smote_variants/oversampling/_adoms.py:ADOMS.generate_sample_in_neighborhood", "smote_variants/oversampling/_adoms.py:ADOMS.sampling_algorithm"]}
{"id": "C76", "title": "ASMOBD: adaptive noise thresholds, valid weights with linear smoothing, negative weights with sigmoid smoothing", "statement": "With linear smoothing and an OPTICS that accepts its arguments, ASMOBD raises no exception. A minority row is noise if its core distance exceeds T_1 and its reachability T_2; eps and the thresholds are multiplied by 1.5 as long as fewer than two rows are left, at most three times. If at most two rows are left the input is returned; otherwise exactly the requested number of minority rows is appended, each in the simplex of a remaining row of positive weight and of its nearest remaining rows. The weight is eta (eta c + (1 - eta) f) + (1 - eta)(s - f - 1)/n for core distance c, s rows within it of which the share f is of the majority, and zero for an infinite core distance; equal weights if all are zero. The second noise rule (t_1, t_2) never applies. With sigmoid smoothing the weights may be negative, which raises a ValueError, and an exception of OPTICS, as for min_samples = 1, is not caught.", "quantifier": "every two-class data set with at least three minority rows, every proportion, every value of the parameters with eta in [0, 1] and t_2 >= 0, every result of OPTICS and of the neighbour queries meeting the contracts, every stream of draws", "why_tests_cant": "validity of the probabilities must hold for every configuration of distances and neighbours; the four rounds of the loop are rarely reached", "anchors": ["smote_variants/oversampling/_asmobd.py:ASMOBD.calculate_density", "smote_variants/oversampling/_asmobd.py:ASMOBD.determine_not_noise", "smote_variants/oversampling/_asmobd.py:ASMOBD.determine_maj_min_ratios", "smote_variants/oversampling/_asmobd.py:ASMOBD.determine_not_noise_and_density_safe", "smote_variants/oversampling/_asmobd.py:ASMOBD.sampling_algorithm"]}
{"id": "C77", "title": "LN_SMOTE interpolates between safe rows, and generates nothing when there are none", "statement": "LN_SMOTE appends exactly the requested number of minority rows and raises no exception, if some minority row p and one of its neighbours n both have minority rows near them; otherwise, and always for n_neighbors = 1, it returns the input. Each new row lies, attribute by attribute, between such a p and n: at most the fraction sn/sp of the way when p is at least as safe as n, at least the fraction 1 - sp/sn when n is safer, and this is multiplied by sn/n_neighbors when n is a majority row. Here sp and sn count minority neighbours; for a majority n with p among its neighbours, p is replaced by the next neighbour.", "quantifier": "every two-class data set with at least three minority rows, every proportion, n_neighbors >= 2, every neighbour table of distinct rows, every stream of draws", "why_tests_cant": "the ratio branches and the replacement of p depend on the whole neighbour table; divisions by zero have to be excluded for every table", "anchors": ["smote_variants/oversampling/_ln_smote.py:LN_SMOTE.safe_level", "smote_variants/oversampling/_ln_smote.py:LN_SMOTE.random_gap", "smote_variants/oversampling/_ln_smote.py:LN_SMOTE.calculate_slp_sln", "smote_variants/oversampling/_ln_smote.py:LN_SMOTE.sampling_algorithm"]}
{"id": "C78", "title": "MSYN keeps the SMOTE candidates that hurt the margins of the majority least", "statement": "MSYN runs SMOTE with three times the requested proportion and keeps exactly the requested number of the candidates: no candidate left out has a smaller score than one that is kept. The score of a candidate is the sum over the majority rows of how much closer the candidate is than the nearest row of the other class, over the sum over the minority rows of how much closer it is than the nearest row of the same class, plus 0.01 (both sums halved). The score is never negative and is zero for a candidate that enters no such neighbourhood of a majority row; no division by zero occurs, and no exception is raised.", "quantifier": "every two-class data set of different rows with at least three minority rows, every non-negative proportion, every exact neighbour search, every stream of draws", "why_tests_cant": "the minimality ranges over all candidates and all data sets", "anchors": ["smote_variants/oversampling/_msyn.py:MSYN.determine_Delta_P_N", "smote_variants/oversampling/_msyn.py:MSYN.determine_nearest_hit_miss_dist", "smote_variants/oversampling/_msyn.py:MSYN.sampling_algorithm"]}
{"id": "C79", "title": "AHC returns the centres of the whole dendrogram, whatever the size of the majority class", "statement": "With strategy min, AHC returns one new row per merge of the agglomerative clustering of the minority class, followed by the minority rows and the majority rows. Each new row is the mean of the minority rows of its cluster, so it lies in their convex hull. The minority class always ends with 2m - 1 rows, m being its size, even when it then outgrows the majority class. With strategy maj both classes end with m rows, the majority rows being replaced by k-means centres. With minmaj the majority class is reduced to at most 2m - 1 centres. With the default checks no exception is raised, unless the nesting of the dendrogram exceeds the recursion limit: a chain of merges over more rows than the limit raises RecursionError.", "quantifier": "every two-class data set with at least three minority rows, every dendrogram (two earlier nodes per merge, every node but the last merged), every k-means, every recursion limit", "why_tests_cant": "the claim ranges over all merge trees, including chains deeper than the recursion limit", "anchors": ["smote_variants/oversampling/_ahc.py:AHC.sample_minority", "smote_variants/oversampling/_ahc.py:AHC.sample_majority", "smote_variants/oversampling/_ahc.py:AHC.sampling_algorithm"]}
{"id": "C80", "title": "SUNDO removes both rows of every close pair of majority rows", "statement": "SUNDO generates N minority rows and raises no exception, where N is half the difference of the class sizes, rounded: (k+1)/2 for an odd difference k, k/2 when k is divisible by four, k/2 + 1 otherwise; it returns its input when the classes have the same size. Each new row is a minority row moved by a normal draw times the standard deviation in each attribute; of three such trials it is one whose nearest majority row is the farthest. A majority row is removed exactly when another majority row is closer than the threshold, which is the entry at position n + 2N of the sorted matrix of distances. At most 2N majority rows are removed. Both rows of a close pair are removed, not one, so the majority class may end with fewer rows than the minority class.", "quantifier": "every two-class data set with at least three minority rows, every distance matrix (symmetric, non-negative, zero diagonal), every stream of draws", "why_tests_cant": "the count of removed rows depends on all pairs of majority rows", "anchors": ["smote_variants/oversampling/_sundo.py:SUNDO.generate_samples", "smote_variants/oversampling/_sundo.py:SUNDO.determine_removal", "smote_variants/oversampling/_sundo.py:SUNDO.sampling_algorithm"]}
{"id": "C81", "title": "NDO_sampling delegates to SMOTE with five neighbours or interpolates at most half-way, possibly one row too many", "statement": "NDO_sampling compares the mean distance of the minority rows to their minority neighbours with the mean distance to their majority neighbours. If the quotient is less than T (or there is no minority neighbour and T > 0) the result is that of SMOTE with five neighbours, whatever n_neighbors is. Otherwise it appends the requested number of minority rows or one more, and raises no exception. Each new row lies on the segment from a minority row to one of its neighbours among all rows, in the half nearer to the minority row, or in the other half when the neighbour is a minority row.", "quantifier": "every two-class data set with at least three minority rows, every proportion with rows to generate, every n_neighbors >= 1, every neighbour table, every stream of draws", "why_tests_cant": "the overshoot depends on the draws, the branch on all neighbour distances", "anchors": ["smote_variants/oversampling/_ndo_sampling.py:NDO_sampling.determine_alpha", "smote_variants/oversampling/_ndo_sampling.py:NDO_sampling.sampling_algorithm"]}
{"id": "C82", "title": "MOT2LD deletes rows at the wrong positions", "statement": "MOT2LD returns its input when no density peak is found or every minority row is noise (alone within the radius, or with no minority row among its neighbours, in the embedding). Otherwise it appends exactly the requested number of minority rows and raises no exception; each new row is a convex combination of original minority rows of one cluster without noise, the cluster being drawn in proportion to the summed weights of its rows. It also deletes from the data the rows whose positions are the positions of the noisy rows among the minority rows: these are the noisy rows if the minority rows come first, otherwise majority rows may be deleted and the noisy minority rows returned.", "quantifier": "every two-class data set with at least three minority rows, every embedding, neighbour table, radius count, peak list and stream of draws, every proportion with rows to generate, k >= 1", "why_tests_cant": "which rows vanish depends on the order of the rows and on the embedding", "anchors": ["smote_variants/oversampling/_mot2ld.py:MOT2LD.do_clustering", "smote_variants/oversampling/_mot2ld.py:MOT2LD.generate_samples_in_clusters", "smote_variants/oversampling/_mot2ld.py:MOT2LD.sampling_algorithm"]}
{"id": "C83", "title": "DSMOTE gives minority rows away", "statement": "If rows are requested, DSMOTE returns the majority rows, then the floor(rate * minority count) minority rows with the largest abnormality (mean distance to the minority rows over mean distance to the majority rows, after scaling), both with the majority label, then the remaining minority rows and exactly the requested number of new rows with the minority label. Every new row lies, coordinate by coordinate, between three different rows of the remaining and earlier new rows, and of the at most n_step geometric means drawn for it it is the one with the highest diversity score. The original rows come back unchanged by scaling and back. With proportion 1 the classes differ by twice the number of rows given away. If fewer than three minority rows remain the call raises.", "quantifier": "every two-class data set with two different majority rows, every rate in [0, 1], every proportion, n_step >= 1, every distance, every stream of draws, every number of rows", "why_tests_cant": "which rows change their class depends on all distances; the score is maintained incrementally over any number of rows", "anchors": ["smote_variants/oversampling/_dsmote.py:DSMOTE.generate_one_sample", "smote_variants/oversampling/_dsmote.py:DSMOTE.sampling", "smote_variants/oversampling/_dsmote.py:DSMOTE.calculate_abnormality", "smote_variants/oversampling/_dsmote.py:DSMOTE.sampling_algorithm"]}
{"id": "C84", "title": "ISOMAP_Hybrid cleans depending on label values", "statement": "With at least three minority rows ISOMAP_Hybrid raises no exception. It oversamples the embedded rows with SMOTE (requested number of rows in the hull of the embedded minority rows) and removes rows by the neighbourhood cleaning rule; the cleaned data set is returned if the sum of its labels and the number of its labels 0 both exceed two, otherwise the data set before cleaning. Hence without a label 0 the data set is never cleaned, and when the classes have been balanced and the minority label is the smaller one only minority rows are removed. With fewer than three minority rows the rows come back unembedded.", "quantifier": "every two-class data set, embedding, neighbour answer, stream of draws, proportion and pair of label values", "why_tests_cant": "the outcome depends on the values of the labels, on ties of the class sizes and on neighbours among generated rows", "anchors": ["smote_variants/oversampling/_isomap_hybrid.py:ISOMAP_Hybrid.sampling_algorithm", "smote_variants/noise_removal/_neighborhoodcleaningrule.py:NeighborhoodCleaningRule.remove_noise"]}
{"id": "C85", "title": "SVM_balance returns predictions in place of labels", "statement": "With at least three minority rows SVM_balance returns the rows of SMOTE (the input, then the requested number of rows in the hull of the minority class), and as labels the predictions of the classifier trained on them, with the first of the four values of C having the highest cross-validated score (0.01 if no score is positive), with min(5, minority size after SMOTE) folds. So labels of original rows may change, and all minority labels may vanish; if the classifier learns its training data the result is that of SMOTE. NoSMOTE returns its input or raises the exception it was asked for.", "quantifier": "every two-class data set, score function (also NaN), classifier, neighbour answer, stream of draws and proportion", "why_tests_cant": "ranges over every classifier outcome and tie between scores", "anchors": ["smote_variants/oversampling/_svm_balance.py:SVM_balance.sampling_algorithm", "smote_variants/oversampling/_nosmote.py:NoSMOTE.sampling_algorithm"]}
{"id": "C86", "title": "SMOTE_RSB appends the generated rows least similar to the majority", "statement": "Of the rows SMOTE generates, SMOTE_RSB appends different ones, at most as many as the classes differ by, to the unchanged input: only rows whose similarity (one minus the mean distance of the features, each divided by its range among the generated rows) to every majority row is at most the highest level (0.9); every such row if they are fewer than the difference; and never a row while leaving out one that is dissimilar at a lower level. So fewer rows than requested may be appended, even none, and a proportion above one has no effect on the limit.", "quantifier": "every two-class data set with at least three minority rows, neighbour answer, stream of draws, proportion and increasing list of levels", "why_tests_cant": "ranges over all data sets and draws; which rows pass depends on the spread of the generated rows", "anchors": ["smote_variants/oversampling/_smote_rsb.py:SMOTE_RSB.sampling_algorithm", "smote_variants/oversampling/_smote_rsb.py:SMOTE_RSB.normalization_factor"]}
{"id": "C87", "title": "SMOTE_IPF filters iteratively, and ends only for positive p", "statement": "With a positive p, SMOTE_IPF always ends, after at most (rows + 1)(k + 1) rounds: it takes the data set of SMOTE and in each round removes exactly the rows voted out by the classifiers trained on min(n_folds, minority size) folds, until k rounds in a row have each removed fewer rows than p times the rows left; it raises only what the classifiers raise. Majority voting: a row labelled 0 goes if more than half of the classifiers say 1, one labelled 1 if at most half do, and any other label always goes. Consensus voting: only rows labelled 0 which all n_folds classifiers take for 1 go; rows labelled 1 never go, and nothing goes when the minority class is smaller than n_folds. With p = 0, which the constructor accepts, no data set is ever returned, and with classifiers that learn their data the call runs for ever.", "quantifier": "every two-class data set with at least three minority rows, classifier, neighbour answer, stream of draws, k, n_folds and p", "why_tests_cant": "termination and the outcome of every number of rounds, for every classifier", "anchors": ["smote_variants/oversampling/_smote_ipf.py:SMOTE_IPF.sampling_algorithm"]}
{"id": "C88", "title": "MDO samples around well-surrounded minority rows", "statement": "MDO adds exactly the requested number of rows to the unchanged input. Each is made around a selected row (at least K1 = int(K2·K1_frac) of its K2 neighbours are minority rows), drawn in proportion to its number of minority neighbours, in the coordinates of the principal components of the selected rows: every coordinate but the last is within the axis of the ellipsoid through the base row, and the last one fills up what is left. So a sample lies within the ellipsoid, or has the mean's last coordinate; it may then have a larger Mahalanobis distance than every minority row. With no selected row the input comes back; with one, the samples are copies of it; if no selected row has a minority neighbour (possible for K1 = 0) ValueError is raised.", "quantifier": "every two-class data set with at least three minority rows, neighbour answer, set of components, stream of draws, proportion, K2 and K1_frac", "why_tests_cant": "ranges over all data sets, draws and numbers of components", "anchors": ["smote_variants/oversampling/_mdo.py:MDO.sampling_algorithm", "smote_variants/oversampling/_mdo.py:MDO.generate_samples", "smote_variants/oversampling/_mdo.py:MDO.generate_1_sample"]}
{"id": "C89", "title": "KernelADASYN samples a Metropolis chain", "statement": "KernelADASYN weighs the minority rows by the number of their majority neighbours. If fewer than two have one, the input comes back. Otherwise, if the covariance matrix of these rows is well-conditioned, exactly the requested number of rows is added to the unchanged input: the states number 1050, 1100, ... (burn_in 1000, periods 50) of the Metropolis chain for the weighted sum of Gaussian bumps at the minority rows, started at a minority row with a majority neighbour, whose steps are normal vectors times the Cholesky factor. If it is ill-conditioned the input comes back for two columns; for more the method is run on the nearest-half number of principal components (an even number for ties) and the result is mapped back, so that the rows of the input are replaced by their projections. In each case the input labels are kept, followed by none or the requested number of minority labels, one label per row. The call returns if there are at least two columns and at least half as many rows; with one column it raises exactly when the minority values with majority neighbours are all equal; too few rows for the components raise ValueError.", "quantifier": "every two-class data set with at least three minority rows, neighbour answer, stream of draws, conditioning answer, number of columns and parameters", "why_tests_cant": "ranges over all data sets, chains and depths of the reduction", "anchors": ["smote_variants/oversampling/_kerneladasyn.py:KernelADASYN.sampling_algorithm", "smote_variants/oversampling/_kerneladasyn.py:KernelADASYN.iterated_sampling", "smote_variants/oversampling/_kerneladasyn.py:KernelADASYN.mcmc", "smote_variants/oversampling/_kerneladasyn.py:KernelADASYN.p_x"]}
{"id": "C90", "title": "SYMPROD mixes the neighbourhood of the first selected row into every reference row", "statement": "SYMPROD drops the rows of each class that differ from its mean by std_outliers standard deviations or more in some column, computes for each remaining scaled minority row the mean over its nearest minority rows and over its nearest majority rows of the closeness factor (the reciprocal of the sum of distances within the class, stretched to 0..1; there is no selection if a row coincides with all rows of its class) divided by one plus the distance, and selects the rows whose first mean is at least cutoff_threshold times the second, lowering the threshold by tenths until there are two. A call then either hands back the input, or yields NaN, or adds exactly the requested number of minority rows to the unchanged input, each a convex combination of a selected row and m_neighbors of the m_neighbors + 3 selected rows nearest to the first selected row, the weights being proportional to the drawn gamma values times the closeness factors. With fewer than m_neighbors + 4 minority rows, or m_neighbors below 2, the input always comes back.", "quantifier": "every two-class data set with at least three minority rows, scaling, neighbour answer, stream of draws and parameters", "why_tests_cant": "ranges over all data sets and draws; an exception handler hides every failure", "anchors": ["smote_variants/oversampling/_symprod.py:SYMPROD.sampling_algorithm", "smote_variants/oversampling/_symprod.py:SYMPROD.noise_removal", "smote_variants/oversampling/_symprod.py:SYMPROD.determine_cf_norms", "smote_variants/oversampling/_symprod.py:SYMPROD.determine_taus", "smote_variants/oversampling/_symprod.py:SYMPROD.minority_point_selection", "smote_variants/oversampling/_symprod.py:SYMPROD.select_neighborhoods", "smote_variants/oversampling/_symprod.py:SYMPROD.instance_synthesis"]}
{"id": "C91", "title": "SSO adds the same number of rows in every round, at least one", "statement": "SSO runs n_iter rounds, each of which adds the requested number divided by n_iter (rounded down), but at least one row, to the unchanged input, all labelled as minority. Each new row is made around a minority row of that round, original or made in an earlier round, drawn with its share w of the values of the radial basis network, and differs from it by at most Q (1 - w) in every coordinate, Q being the mean distance to the last neighbour over the square root of the dimension. The number of rows is therefore the requested one exactly if that is a positive multiple of n_iter; it falls short by less than n_iter if at least n_iter are requested and is n_iter otherwise, also if none is requested. The call raises only what fitting the network raises; with h = 1 it always raises ValueError.", "quantifier": "every two-class data set with at least three minority rows, values of the network, neighbour distances, stream of draws and parameters", "why_tests_cant": "ranges over all data sets, draws and numbers of rounds", "anchors": ["smote_variants/oversampling/_sso.py:SSO.sampling_algorithm", "smote_variants/oversampling/_sso.py:SSO.generate_samples", "smote_variants/oversampling/_sso.py:SSO.determine_Q_and_weights", "smote_variants/oversampling/_sso.py:SSO.calculate_vectors", "smote_variants/oversampling/_sso.py:SSO.determine_Q"]}
{"id": "C92", "title": "PDFOS moves projected minority rows by normal vectors", "statement": "PDFOS (default metric) scales the data and takes the axes along which the scaled minority rows have a variance above 0.02. With one column, with a single axis, or if a decomposition fails, the input comes back; without any axis the call raises ValueError. Otherwise exactly the requested number of minority rows is added to the unchanged input: each is a drawn minority row, projected to the axes, moved by a normal vector whose covariance is the best of the twenty sigma values times the covariance of the rows labelled 1 along the axes, and scaled back; the rows come in the order of the minority rows they are made from. If the axes form an orthonormal basis this is the minority row itself moved along the axes.", "quantifier": "every two-class data set with at least three minority rows, spectrum, error values, stream of draws and parameters", "why_tests_cant": "ranges over all data sets, spectra and draws", "anchors": ["smote_variants/oversampling/_pdfos.py:PDFOS.sampling_algorithm", "smote_variants/oversampling/_pdfos.py:PDFOSKDE", "smote_variants/oversampling/_pdfos.py:FullRankTransformer", "smote_variants/base/_metrictensor.py:MetricTensor.tensor"]}
{"id": "C93", "title": "NEATER labels the new rows by reinforced neighbourhood belief", "statement": "If rows are requested, NEATER adds the rows of SMOTE (the requested number, convex combinations of minority rows) and of ADASYN (the difference of the class sizes, or none under ADASYN's own conditions) to the unchanged rows and keeps the input labels. A new row is labelled 1 exactly if it is believed to belong to the minority by more than one half after h rounds, otherwise 0. The belief starts at one half; in each round it is multiplied by alpha plus the support of the b neighbours for the minority and normalised with the same expression for the majority, where a neighbour supports its own class fully and the other one by min(alpha, 1 / distance). The call raises ValueError exactly if there are no more than b rows in total. The literal labels 0 and 1 are used whatever the labels of the classes are.", "quantifier": "every two-class data set with at least three minority rows, neighbour answer, distance function, stream of draws, number of rounds and positive alpha", "why_tests_cant": "ranges over all data sets, neighbourhoods and numbers of rounds of the game", "anchors": ["smote_variants/oversampling/_neater.py:NEATER.sampling_algorithm", "smote_variants/oversampling/_neater.py:NEATER.evolution", "smote_variants/oversampling/_neater.py:NEATER.utilities", "smote_variants/oversampling/_neater.py:NEATER.generate_new_samples"]}
{"id": "C94", "title": "SMOTE_FRST_2T moves majority rows to the minority and adds near rows", "statement": "If the classes differ in size, SMOTE_FRST_2T returns without error the majority rows left, labelled as the majority, followed by the unchanged minority rows, the new rows and the rows taken from the majority, all labelled as the minority. What is left and what was taken are together exactly the majority of the input, and the majority left is never smaller than the minority of the input. The new rows are convex combinations of minority rows. At most 100 rounds are made; they stop as soon as the minority is not smaller than the majority. A round generates a fifth of the class difference (at least one row) and keeps those nearer to the minority than the first threshold, which grows by a tenth whenever fewer rows than rounds have been kept. It moves the majority rows nearer than the second threshold to the minority, the new rows or the moved rows, unless they are more than half of the difference of the majority left and the minority; then it lowers the threshold by a tenth. Distances are sums of coordinate differences relative to the widths of the columns, at most 1. Classes of equal size: the input is returned.", "quantifier": "every two-class data set with at least three minority rows, neighbour answer, stream of draws in every round and every pair of thresholds", "why_tests_cant": "ranges over all data sets and histories of up to 100 rounds with thresholds that change", "anchors": ["smote_variants/oversampling/_smote_frst_2t.py:SMOTE_FRST_2T.sampling_algorithm", "smote_variants/oversampling/_smote_frst_2t.py:SMOTE_FRST_2T.iteration", "smote_variants/oversampling/_smote_frst_2t.py:SMOTE_FRST_2T.pos_cache"]}
{"id": "C95", "title": "SMOTEWB: boosted weights find the noise, minority rows not cut off by majority rows are bases", "statement": "SMOTEWB reweights the rows in up to n_iters rounds of boosting: the rows with a wrong label get a larger share and the weights sum to 1 again; as soon as a tree labels all rows correctly no row is noise. A row is noise if its weight is more than twice the share of the other class divided by the number of rows; with A minority and B majority rows taken for noise out of n, 2bA + 2aB is at most n squared for classes of a and b rows. Minority rows that are not noise, and noise whose nearest clean row is a minority row, are the bases. If there is a base and at least two rows are clean, exactly the requested number of rows is appended, labelled as the minority: each base gets m or m-1 rows, m being the quotient rounded up, and these rows are copies of a clean base that has a majority row as its nearest clean neighbour, or lie on the segment from the base to a clean minority row that is not farther than any clean majority row. Without a base the result is that of SMOTE. If nothing is requested the input is returned.", "quantifier": "every two-class data set with at least three minority rows, every proportion and number of rounds, all labels a tree with at least one right label may give, every nearest-first neighbour searcher, all draws", "why_tests_cant": "ranges over all data sets, histories of boosting rounds, neighbour answers and draws", "anchors": ["smote_variants/oversampling/_smotewb.py:SMOTEWB.sampling_algorithm", "smote_variants/oversampling/_smotewb.py:SMOTEWB.boosted_weights", "smote_variants/oversampling/_smotewb.py:SMOTEWB.noise_detection", "smote_variants/oversampling/_smotewb.py:SMOTEWB.first_majority_index"]}
{"id": "C96", "title": "GASMOTE returns the rows of the best configuration it evaluated", "statement": "GASMOTE returns without error the input followed by minority rows: around the i-th minority row as many as the i-th number of a configuration says, each a convex combination of that row and rows its neighbour table lists for it. The search evaluates n_pop + 3 (n_pop // 2) Ge configurations and returns one whose score no other evaluated configuration exceeds, although only n_pop survive a generation. The score is the geometric mean of the shares of minority and majority rows predicted correctly in a cross validation over at most five consecutive blocks of the data with rows generated for the configuration. In each generation the best int(n_pop pr) and again the best n_pop - int(n_pop pr) of the population are kept; parents are among them; a crossover child is the beginning of one parent with the end of the other; a mutation moves all numbers towards maxn or 0. All numbers are between 0 and maxn.", "quantifier": "every two-class data set with at least three minority rows, all accepted parameters, every neighbour table, all labels the tree may give, all draws in all generations", "why_tests_cant": "ranges over all histories of a genetic search with adversarial classifiers and draws", "anchors": ["smote_variants/oversampling/_gasmote.py:GASMOTE.sampling_algorithm", "smote_variants/oversampling/_gasmote.py:GASMOTE.genetic_algorithm", "smote_variants/oversampling/_gasmote.py:GASMOTE.fitness", "smote_variants/oversampling/_gasmote.py:GASMOTE.crossover", "smote_variants/oversampling/_gasmote.py:GASMOTE.mutation"]}
{"id": "C97", "title": "V_SYNTH puts new rows between a face of the Voronoi tessellation and one of its generators", "statement": "V_SYNTH returns the input, or the input followed by exactly the requested number of minority rows; it raises only if the tessellation does (n_components at least 2). Each new row is the image of a point on the segment from a convex combination of the vertices of a face between two points whose numbers belong to different classes to one of these two points. If no data row is within 0.001 of a later row in the reduced space, and the face has no vertex at infinity, then this point is at least as near to the image of some minority row as to the image of any other row. The input is returned if the reduction ends with one component or no face is between the classes.", "quantifier": "every two-class data set with at least three minority rows and two columns, every result of the principal component analysis and the tessellation that meets its contract, all draws", "why_tests_cant": "ranges over all data sets, tessellations and draws", "anchors": ["smote_variants/oversampling/_v_synth.py:V_SYNTH.sampling_algorithm", "smote_variants/oversampling/_v_synth.py:V_SYNTH.add_bounding_box", "smote_variants/oversampling/_v_synth.py:V_SYNTH.filter_vectors_too_close", "smote_variants/oversampling/_v_synth.py:V_SYNTH.dimensionality_reduction", "smote_variants/oversampling/_v_synth.py:V_SYNTH.generate_samples"]}
{"id": "C98", "title": "DE_oversampling removes exactly the similar rows of one-class clusters, and no class disappears", "statement": "DE_oversampling returns without error the input followed by exactly the requested number of rows, less the rows its cleansing removes. Each new row is a minority row of which some coordinates, at least one, are moved along the difference of two different later entries of its neighbour list, by a factor in [0, 1); with crossover_rate 1 all coordinates move, with 0 exactly one. A row, old or new, is removed if and only if all rows of its cluster have the same label, it is not the first row nearest to the centre of its cluster, and the cosine of the angle between the two, seen from the origin, is above similarity_threshold (or one of them is zero). Every cluster keeps a row, hence every class does.", "quantifier": "every two-class data set with at least three minority rows, all accepted parameters, every neighbour table and clustering that meets its contract, all draws", "why_tests_cant": "ranges over all data sets, clusterings and draws", "anchors": ["smote_variants/oversampling/_de_oversampling.py:DE_oversampling.sampling_algorithm", "smote_variants/oversampling/_de_oversampling.py:DE_oversampling.generate_samples", "smote_variants/oversampling/_de_oversampling.py:DE_oversampling.cleansing"]}
{"id": "C99", "title": "E_SMOTE keeps the first best feature mask and samples in its features", "statement": "The search of E_SMOTE evaluates 250 masks in 50 generations; the mask it keeps is the first of those with the largest share of rows predicted correctly. A new mask takes each feature from one of two masks of the population, or is a mutation, and has features added if there are fewer than min_features; the five best survive. The mask kept has at least min_features features (or all features) as soon as one evaluated mask predicts one row correctly. The result is the data restricted to the features of the mask followed by exactly the requested number of rows in the hull of the restricted minority rows; preprocessing_transform applied to the input gives the first rows of the result. Without requested rows the data keep all features and the mask of an earlier call stays.", "quantifier": "every two-class data set with at least three minority rows, all accepted parameters, all labels the classifier may give, all draws that are in range and eventually hit every feature", "why_tests_cant": "ranges over all histories of a genetic search with adversarial classifiers and draws", "anchors": ["smote_variants/oversampling/_e_smote.py:E_SMOTE.sampling_algorithm", "smote_variants/oversampling/_e_smote.py:E_SMOTE.crossover", "smote_variants/oversampling/_e_smote.py:E_SMOTE.mutate", "smote_variants/oversampling/_e_smote.py:E_SMOTE.preprocessing_transform"]}
{"id": "C100", "title": "SMOTE_AMSR pulls new rows towards rows of higher score", "statement": "SMOTE_AMSR returns without error the input followed by exactly the requested number of minority rows. Each is between two rows of its topology (star: a minority row and the mean of the minority; bus: neighbours in the order of the data; mesh: two minority rows), every coordinate of its own. With g the difference of the scores of target and base in units of the span of all scores (star: the mean included), every coordinate is at least the share g of the way to the target if g is not negative, and at most the share 1 + g otherwise; hence never outside the two rows. From the row of the smallest score towards that of the largest the new row is a copy of the latter.", "quantifier": "every two-class data set with at least three minority rows, every topology, all scores the isolation forest may give (equal ones included), all draws", "why_tests_cant": "ranges over all data sets, scores and draws", "anchors": ["smote_variants/oversampling/_smote_amsr.py:SMOTE_AMSR.sampling_algorithm", "smote_variants/oversampling/_smote_amsr.py:SMOTE_AMSR._star_generator", "smote_variants/oversampling/_smote_amsr.py:SMOTE_AMSR._bus_generator", "smote_variants/oversampling/_smote_amsr.py:SMOTE_AMSR._mesh_generator"]}
{"id": "C101", "title": "SMOTE_PSO ends, and its particles stay within their bounds", "statement": "SMOTE_PSO returns without error the input followed by minority rows only, found by searches one after the other, each on the rows of those before it. It ends: every search adds at least one row, and a search starts only while the minority is smaller than the majority. A search has one row for every minority support vector and every one of its at most k nearest majority support vectors; all particles start at p + eps (q - p); a velocity is the inertia, the pull towards the best rows of the particle and the pull towards the best rows of all particles so far, shortened to half the bound; the new rows are held back to the ball whose radius is the distance to the nearest majority support vector; the search returns the first best of all particles visited. So the rows it returns are all starting rows, or none is further from its minority support vector than any majority support vector is. It does not stop at balance: a search adds all its rows (three rows of four become six), and with eps > 1, which the constructor accepts, starting rows lie behind the majority rows.", "quantifier": "every two-class data set with at least three minority rows, every k, eps, inertia, accelerations, number of particles and iterations, all scores, support vectors and draws", "why_tests_cant": "ranges over all data sets and all histories of the swarm", "anchors": ["smote_variants/oversampling/_smote_pso.py:SMOTE_PSO.sampling_algorithm", "smote_variants/oversampling/_smote_pso.py:SMOTE_PSO.search", "smote_variants/oversampling/_smote_pso.py:SMOTE_PSO.initialize", "smote_variants/oversampling/_smote_pso.py:SMOTE_PSO.update_velocities", "smote_variants/oversampling/_smote_pso.py:SMOTE_PSO.update_positions", "smote_variants/oversampling/_smote_pso.py:SMOTE_PSO.update_scores"]}
{"id": "C102", "title": "SMOTE_PSOBAT is SMOTE with a searched pair of parameters, chosen by a reversed comparison", "statement": "SMOTE_PSOBAT returns without error what SMOTE returns with a number of neighbours from 1 to min(10, size of the minority) and a proportion from 0.1 to 2 (and a simplex dimension of at most the number of neighbours): the input followed by the number of minority rows the found proportion asks for. The search looks for pairs whose kappa exceeds 0.4. With the swarm, once such pairs are visited the one kept is replaced by less accurate ones only: what is returned is never more accurate than the best of the first iteration with any, and a pair found to be better is given up for a worse one. With the bats, a position among the good bats is used as a position among all bats, so a bat that is not good is returned although a good one was found. The largest number of neighbours shrinks with every call and stays so: a later call on other data uses at most the smallest minority class seen before. What a single particle keeps as its own best is its start until it has been at an acceptable combination, and from then on the least accurate of the acceptable combinations it has been at. The swarm stops before its iterations are used up exactly when its best has stayed the same in more iterations in a row than there are particles; the bats stop early only when something better was found in ten iterations in a row, and never because nothing is found. In every iteration a particle moves in each coordinate by at most the width of the range and stays in the range; without momentum, if the two attractions add up to at most one, its new position is the mean of its position, its own best and the best of the swarm, weighted by the attractions.", "quantifier": "every two-class data set with at least three minority rows, both methods, all numbers of iterations, constants, particles, scores and draws, all sequences of calls", "why_tests_cant": "ranges over all data sets, all histories of the search and all sequences of calls", "anchors": ["smote_variants/oversampling/_smote_psobat.py:SMOTE_PSOBAT.sampling_algorithm", "smote_variants/oversampling/_smote_psobat.py:SMOTE_PSOBAT.pso_vectorized", "smote_variants/oversampling/_smote_psobat.py:SMOTE_PSOBAT.pso_update_global_scores", "smote_variants/oversampling/_smote_psobat.py:SMOTE_PSOBAT.bat_vectorized", "smote_variants/oversampling/_smote_psobat.py:SMOTE_PSOBAT.bat_check_global", "smote_variants/oversampling/_smote_psobat.py:SMOTE_PSOBAT.bat_update_global_scores"]}
{"id": "C103", "title": "IPADE_ID returns one row per leaf of a tree, or the scaled data", "statement": "IPADE_ID ends (the search of its second phase cannot go on for ever, as the score can only take finitely many values and a class is given up after OT trials without success) and raises nothing. It returns either exactly one row for every leaf of the decision tree fitted to the scaled data, in the order of the leaves, with the most frequent label of the leaf, each inside the box of the input, or the input scaled to [0, 1] with its labels. So the second phase never adds a prototype although it is meant to, the output is no extension of the input (eleven rows become two), and when a ValueError is caught (for instance if the rows that are not alone in their leaf all have one label) the caller gets the scaled rows, not copies of the given ones. Prototypes that are returned are those of the first phase or score more. In each round of the second phase the class worked on is, among those not given up, the one with the lower accuracy, the minority on a tie.", "quantifier": "every two-class data set with more than four minority rows, every F, G, OT, number of iterations, tree, classifier and all draws", "why_tests_cant": "ranges over all data sets, all trees and all histories of the search", "anchors": ["smote_variants/oversampling/_ipade_id.py:IPADE_ID.sampling_algorithm", "smote_variants/oversampling/_ipade_id.py:IPADE_ID.phase_1", "smote_variants/oversampling/_ipade_id.py:IPADE_ID.phase_2", "smote_variants/oversampling/_ipade_id.py:IPADE_ID.DE_optimization", "smote_variants/oversampling/_ipade_id.py:IPADE_ID.configuration_checks"]}
{"id": "C104", "title": "CBSO makes new rows within linked groups, next to the majority", "statement": "CBSO returns the input followed by exactly as many minority rows as requested and raises nothing, provided the data set has more rows than n_neighbors. The minority rows fall into groups: two rows are in one group exactly if there is a chain of minority rows from the one to the other with no step longer than the threshold (the mean distance to the nearest other minority row, times C_p). Each group is drawn in proportion to the summed shares of majority rows around its members, and each draw of a group yields a convex combination of a member which has majority rows nearby, drawn in proportion to its share, and of other members of the same group, never of rows of two groups. A minority row that is further than the threshold from all others is a group of its own and only ever copied. With at most n_neighbors rows CBSO raises ValueError, since it does not lower the number of neighbours as the other oversamplers do.", "quantifier": "every two-class data set with more than two minority rows and all draws, thresholds and sampling settings (no Gaussian noise)", "why_tests_cant": "ranges over all data sets and all draws; the chain condition must hold after any number of merges", "anchors": ["smote_variants/oversampling/_cbso.py:CBSO.sampling_algorithm", "smote_variants/oversampling/_cbso.py:CBSO.do_clustering", "smote_variants/oversampling/_cbso.py:CBSO.generate_samples_in_clusters"]}
{"id": "C105", "title": "Assembled_SMOTE never mixes border rows with inner rows", "statement": "Assembled_SMOTE calls a minority row a border row if one of the n_neighbors + 1 rows nearest to it (itself included) is not a minority row. Without border rows the input is returned. Otherwise it returns the input followed by exactly as many minority rows as requested, and raises nothing. The border rows are divided into groups of at least pop rows (if there is more than one); all inner rows form one more group. Groups are drawn in proportion to their sizes, and each draw gives a convex combination of a row and of its neighbours within the group. So each new row lies in the convex hull of the border rows or in that of the inner rows.", "quantifier": "every two-class data set with more than two minority rows, every pop, alignment test, distance and all draws (no Gaussian noise)", "why_tests_cant": "ranges over all data sets, all merge histories and all draws", "anchors": ["smote_variants/oversampling/_assembled_smote.py:Assembled_SMOTE.sampling_algorithm", "smote_variants/oversampling/_assembled_smote.py:Assembled_SMOTE.determine_border_non_border", "smote_variants/oversampling/_assembled_smote.py:Assembled_SMOTE.do_the_clustering", "smote_variants/oversampling/_assembled_smote.py:Assembled_SMOTE.generate_samples_in_clusters"]}
{"id": "C106", "title": "A_SUWO drops noise and makes new rows within clusters", "statement": "A_SUWO first drops every row, of either class, for which none of the n_neighbors nearest other rows has its label. If no minority row is left it returns the input; if fewer than two majority rows are left it raises ValueError. Otherwise it returns what is left of the input followed by as many minority rows as were requested for the original class sizes, so the dropped rows are missing from the result and the classes need not reach the requested ratio. The remaining minority rows are divided into clusters: two rows of different clusters are further apart than the radius or some majority cluster is closer to both clusters than they are. Clusters are drawn in proportion to the share of their rows a linear classifier takes for the majority (one for single rows, equal shares if all are zero). Each draw gives a convex combination of a row of the cluster, drawn in proportion to its closeness to the majority, cut off at the mean of the cluster, and its neighbours in the cluster; no new row mixes clusters. With n_neighbors = 1 all new rows are copies, as a row is its own only neighbour.", "quantifier": "every two-class data set with more than two minority rows, every clustering of the majority, classifier, distance and all draws (no Gaussian noise)", "why_tests_cant": "ranges over all data sets, merge histories and draws", "anchors": ["smote_variants/oversampling/_a_suwo.py:A_SUWO.sampling_algorithm", "smote_variants/oversampling/_a_suwo.py:A_SUWO.remove_noise", "smote_variants/oversampling/_a_suwo.py:A_SUWO.cluster_minority_samples", "smote_variants/oversampling/_a_suwo.py:A_SUWO.adaptive_sub_cluster_sizing", "smote_variants/oversampling/_a_suwo.py:A_SUWO.within_cluster", "smote_variants/oversampling/_a_suwo.py:A_SUWO.generate_samples"]}
{"id": "C107", "title": "SOI_CJ makes new rows within disjoint clusters of minority rows, and loses clusters", "statement": "The cluster of a minority row starts as the rows listed among its nearest rows (as many as there are minority rows) before the first row of another class, and is empty if no such row is listed. If the loop which joins and splits intersecting clusters ends, the clusters are disjoint and contain minority rows only, each from such a start. If no cluster has at least three rows, the input is returned. Otherwise the input is followed by as many minority rows as requested; clusters of at least three rows are drawn in proportion to their sizes; with interpolation every coordinate of a new row lies between those of two different rows of the drawn cluster, with jittering a new row is a simplex point of the drawn cluster plus, per coordinate, a normal draw times the smaller one of the standard deviations of the minority and of the cluster. When the minority is an island (only minority rows are listed for its rows) nothing is generated. Joining two clusters drops the rows only the first one has; a cluster may be overwritten by the result for others, so that of two equal groups one may get no row at all, or both.", "quantifier": "every two-class data set with more than two minority rows, every neighbour search, every outcome of the merge decisions, any number of rounds, all draws", "why_tests_cant": "ranges over all data sets, merge histories with shared sets, and draws", "anchors": ["smote_variants/oversampling/_soi_cj.py:SOI_CJ.sampling_algorithm", "smote_variants/oversampling/_soi_cj.py:SOI_CJ.clustering", "smote_variants/oversampling/_soi_cj.py:SOI_CJ.init_clusters", "smote_variants/oversampling/_soi_cj.py:SOI_CJ.update_clusters", "smote_variants/oversampling/_soi_cj.py:SOI_CJ.rearrange_clusters", "smote_variants/oversampling/_soi_cj.py:SOI_CJ.sampling_by_interpolation", "smote_variants/oversampling/_soi_cj.py:SOI_CJ.sampling_by_jittering"]}
{"id": "C108", "title": "DEAGO replaces the rows of SMOTE by the answers of a network trained on the minority", "statement": "With more than two minority rows, the result is the input followed by exactly as many minority rows as requested; the i-th of them is the denormalised answer of the autoencoder to the i-th row SMOTE made on the same data. The autoencoder is trained on the standardised minority rows only: all of them up to ten, beyond that the last fifth (at least two rows) is held back for validation and the rest, at least four times as many, is used for training. It has at least two hidden units, is trained for at least e epochs, and for so many that one epoch more over the minority rows makes more than 5000 rows. Whatever the training gives, all new rows lie in a cone with as many edges as hidden units; a network without output weights returns the mean of the minority for every row.", "quantifier": "every two-class data set, every neighbour search and draw, every outcome of the training, every scaler", "why_tests_cant": "ranges over all data sets and all trained networks", "anchors": ["smote_variants/oversampling/_deago.py:DEAGO.sampling_algorithm", "smote_variants/oversampling/_deago.py:DEAGO.execute_autoencoder", "smote_variants/oversampling/_deago.py:DEAGO.get_model"]}
{"id": "C109", "title": "ADG adds up to twice the requested rows and works for the labels 0 and 1 only", "statement": "For labels 0 and 1, unless a system of equations is singular, the result is the rows labelled 0, then the rows labelled 1, then the new rows labelled as the minority. They come in batches: n, n/2, n/4, ... rows are drawn from the best mixture of at most nine components fitted to the rows labelled 1, and those on the positive side of the solution of a system of equations are kept; the loop ends when one row was drawn, when a batch is empty or has less than one hundredth of all rows added. Between 0 and 2n-1 rows are added when n were requested, so the minority may become the larger class. After a singular matrix everything is done again with half of the dimensions and brought back, which changes the input rows too. When 0 is the minority label, the new minority rows are drawn from a mixture of the majority rows. Without label 0 only the rows labelled 1 come back; without label 1 an AttributeError is raised, without both a ValueError; equal rows labelled 1 give an AttributeError. The kernel matrix and the products for the rows labelled 0 stay right when rows are added, those for the rows labelled 1 do not. The scatter within the classes is the sum of the products of the deviations from the class means at the start, and is wrong once rows were added, even for a constant kernel. In the system of equations the k neighbours are divided among the clusters in inverse proportion to their sizes, rounded down, with at least one for each.", "quantifier": "every two-class data set, every kernel, all clusterings, mixtures, draws and solutions", "why_tests_cant": "ranges over all data sets, labels, draws and the histories of the loop", "anchors": ["smote_variants/oversampling/_adg.py:ADG.sampling_algorithm", "smote_variants/oversampling/_adg.py:evaluate_matrices", "smote_variants/oversampling/_adg.py:xmeans", "smote_variants/oversampling/_adg.py:xgmeans", "smote_variants/oversampling/_adg.py:ADG.step_1_2_3_4", "smote_variants/oversampling/_adg.py:ADG.step_5_6_7", "smote_variants/oversampling/_adg.py:ADG.step_9_16", "smote_variants/oversampling/_adg.py:ADG.update_partial_results", "smote_variants/oversampling/_adg.py:ADG.sample_with_n_components"]}
{"id": "C110", "title": "DSRBF returns one of several runs of SMOTE, with no worse loss than the start", "statement": "For a suitable range of hidden units (smallest size at least two and less than the largest size and the number of rows) and not more sampling epochs than iterations, the result is the outcome of one of the runs of SMOTE on the standardized data, scaled back: the input unchanged, followed by exactly the requested number of minority rows in the convex hull of the minority rows. If the losses are numbers, some network has on the chosen data a loss that is at most the loss of every network of the start. With a range that is not suitable the input is returned. If the labels are not 0 and 1 the losses are NaN and the result is the first run of SMOTE. With more sampling epochs than iterations (and at least one iteration) the call ends in a ZeroDivisionError. A smallest size of one, which is accepted, may end in a ValueError; recombination makes networks smaller than the smallest size.", "quantifier": "every two-class data set with more than two minority rows, every neighbour search, all draws of the generator, every behaviour of the neurons and of the loss, any number of iterations", "why_tests_cant": "ranges over all data sets, populations and random histories of the search", "anchors": ["smote_variants/oversampling/_dsrbf.py:DSRBF.sampling_algorithm", "smote_variants/oversampling/_dsrbf.py:DSRBF.execute_optimization", "smote_variants/oversampling/_dsrbf.py:DSRBF.recombination", "smote_variants/oversampling/_dsrbf.py:RBF.recombine", "smote_variants/oversampling/_dsrbf.py:RBF.structural_mutation"]}
{"id": "C111", "title": "The summary of evaluation results lists every group once, with aligned columns, but drops oversamplers without ss_params", "statement": "For results in which every record has the wanted scores, create_summary returns one row for every combination of data set, oversampler, classifier and their parameters and sampling mode, in ascending order. In a row every asked-for column is the list of the values of exactly the records of the combination, in the same order for all columns and with ascending fold numbers. The result does not depend on the order of the files if the fold numbers of a combination are different; with repeated foldings it does. Records of oversamplers without ss_params are dropped without a message. Asking for a column that does not exist raises a KeyError, also for the default columns when auc is not among the scores. A single record that lacks a wanted score, or whose ss_params lack the sampling mode, makes the whole summary raise a KeyError.", "quantifier": "all lists of records, scores and columns, every order of equal fold numbers", "why_tests_cant": "ranges over all collections of results and file orders", "anchors": ["smote_variants/evaluation/_processing.py:create_summary", "smote_variants/evaluation/_processing.py:is_deterministic", "smote_variants/evaluation/_processing.py:_serialize_data", "smote_variants/evaluation/_processing.py:_extract_attributes"]}
{"id": "C112", "title": "The data of the plots count every point once, if the plotted coordinates are all columns", "statement": "vector_labeling with coordinates that cover all columns returns one row per point and label (rounded to four decimals) of the original or the new data, with its number of occurrences in both. The flag of a row is untouched iff the numbers agree, new iff the point is not in the original data, removed iff it is not in the new data, and count_changed otherwise; if the new data continue the original data, nothing is flagged as removed. resampled_flag leaves out points whose number of occurrences has changed. If a column is not plotted, rows that differ in it only are joined with each other, and untouched data have rows flagged as changed. Data on a scale below 0.00005 collapse. relabel_y gives different names to different classes when there are not exactly two of them or when they are 0 and 1; with two other labels all rows get the same name.", "quantifier": "all original and new data, labels and coordinates", "why_tests_cant": "ranges over all pairs of data sets", "anchors": ["smote_variants/visualization/_visualization.py:vector_labeling", "smote_variants/visualization/_visualization.py:unique_data", "smote_variants/visualization/_visualization.py:relabel_y"]}
{"id": "C113", "title": "Most oversamplers keep their input; some offered for several classes do not", "statement": "SMOTE and 61 further oversamplers return, whenever they return at all, the unchanged input followed by rows which all carry the minority label: no row or label of the input is changed, moved or removed, whatever the neighbour searches, clusterings, scalers and random numbers are. MulticlassOversampling with one of them adds to every class exactly the rows that its oversampler generated in the one-versus-rest problem. If the inner oversampler removes rows, as A_SUWO, MOT2LD and NRAS do although get_multiclass_oversamplers offers them, as many generated rows get lost, the removed rows are returned nevertheless, and the classes are not of equal size afterwards (A_SUWO, MOT2LD).", "quantifier": "all data sets, parameters, results of the external calls, and random numbers", "why_tests_cant": "ranges over all data, all behaviours of the libraries and all random streams", "anchors": ["smote_variants/base/_oversampling.py:OverSamplingBase.sample", "smote_variants/oversampling", "smote_variants/queries/_queries.py:multiclass_filter", "smote_variants/multiclassoversampling/_multiclassoversampling.py:MulticlassOversampling.sample_equalize_1_vs_many"]}
{"id": "C114", "title": "A seed makes SMOTE reproducible, whatever else draws random numbers", "statement": "SMOTE with an integer seed gives the same data whatever was drawn before by anybody, touches no other generator and not that of np.random; its results in any interleaving with the calls of other oversamplers are those it gives alone; a second call goes on with the stream, and an object made anew with the seed repeats the first result. Without a seed it uses np.random, and after np.random.seed(n) gives what it gives with the seed n. Seeds below 0 or from 2**32 on are refused. E_SMOTE is not reproducible (its first feature comes from np.random), the SMOTE inside SMOTEWB ignores the seed, and DEAGO seeds np.random for everybody else and cannot sample with a RandomState object.", "quantifier": "all data sets, parameters, generators, seeds, states of all generators and histories of calls of any number of oversamplers", "why_tests_cant": "ranges over all histories of draws and all generator states", "anchors": ["smote_variants/base/_base.py:RandomStateMixin", "smote_variants/base/_simplexsampling.py:SimplexSamplingMixin", "smote_variants/oversampling/_smote.py:SMOTE", "smote_variants/oversampling/_e_smote.py:E_SMOTE", "smote_variants/oversampling/_smotewb.py:SMOTEWB", "smote_variants/oversampling/_deago.py:DEAGO"]}
{"id": "C115", "title": "Learned metrics separate rows, except with weights from mutual information", "statement": "With nn_params={'metric': 'precomputed', 'metric_learning_method': m} the tensor of the methods rf, cov, cov_min, id and gmean is symmetric and gives different rows a positive distance; fix_pd_matrix leaves a matrix above its bound unchanged; MI_weighted weighs the columns with non-negative weights whose mean is 1; for rf the regression reproduces dissimilarities which are distances of a tensor, and the tensor gives every pair of the regression at least its dissimilarity (exactly it, if no repair is needed); gmean gives the mean of the two matrices if that needs no repair; reverse_matrix keeps the directions and reverses distinct eigenvalues; cov and cov_min need two columns and two rows. An unknown method gives no tensor. A given tensor is used only if the metric is 'precomputed'. The dissimilarity of a forest is a pseudometric in [0, 1]. RemoveCorrelatedColumns keeps no two columns correlated above the threshold. Violated: ITML_mi can give negative squared distances and, like gmean, never uses ITML; MI_weighted can give different rows the distance zero; cov_min uses the rows labelled 1, not the minority; reverse_matrix loses eigenvalues if two are equal; RemoveCorrelatedColumns can drop a column which is not correlated with any kept one, and refuses a single column.", "quantifier": "all matrices over all ordered fields, data sets, methods, eigenvalue solvers, inverses, regressions and trainers meeting their contracts; all forests and correlations", "why_tests_cant": "ranges over all matrices and data; positivity must hold for every pair of rows", "anchors": ["smote_variants/base/_metrictensor.py:MetricTensor", "smote_variants/base/_metrictensor.py:fix_pd_matrix", "smote_variants/base/_metrictensor.py:construct_tensor", "smote_variants/base/_metrictensor.py:reverse_matrix", "smote_variants/base/_metrictensor.py:ClassifierImpliedDissimilarityMatrix", "smote_variants/base/_metrictensor.py:RemoveCorrelatedColumns", "smote_variants/base/_metrictensor.py:MetricLearningMixin", "smote_variants/base/_metrictensor.py:NearestNeighborsWithMetricTensor"]}
{"id": "C116", "title": "Sampling by volume uses simplices with a volume only", "statement": "The volume of a simplex that simplex_sampling='volume' uses as a weight is not negative, does not depend on the order of the vertices or on a translation, grows with the k-th power of a scaling, is |det|/k! if the simplex is full-dimensional, agrees with the Euclidean distance for two vertices and is zero exactly if the vertices are affinely dependent. So every row SMOTE adds in this mode is a convex combination of affinely independent minority rows, as many as asked for; SMOTE returns as soon as one listed simplex has a volume, and raises ValueError if none has: if n_dim exceeds the number of features plus one, or if all minority rows are equal.", "quantifier": "all vertices in all dimensions, all data sets, parameters, neighbour tables and draws", "why_tests_cant": "ranges over all simplices of all dimensions and all data", "anchors": ["smote_variants/base/_simplexsampling.py:simplex_volume", "smote_variants/base/_simplexsampling.py:simplex_volumes", "smote_variants/base/_simplexsampling.py:SimplexSamplingMixin.simplices", "smote_variants/oversampling/_smote.py:SMOTE"]}
{"id": "C117", "title": "The names of the classes do not matter", "statement": "Oversampling a two-class data set whose labels are replaced by two other ones gives, with the same neighbour tables and random numbers, the same rows and the same labels up to that replacement, or the same exception. This holds for any other labels for 52 oversamplers of the package (SMOTE, ADASYN, Safe_Level_SMOTE, MWMOTE, ProWSyn, KMEANS_SMOTE, DBSMOTE, CCR, LN_SMOTE, SYMPROD and others). For Borderline_SMOTE1, Borderline_SMOTE2, Stefanowski, SMOTE_ENN, SMOTE_TomekLinks, NRAS and Supervised_SMOTE it holds if the new labels are ordered as the old ones, for any number of classes. It does not hold for any labels with Borderline_SMOTE1 and 2 (a tie among an even number of neighbours is decided by the smaller label), and for NEATER and SMMO, which take the labels to be 0 and 1, it does not hold even if the order is kept.", "quantifier": "all injective (or strictly increasing) replacements of the labels, all data sets, parameters, neighbour tables and random numbers", "why_tests_cant": "a relation between two runs, for all labels and all data; the tests of the package use the labels 0 and 1", "anchors": ["smote_variants/base/_base.py:StatisticsMixin.class_label_statistics", "smote_variants/oversampling/_smote.py:SMOTE", "smote_variants/oversampling/_borderline_smote.py:determine_danger_remove_noise", "smote_variants/oversampling/_neater.py:NEATER", "smote_variants/oversampling/_smmo.py:SMMO", "smote_variants/noise_removal/_editednn.py:EditedNearestNeighbors", "smote_variants/oversampling/_mwmote.py:MWMOTE", "smote_variants/oversampling/_adasyn.py:ADASYN"]}
{"id": "C118", "title": "Oversampling does not depend on the choice of coordinates", "statement": "For every affine map of the feature space (any matrix, any shift) under which the neighbour search keeps its answers, mapping the data first and then oversampling gives exactly the mapped result of oversampling the original data with the same random draws: the same labels, the images of the same rows, or the same exception. Proved for SMOTE, ADASYN, Borderline_SMOTE1, Borderline_SMOTE2, NT_SMOTE, ISMOTE, distance_SMOTE, SMOTE_ENN, SMOTE_TomekLinks, polynom_fit_SMOTE with the topologies star and bus, polynom_fit_SMOTE_mesh, cluster_SMOTE, kmeans_SMOTE (if the clustering keeps its answers), Supervised_SMOTE (if the classifier keeps its probabilities) and the filters of edited nearest neighbours and Tomek links, for all sampling modes (the volume mode needs volumes scaled by a common factor) without a gaussian component. The Euclidean neighbour search keeps its answers for every map whose matrix has orthogonal columns of equal length, i.e. for translations, rotations, reflections, a common change of units and all their compositions. It is false for columns in different units and for a gaussian component; both are shown by concrete data. SPY and Stefanowski, which only copy or relabel rows, follow every map which keeps the neighbours. Random_SMOTE and AND_SMOTE use the axes: they follow changes of units of single columns which keep the neighbours, but not rotations, as concrete data shows.", "quantifier": "all affine maps, numbers of features, data sets (valid or not), parameters, random draws, neighbour searches with the stated contract", "why_tests_cant": "a test compares one transformed data set with one original; the claim is about all affine maps and all data at once", "anchors": ["smote_variants/base/_simplexsampling.py:SimplexSamplingMixin.sample_simplex", "smote_variants/oversampling/_smote.py:SMOTE.sampling_algorithm", "smote_variants/oversampling/_adasyn.py:ADASYN.sampling_algorithm", "smote_variants/oversampling/_borderline_smote.py:Borderline_SMOTE1.sampling_algorithm", "smote_variants/oversampling/_ismote.py:ISMOTE.sampling_algorithm", "smote_variants/oversampling/_distance_smote.py:distance_SMOTE.sampling_algorithm", "smote_variants/noise_removal/_editednn.py:EditedNearestNeighbors.remove_noise", "smote_variants/oversampling/_spy.py:SPY.sampling_algorithm", "smote_variants/oversampling/_stefanowski.py:Stefanowski.sampling_algorithm", "smote_variants/oversampling/_polynom_fit_smote.py:polynom_fit_SMOTE.sampling_algorithm", "smote_variants/oversampling/_cluster_smote.py:cluster_SMOTE.sampling_algorithm", "smote_variants/oversampling/_kmeans_smote.py:kmeans_SMOTE.sampling_algorithm", "smote_variants/oversampling/_supervised_smote.py:Supervised_SMOTE.sampling_algorithm", "smote_variants/oversampling/_random_smote.py:Random_SMOTE.sampling_algorithm", "smote_variants/oversampling/_and_smote.py:AND_SMOTE.sampling_algorithm"]}
{"id": "C119", "title": "The majority rows do not influence the new rows", "statement": "Two two-class data sets with the same minority rows in the same order and the same number of majority rows, whatever these are and wherever they stand, get the same new rows (or the same exception) with the same random draws. Proved for SMOTE, ADOMS, cluster_SMOTE, G_SMOTE, Random_SMOTE, NoSMOTE, LLE_SMOTE, LVQ_SMOTE, polynom_fit_SMOTE (star, bus, poly and mesh), distance_SMOTE, NT_SMOTE, RWO_sampling, SMOTE_D, SN_SMOTE, MCT, ROSE, SMOBD and DEAGO. It is false for Gaussian_SMOTE, whose scaler is fitted to all rows: changing one majority row changes the new rows.", "quantifier": "all pairs of two-class data sets which agree in the minority rows and in the number of majority rows, all parameters, random draws, neighbour searches and trained sub-models", "why_tests_cant": "the claim compares two arbitrary data sets; a test compares one pair", "anchors": ["smote_variants/oversampling/_smote.py:SMOTE.sampling_algorithm", "smote_variants/oversampling/_adoms.py:ADOMS.sampling_algorithm", "smote_variants/oversampling/_cluster_smote.py:cluster_SMOTE.sampling_algorithm", "smote_variants/oversampling/_rose.py:ROSE.sampling_algorithm", "smote_variants/oversampling/_smobd.py:SMOBD.sampling_algorithm", "smote_variants/oversampling/_gaussian_smote.py:Gaussian_SMOTE.sampling_algorithm"]}
{"id": "C120", "title": "Balanced data stay as they are", "statement": "sample returns two-class data with classes of equal size exactly as given, whatever the parameters, the proportion, the random draws and the neighbour searches are. Proved for 79 models of oversamplers, among them SMOTE, ADASYN, the Borderline SMOTEs, MWMOTE, A_SUWO, CCR, ADOMS, polynom_fit_SMOTE, Gazzah, Lee, SMOTE_IPF, SMOTE_RSB, SMOTE_PSO, SMOTE_FRST_2T, ISMOTE and SUNDO. It is false for SMOTE_TomekLinks, SMOTE_ENN, SPY, Stefanowski, AHC and SSO. Consequently SMOTE with proportion 1 is idempotent: a second run, even with other parameters and draws, or any other of these samplers, changes nothing. With another proportion SMOTE is not idempotent, and neither are the Tomek links removal and the edited nearest neighbour rule.", "quantifier": "all two-class data sets with classes of equal size (for idempotence all two-class data sets), all parameters, random draws, neighbour searches and trained sub-models", "why_tests_cant": "the claim ranges over every balanced data set, every parameter setting and every draw; tests balance a few data sets and look at the counts only", "anchors": ["smote_variants/base/_oversampling.py:OverSamplingBase.det_n_to_sample", "smote_variants/base/_oversampling.py:OverSamplingBase.sample", "smote_variants/oversampling/_smote.py:SMOTE.sampling_algorithm", "smote_variants/oversampling/_smote_tomeklinks.py:SMOTE_TomekLinks.sampling_algorithm", "smote_variants/oversampling/_smote_enn.py:SMOTE_ENN.sampling_algorithm", "smote_variants/oversampling/_spy.py:SPY.sampling_algorithm", "smote_variants/oversampling/_stefanowski.py:Stefanowski.sampling_algorithm", "smote_variants/oversampling/_ahc.py:AHC.sampling_algorithm", "smote_variants/oversampling/_sso.py:SSO.sampling_algorithm"]}
{"id": "C121", "title": "The order of the rows", "statement": "Putting the rows of two-class data in another order does not change which labelled rows the Tomek link removal, the edited nearest neighbour rule, the neighbourhood cleaning rule and SPY give, nor the new rows of polynom_fit_SMOTE with the star topology (for all but the last, provided the neighbour search finds the same neighbours, which an exact search does when no two distances from a row are equal). SMOTE that draws simplices and points at random can give the same new rows for the reordered data, with other draws. It is false for the condensed nearest neighbour rule, the one sided selection, CNNTomekLinks, the bus topology of polynom_fit_SMOTE and deterministic SMOTE, whose results depend on the order of the rows.", "quantifier": "all two-class data sets, all orders of their rows, all parameters, draws and neighbour searches meeting the contract", "why_tests_cant": "the claim compares two runs for every data set and every permutation; tests use one order", "anchors": ["smote_variants/noise_removal/_tomeklinkremoval.py:TomekLinkRemoval.remove_noise", "smote_variants/noise_removal/_editednn.py:EditedNearestNeighbors.remove_noise", "smote_variants/noise_removal/_neighborhoodcleaningrule.py:NeighborhoodCleaningRule.remove_noise", "smote_variants/noise_removal/_condensednn.py:CondensedNearestNeighbors.remove_noise", "smote_variants/noise_removal/_onesidedselection.py:OneSidedSelection.remove_noise", "smote_variants/noise_removal/_cnntomeklinks.py:CNNTomekLinks.remove_noise", "smote_variants/oversampling/_spy.py:SPY.sampling_algorithm", "smote_variants/oversampling/_polynom_fit_smote.py:polynom_fit_SMOTE.sampling_algorithm", "smote_variants/oversampling/_smote.py:SMOTE.sampling_algorithm", "smote_variants/base/_simplexsampling.py:SimplexSamplingMixin.simplices"]}
{"id": "C122", "title": "What a whole evaluation returns", "statement": "evaluate_oversamplers with a cache returns one result for every combination of data set, fold, oversampler and classifier, in this order, and each holds what evaluating this combination alone, without a cache, gives (up to times, warnings and the name of the file with the oversampled data): whatever earlier runs with the same or other oversamplers and classifiers left in the directory, completely or cut off by a crash, and whichever files were torn or removed. It returns exactly when the evaluation without a cache does. A second run returns the same files and evaluates nothing again. With several jobs, shuffled and scheduled in any way, the same results come in some order, and the table of mean scores is the same. clean_up never removes results. This needs data sets that keep their folds under their name, distinct hash codes, no late jobs and no folds of another cross-validation in the directory; otherwise it is false: changed data under an old name gets the old results, stale folds are evaluated when there are several jobs (and only then), with several jobs an oversampler raising any exception is reported as a timeout whereas with one job the exception ends the evaluation, and without a cache all records show the descriptor of the last fold. With several jobs, one job without a result makes the whole evaluation fail.", "quantifier": "all data sets, folds, oversamplers, classifiers, scores, hash functions without collisions among the labels used, all histories of the cache directory, all shuffles and schedules, all values of clean_up", "why_tests_cant": "the claim ranges over all histories of the cache, crash points and schedules, and compares every run with the run without a cache", "anchors": ["smote_variants/evaluation/_functions.py:evaluate_oversamplers", "smote_variants/evaluation/_functions.py:evaluate_oversampler_on_dataset", "smote_variants/evaluation/_functions.py:cached_evaluation", "smote_variants/evaluation/_functions.py:execute_1_job", "smote_variants/evaluation/_functions.py:execute_1_os", "smote_variants/evaluation/_functions.py:execute_1_eval", "smote_variants/evaluation/_functions.py:do_clean_up", "smote_variants/evaluation/_folding.py:Folding.cache_foldings", "smote_variants/evaluation/_sampling.py:SamplingJob.do_oversampling", "smote_variants/evaluation/_evaluation.py:EvaluationJob.do_evaluation", "smote_variants/evaluation/_parallelization.py:ThreadTimeoutProcessPool.execute"]}
{"id": "C123", "title": "Linear conditions among the features survive oversampling", "statement": "If the features of all minority rows fulfil a linear condition, an equation or an inequality (a total and its parts, dummy variables which add up to one, a feature which is not negative, one feature which does not exceed another, a feature with the same value in the whole class), so do the features of all minority rows which SMOTE, SDSMOTE, Lee, Borderline_SMOTE1, ADASYN, AND_SMOTE, distance_SMOTE, ProWSyn, SMOTE_D, polynom_fit_SMOTE (star, bus, mesh), kmeans_SMOTE, cluster_SMOTE, MWMOTE, CURE_SMOTE, MCT, Edge_Det_SMOTE, SN_SMOTE, SMMO, Supervised_SMOTE, TRIM_SMOTE, NRSBoundary_SMOTE, SOMO, Assembled_SMOTE, G_SMOTE, SMOTE_ENN, SMOTE_TomekLinks, NT_SMOTE, CE_SMOTE, SMOTE_RSB, ANS, CBSO, A_SUWO and SYMPROD return. In particular every feature stays between its smallest and its largest minority value, and a minority class of equal rows only gets copies. Random_SMOTE keeps the ranges of the features, but breaks sums of features, as does the polynomial topology of polynom_fit_SMOTE; SMOTE_OUT makes features negative which are not negative in any row of the data; Safe_Level_SMOTE, MSMOTE and Borderline_SMOTE2 do not even keep features which are constant in the minority class.", "quantifier": "all data sets of two classes, all linear equations and inequalities, all parameters without gaussian component, all random draws within their range and all answers of the neighbour search and the clustering with the documented shape", "why_tests_cant": "The equations, the data and the draws range over infinite sets, and a row which breaks an equation may appear only for particular draws; a test sees a few equations on a few data sets.", "anchors": ["smote_variants/base/_simplexsampling.py: SimplexSamplingMixin.sample_simplex", "smote_variants/oversampling/_random_smote.py: Random_SMOTE.sampling_algorithm", "smote_variants/oversampling/_polynom_fit_smote.py: polynom_fit_SMOTE_poly", "smote_variants/oversampling/_safe_level_smote.py: Safe_Level_SMOTE.sampling_algorithm", "smote_variants/oversampling/_msmote.py: MSMOTE", "smote_variants/oversampling/_borderline_smote.py: Borderline_SMOTE2", "smote_variants/oversampling/_nt_smote.py: NT_SMOTE", "smote_variants/oversampling/_ce_smote.py: CE_SMOTE", "smote_variants/oversampling/_a_suwo.py: A_SUWO", "smote_variants/oversampling/_smote_out.py: SMOTE_OUT"]}
{"id": "C124", "title": "An oversampler object that is used again", "statement": "After any number of earlier calls, also calls that raised, sample of an oversampler object gives what a new object with the same parameters and the same draws gives: the class statistics are those of the last call. This holds for every oversampler that does not assign to its own parameters, and also for SOI_CJ and E_SMOTE, whose gaussian component and mask stay changed, and for SOMO as long as no call raised (after an exception its n_dim may stay 2). It fails for two: MOT2LD keeps as n_components the smallest number of features it has ever sampled, also in get_params, and SMOTE_PSOBAT keeps the size of the smallest minority class it has seen as the bound of its search; both behave like new if no earlier data set was smaller in this sense, and not otherwise. A call with one class only raises and leaves class sizes and labels that do not belong together. The mask of E_SMOTE is the one found by the last call that had something to sample, so after a call that returns early preprocessing_transform still selects the features of an earlier data set.", "quantifier": "all histories of calls on one object, each with its own data, dimension, draws and outcome (result or exception)", "why_tests_cant": "The state kept between calls depends on the whole history; a test sees a few sequences, and in most of them the kept value happens not to matter.", "anchors": ["smote_variants/base/_base.py: StatisticsMixin.class_label_statistics", "smote_variants/base/_oversampling.py: OverSampling.sample", "smote_variants/oversampling/_mot2ld.py: MOT2LD.sampling_algorithm", "smote_variants/oversampling/_smote_psobat.py: SMOTE_PSOBAT.sampling_algorithm", "smote_variants/oversampling/_somo.py: SOMO.generate_inter_samples", "smote_variants/oversampling/_soi_cj.py: SOI_CJ.sample_within_cluster_jittering", "smote_variants/oversampling/_e_smote.py: E_SMOTE.sampling_algorithm"]}
{"id": "C125", "title": "The test rows do not influence the training", "statement": "In the results of an evaluation, with or without a cache, the predictions for the test rows of a fold are the values of one function that is given by the training rows and their labels alone (with the oversampler, the classifier and the scaler), provided the scaler, preprocessing_transform and the classifier work row by row and preprocessing_transform does not raise. So two data sets that agree at the training positions of a split give a row tested in both the same prediction, whatever the other rows and the labels of the tested rows are, and the resampled training set is the same. The labels of the test rows never change a prediction or an error, whatever the parts do; they only enter the scores, which are computed from exactly the predictions and the test labels of the fold. Otherwise it is false: a preprocessing_transform raising ValueError for one test row makes the job train on the unsampled rows, which changes the predictions of the other test rows, and a classifier raising ValueError for one test row gives all test rows the probability 0.", "quantifier": "all data sets, splits, oversamplers, classifiers, scalers and scores; all pairs of data sets agreeing at the training positions; all histories of the cache (through C122)", "why_tests_cant": "the claim compares an evaluation with the evaluations of all other data sets that have the same training part; tests look at single runs", "anchors": ["smote_variants/evaluation/_sampling.py:SamplingJob.do_oversampling", "smote_variants/evaluation/_evaluation.py:EvaluationJob.do_evaluation", "smote_variants/evaluation/_folding.py:Folding.fold", "smote_variants/evaluation/_functions.py:execute_1_job"]}
{"id": "C126", "title": "Cleaning cleaned data again", "statement": "Applying a noise filter again and again only removes rows, never alters or reorders one, and comes to an end after at most as many rounds as there are rows. For Tomek link removal the end is a data set without Tomek links, which another round leaves alone, or a data set with one class left, on which another round raises; for the edited nearest neighbours and the neighbourhood cleaning rule it is a data set from which nothing is removed any more, or one with fewer than four rows or one class. Condensing a condensed data set changes nothing as long as the same class remains the minority, and undersampling an undersampled data set only changes the order of the majority rows. It is false that cleaning once is enough (removing Tomek links makes new ones), and that cleaning twice is harmless: repeated Tomek removal can eat up the whole majority class and then raises, the edited nearest neighbours and the neighbourhood cleaning rule can leave a single class, and condensing twice can throw away minority rows, because the classes may have changed their roles.", "quantifier": "all data sets, all neighbour searches, strategies, classifiers (for condensing) and random choices, any number of rounds", "why_tests_cant": "the number of rounds is unbounded and the end state depends on the data", "anchors": ["smote_variants/noise_removal/_tomeklinkremoval.py:TomekLinkRemoval.remove_noise", "smote_variants/noise_removal/_editednn.py:EditedNearestNeighbors.remove_noise", "smote_variants/noise_removal/_neighborhoodcleaningrule.py:NeighborhoodCleaningRule.remove_noise", "smote_variants/noise_removal/_condensednn.py:CondensedNearestNeighbors.remove_noise", "smote_variants/undersampling/_random_undersampling.py:RandomUndersampling.sample"]}
{"id": "C127", "title": "Several processes at one cache file", "statement": "When any number of processes store the same record in one json cache file at the same time, with their file-system calls interleaved in any way and any of them killed at any point, a process that loads the file meanwhile finds no file, a damaged one (both of which are noticed), the complete file that was there before, or the complete new record, and nothing else. When all writers have come to an end and none was killed, the file exists and is complete, and at least one writer has not raised; the latter holds for pickle files as well. It is false that storing always succeeds: if the file exists already, one of two writers can raise FileNotFoundError, because it removes a file the other one has just removed. It is false that a complete file can be loaded while another process stores it again. And it is false for records that differ (for example in the measured times): the file can be left as a mixture that nobody has written and that is not noticed.", "quantifier": "all numbers of writers and readers, all interleavings of their calls, all sizes of the single writes and reads, all points at which processes are killed, all records and old contents", "why_tests_cant": "races between processes appear for particular interleavings only, which a test cannot enumerate", "anchors": ["smote_variants/base/_base.py:dump_dict", "smote_variants/base/_base.py:load_dict", "smote_variants/base/_base.py:check_if_damaged"]}
{"id": "C128", "title": "The array helpers do what their names say", "statement": "array_array_index(A, I) returns the array whose row r holds the items of row r of A at the positions in row r of I, for every number of rows and columns, provided each position exists in its row. cartesian_product lists every combination of one item of each argument exactly as often as the items occur, in lexicographic order with the last argument varying fastest. shuffle_training_set keeps each row together with its label and loses or repeats none; without random state it changes nothing. sample_by_jittering moves all coordinates by one common amount, and can reach every amount between minus and plus the deviation; the componentwise version moves every coordinate by at most its own deviation. cov returns one row and one column per variable for one variable as for many, holding the sample covariances; the matrix is symmetric and positive semidefinite, and NaN with fewer than two observations. It is false that positions which do not exist are refused by array_array_index: with at least two columns of positions the item of another row is returned silently.", "quantifier": "all arrays, all tables of positions, all numbers and lengths of arguments, all permutations drawn, all draws, all numbers of variables and observations", "why_tests_cant": "index arithmetic and order over unbounded shapes, and inequalities over all arrays", "anchors": ["smote_variants/base/_simplexsampling.py:array_array_index", "smote_variants/base/_simplexsampling.py:cartesian_product", "smote_variants/base/_base.py:shuffle_training_set", "smote_variants/base/_base.py:cov", "smote_variants/base/_oversampling.py:OverSampling.sample_by_jittering", "smote_variants/base/_oversampling.py:OverSampling.sample_by_jittering_componentwise"]}
{"id": "C129", "title": "Exactly which rows can be generated", "statement": "With random selection and random points (the defaults) and without gaussian component, SMOTE can return a list of new rows, for some outcome of the random numbers, exactly if it has the requested length and each row is a point of a simplex spanned by a minority row and n_dim - 1 of its listed neighbours. In particular no minority row, no neighbour and no point of a segment between them is left out, and the rows are chosen independently of each other. The same holds for MCT, Edge_Det_SMOTE and ADASYN with the restriction that the first row has a positive weight, i.e. a positive share (MCT), stands between rows of different classes in some attribute (Edge_Det_SMOTE) or has a majority row among its neighbours (ADASYN). Borderline_SMOTE1 reaches exactly the simplices of a row in danger and of rows that are not noise, but never uses the nearest neighbour. Random_SMOTE reaches exactly the rows that lie, in every coordinate, between a minority row and a point between two of its neighbours.", "quantifier": "all datasets, parameters, neighbour tables and lists of rows; the random numbers are quantified existentially", "why_tests_cant": "a test sees some draws; that every point is possible and no other is a statement about all of them", "anchors": ["smote_variants/oversampling/_smote.py:SMOTE.sampling_algorithm", "smote_variants/oversampling/_mct.py:MCT.sampling_algorithm", "smote_variants/oversampling/_edge_det_smote.py:Edge_Det_SMOTE.sampling_algorithm", "smote_variants/oversampling/_adasyn.py:ADASYN.sampling_algorithm", "smote_variants/oversampling/_borderline_smote.py:Borderline_SMOTE1.sampling_algorithm", "smote_variants/oversampling/_random_smote.py:Random_SMOTE.sampling_algorithm", "smote_variants/base/_simplexsampling.py:SimplexSamplingMixin.sample_simplex"]}
{"id": "C130", "title": "The arrays of the caller", "statement": "sample changes none of the arrays of the caller, also if it raises, and returns two new arrays: changing the result in place never changes the data, and changing the data in place never changes an earlier result. So in a session of any calls of SMOTE, NoSMOTE, SPY, Stefanowski and VIS_RST on the same data (the last three relabel rows in place, in a copy), with in-place changes of earlier results between the calls, every call returns what it would have returned as the first one. SMOTE_AMSR does so only if there is something to sample: otherwise it returns the caller's own arrays. The base class, the shuffling helper without a random state and the loaders of sample data also hand out shared arrays: what a loader returns depends on what was done with the arrays it returned before.", "quantifier": "all states of the memory, all data sets, parameters and draws, and all sequences of calls and in-place changes of other arrays", "why_tests_cant": "A test compares values, and shared arrays show only in what happens after a later in-place change; which sequences of calls and changes reveal it is unbounded, and the exceptional paths are rarely taken in tests.", "anchors": ["smote_variants/base/_oversampling.py: OverSampling.sample, return_copies, sampling_algorithm", "smote_variants/oversampling/_smote.py: SMOTE.sampling_algorithm", "smote_variants/oversampling/_spy.py: SPY.sampling_algorithm", "smote_variants/oversampling/_stefanowski.py: Stefanowski.sampling_algorithm, weak_amp_relabel", "smote_variants/oversampling/_vis_rst.py: VIS_RST.sampling_algorithm, relabel_boundary", "smote_variants/oversampling/_smote_amsr.py: SMOTE_AMSR.sampling_algorithm", "smote_variants/oversampling/_nosmote.py: NoSMOTE.sampling_algorithm", "smote_variants/base/_base.py: shuffle_training_set", "smote_variants/datasets/_datasets.py: load_1_dim"]}
{"id": "C131", "title": "The settings of the package", "statement": "After any history of calls of the three settings functions, each setting has the last value given for it (or its documented initial value if none was given), a call which gives a value returns it, and asking changes nothing. The settings never change results: distances under every memory limit which is positive and allows the differences of one row are those computed in one piece, and the copies returned when nothing is sampled are the same, with a warning exactly if the internal warnings were switched on last. Limits below one row are accepted and make every later distance computation fail: with a division by zero for 0, with endless recursion for the others.", "quantifier": "all sequences of calls of the settings functions, all data, dimensions, metric tensors and limits", "why_tests_cant": "Settings are global and change at any moment of a session; a test sets them once, and only the limits smaller than a row of its own data could show the failure.", "anchors": ["smote_variants/config.py: suppress_external_warnings, suppress_internal_warnings, distance_matrix_max_memory_chunk", "smote_variants/base/_metrictensor.py: pairwise_distances_mahalanobis", "smote_variants/base/_oversampling.py: OverSampling.return_copies"]}
{"id": "C132", "title": "New rows with the rounding of floating-point numbers", "statement": "With arithmetic which rounds every operation: a row computed as a + (b - a) * u with rounding to nearest (as for 53 binary digits) is between a and b in every coordinate exactly, for every random number u the generator can return, and equal coordinates stay equal; so the rows of Random_SMOTE and MSMOTE keep their place between their parents without any tolerance. SMOTE with default sampling within the simplices has, if rounding does not change the number of requested rows (see C133), the same outcome as with exact arithmetic (the same exception or equally many rows with the same labels), each coordinate within a relative error of about 2 (m + 1) roundings of the largest minority value, so new rows leave the bounds of the minority class by at most that, and the sign of a coordinate with one sign in the class is kept exactly. With deterministic sampling on the edges, and at most 2^52 - 1 requested rows for 53 digits, the new rows are again exactly between a minority row and one of its neighbours. But a constant column is not kept by SMOTE with its default sampling: the weights do not add up to one after rounding. Random_SMOTE and MSMOTE, too, have the same outcome as with exact arithmetic if rounding does not change the number of requested rows: the same exception, or as many new rows, each within a relative error of about 10 and 5 units in the last place.", "quantifier": "all data of machine numbers, all draws, all neighbour answers, all precisions, all orders of summation", "why_tests_cant": "Whether the last digit is off depends on the data and the draws; tests compare with tolerances or with small integers, for which no rounding occurs.", "anchors": ["smote_variants/base/_simplexsampling.py: random_samples_from_simplices", "smote_variants/oversampling/_smote.py: SMOTE.sampling_algorithm", "smote_variants/oversampling/_random_smote.py: Random_SMOTE.sampling_algorithm", "smote_variants/oversampling/_msmote.py: MSMOTE.sampling_algorithm", "smote_variants/base/_oversampling.py: RandomSamplingMixin.sample_between_points_componentwise", "smote_variants/base/_simplexsampling.py: add_samples, deterministic_samples_dim_2"]}
{"id": "C133", "title": "The number of new rows with the rounding of floating-point numbers", "statement": "With rounding to nearest, the number of rows asked for by a proportion, int((n_maj - n_min) * proportion), is the one of exact arithmetic or one more, never less; with proportion at most one it is never more than the class gap, and with proportion one it is the class gap. So SMOTE never makes the minority class larger than the majority class, and with proportion one both have the same size, also with rounding. A share given as a rounded quotient g / gap gives g or g - 1 rows. So MulticlassOversampling with the successive strategy brings every class to the size of the largest one or to one row less, and one row less does happen: with 53 digits and SMOTE, classes of 29, 20 and 14 rows end with 29, 29 and 28 rows.", "quantifier": "all proportions, all class sizes up to the range of exact integers of the machine, all precisions, all inner oversamplers meeting the binary contract", "why_tests_cant": "Whether a product falls below or above an integer depends on the last digit of the proportion; tests use proportion one and a few class sizes.", "anchors": ["smote_variants/base/_oversampling.py: OverSampling.det_n_to_sample", "smote_variants/multiclassoversampling/_multiclassoversampling.py: MulticlassOversampling.sample", "smote_variants/oversampling/_smote.py: SMOTE.sampling_algorithm"]}
{"id": "C134", "title": "The weighted selection of simplices with the rounding of floating-point numbers", "statement": "With rounding to nearest in the weights, in their normalisation and in the draw (cumulative sums, division by the last one, search), the random selection of simplices and the selection by volume still work for non-negative weights: numpy's check that the probabilities sum up to one never fails because of rounding (for 53 digits and up to a million simplices and its tolerance of about 1.5e-8); every draw below one gives a valid position, never one of probability zero; the draws which give a position are an interval whose bounds are the cumulative sums of the probabilities up to a proved error. So what is selected with rounding is what exact arithmetic selects for some other draws, and an exception occurs in one case if and only if it occurs in the other; SMOTE with rounding in all steps therefore keeps the original rows, makes two classes equal with proportion one, and keeps the sign of a feature.", "quantifier": "all weights, draws, tables of neighbours, simplex dimensions, data sets; every rounding to nearest with a relative error; every order of the additions in the sum of the weights", "why_tests_cant": "A draw just below one, or a list of weights whose rounded sum is far from one, practically never occurs in a test run.", "anchors": ["smote_variants/base/_simplexsampling.py: SimplexSamplingMixin.simplices", "smote_variants/base/_simplexsampling.py: SimplexSamplingMixin.determine_weights", "smote_variants/oversampling/_smote.py: SMOTE.sampling_algorithm"]}
{"id": "C135", "title": "The deterministic selection of simplices with the rounding of floating-point numbers", "statement": "With rounding in the weights, their normalisation, the products with the number of picks, and the evenly spaced removal positions, the deterministic selection of simplices never fails for non-negative weights which are not all zero: its assertion holds, no position is out of range or removed twice, and exactly the requested number of picks is returned, none of weight zero, each position as often as its rounded share rounded up, or one time less (for 53 digits: up to a million simplices and sixty million picks). So SMOTE with the deterministic selection and rounding in all steps returns what the random selection returns for some draws; it keeps the original rows, makes two classes equal with proportion one, and keeps the sign of a feature. But rounding can change who is picked: twelve picks by the weights 1, 4 and 7 are 0, 4 and 8 picks with 53 digits, where exact arithmetic gives 1, 4 and 7.", "quantifier": "all weights, numbers of picks and tables of neighbours within the stated bounds; every rounding with a relative error which keeps small integers; every order of the additions", "why_tests_cant": "Whether the removal positions collide or the counts fall short depends on the last digit of quotients for each pair of sizes; there are too many pairs to try.", "anchors": ["smote_variants/base/_simplexsampling.py: deterministic_sample", "smote_variants/base/_simplexsampling.py: SimplexSamplingMixin.simplices", "smote_variants/oversampling/_smote.py: SMOTE.sampling_algorithm"]}
{"id": "C136", "title": "Safe_Level_SMOTE keeps its promises with floating point numbers, except that its copies are not exact", "statement": "Let every operation of Safe_Level_SMOTE be rounded as the machine rounds it. The call raises the same exceptions as with exact arithmetic and adds the requested number of rows. The factor of the interpolation never leaves the range from zero to one, although it is made of five rounded operations. A row whose base is at least as safe as its neighbour lies exactly between them in each coordinate, and a neighbour of level zero leaves the base exactly as it is. All other rows lie between base and neighbour up to about five units of rounding, relative to the size of the data. Every row is within about thirteen units of the exact row. The copy of the neighbour which the method makes for a base of level zero is not exact: with the numbers of Python it can lie above every row of the data.", "quantifier": "every rounding to nearest with the stated relative error (all binary formats included), every data set of machine numbers, neighbour table, proportion and random numbers below one", "why_tests_cant": "The factor stays in its range only because the rounding errors of three operations cancel in every case; a test looks at a few levels and draws, and an error of one unit in the last place is invisible to comparisons with a tolerance.", "anchors": ["smote_variants/oversampling/_safe_level_smote.py: Safe_Level_SMOTE.generate_samples", "smote_variants/oversampling/_safe_level_smote.py: Safe_Level_SMOTE.sampling_algorithm"]}
{"id": "C137", "title": "polynom_fit_SMOTE with the rounding of floating-point numbers", "statement": "Let the topologies star and bus of polynom_fit_SMOTE compute with rounded numbers. The number of new rows is that of exact arithmetic for the requested number, although it rounds a rounded quotient to an integer, as long as twice the requested number is below the inverse of the rounding error. With the topology bus every new row lies exactly between two neighbouring minority rows in each coordinate. With the topology star every new row lies exactly between a minority row and the rounded mean, which is within about m units of rounding of the mean of the m minority rows, relative to the size of the data. But the rounded mean need not lie in the range of the minority rows: with the numbers of Python, three minority rows with the value 0.1 get new rows with a larger value, so a constant column is not kept.", "quantifier": "all data sets of machine numbers, proportions and class sizes within the stated bound; every rounding to nearest with a relative error which keeps halves of small integers; every order of the additions in the mean", "why_tests_cant": "Whether a quotient close to a half is rounded to the wrong side depends on the pair of class sizes, and there are too many pairs to try; a value outside by one unit in the last place passes comparisons with a tolerance.", "anchors": ["smote_variants/oversampling/_polynom_fit_smote.py: polynom_fit_SMOTE.sampling_algorithm", "smote_variants/oversampling/_polynom_fit_smote.py: polynom_fit_SMOTE_star", "smote_variants/oversampling/_polynom_fit_smote.py: polynom_fit_SMOTE_bus"]}
{"id": "C138", "title": "The generation loop of SMOTE_D ends with floating-point counts", "statement": "SMOTE_D counts a floating-point number down by one until it is no longer positive, and places a row at the inverse of the count plus one. Let all these operations be rounded. For every count up to 2^53 (with the numbers of Python) the subtraction is exact as long as it matters, so the loop ends after the same number of steps as with exact numbers, draws as often, and emits the same number of rows: the count rounded down or up. Each row lies exactly between its base and the neighbour in each coordinate unless the count is positive and below 2^-52, and within about seven units of rounding of the exact row. Both bounds are needed: with a count of 2^60 the loop never ends, and with a count of 2^-60 a row can lie above both of its rows.", "quantifier": "all minority rows of machine numbers, neighbour tables, matrices of counts within the stated bounds and random numbers; every rounding to nearest with the stated properties (all binary formats included)", "why_tests_cant": "Whether the loop ends for every count is a statement about all floating-point numbers; a test that does not end gives no verdict, and errors in the last place pass comparisons with a tolerance.", "anchors": ["smote_variants/oversampling/_smote_d.py: SMOTE_D.generate_samples"]}
{"id": "C139", "title": "Scaling and scaling back rounds the training rows", "statement": "VIS_RST and NRAS scale the whole data set, sample, and return the scaled data set transformed back. Let every operation of the scaling be rounded. If the input itself is not returned, then VIS_RST returns first the training rows, in order, and NRAS first the majority rows and then the minority rows which are not noise, in order, followed by the new rows; each number differs from the original one by at most about eight units of rounding times the largest magnitude of the column (six for NRAS), whatever the steps between do. The rows are not returned exactly: with the numbers of Python and the true mean and standard deviation of the columns, a value 15 comes back from VIS_RST as a smaller number, and from NRAS the largest value 6 of a column from 1 to 6 comes back as a larger number, outside the range of the data.", "quantifier": "all two-class data sets, non-zero scales, neighbours, generated rows and labels; every rounding with a relative error bound (all binary formats included)", "why_tests_cant": "The difference is in the last place and depends on the scale of each column; tests compare shapes, and comparisons with a tolerance hide it. That the error stays bounded is a statement about all data sets.", "anchors": ["smote_variants/oversampling/_vis_rst.py: VIS_RST.sampling_algorithm", "smote_variants/oversampling/_nras.py: NRAS.sampling_algorithm"]}
{"id": "C140", "title": "A frame can be plotted once, and rows are flagged as new by their position", "statement": "With the labels 0 and 1 and coordinates covering all columns, plot_sampling of a frame of vector_labeling shows on the left every point of the original data once with its class and number of occurrences, and on the right every point of the new data once with its class, number of occurrences and the right flag, and faintly the points which the new data do not contain; plot_comparison of two different frames shows each in this way. But the functions replace the labels in the frame they are given by names: when the same frame is plotted again, or compared with itself, no point is shown as majority, and with two classes all points have the same name 'dummy'. plot_oversampled flags as new exactly the rows after as many rows as the original data have; after an oversampler which removes rows, such as NRAS, a generated row is flagged as original.", "quantifier": "all original and new data with two classes 0 and 1 (plots), all frames and numbers of classes (plotting again), all data (plot_oversampled)", "why_tests_cant": "Tests of plots check that a figure is returned; which points it shows ranges over all data, and the loss of the classes needs two calls on one frame.", "anchors": ["smote_variants/visualization/_visualization.py: plot_sampling", "smote_variants/visualization/_visualization.py: plot_comparison", "smote_variants/visualization/_visualization.py: plot_oversampled", "smote_variants/visualization/_visualization.py: relabel_y"]}
{"id": "C141", "title": "ADG chooses the number of clusters by the worst score, not the best", "statement": "The score ADG computes for a clustering of rows is the criterion of Schwarz: the log-likelihood of the rows in the mixture of round Gaussians around the cluster centres with the pooled variance, minus half the number of parameters times the logarithm of the number of rows. It is larger for the better clustering. But ADG takes, among the numbers of clusters below 10 and below the number of rows, the one with the lowest finite score. So of two clusterings it never takes the better one, a clustering without variance (a perfect one) is never taken, a division into k clusters which shrinks the variance by a factor of 16^(k-1) or more, that is, into well separated clusters, is never taken, and if all clusterings are perfect there is none (ADG then raises AttributeError).", "quantifier": "all rows, all clusterings of them, all numbers of clusters", "why_tests_cant": "A wrong choice of the number of clusters changes only which points are accepted: the output has the same shape. That the choice is the worst one is a statement about all data.", "anchors": ["smote_variants/oversampling/_adg.py: bic_score", "smote_variants/oversampling/_adg.py: xmeans"]}
{"id": "C142", "title": "Neurons of DSRBF forget mutations when cloned, and with a seed all mutate alike", "statement": "Whatever is done to a neuron of the networks DSRBF evolves (clones, mutations, added and deleted connections, moved centres), the shapes fit when it is evaluated: as many weights as connections, connections to existing columns only, a centre with all columns, no negative radius; and when a connection is to be added there is always a free column. But a clone keeps only the centre and the radius: connections and input weights go back to the initial ones and the output weight is drawn anew, so clones do not depend on structural mutations or mutations of the output weight, and the connections of a neuron are never further from the initial ones than one deletion and one addition. With an integer as random_state every neuron starts the same generator again: all new neurons have the same radius and output weight, and all mutations of all neurons in all iterations change the same attribute.", "quantifier": "all histories of operations on a neuron, all random draws, all seeds", "why_tests_cant": "The networks only decide which sampling is returned, so a test of the output cannot see that the search forgets its steps; the statement ranges over all histories of operations.", "anchors": ["smote_variants/oversampling/_dsrbf.py: RBFNeuron", "smote_variants/oversampling/_dsrbf.py: RBF.create_new_node"]}
{"id": "C143", "title": "G_SMOTE's non-linear method fails for minority rows far apart and grows its kernel with the distance", "statement": "With method='non-linear_s' G_SMOTE raises an error whenever two minority rows are at least 37.7 (the root of 1420) times s apart, for instance 3.77 for the documented 'non-linear_0.1'. If all minority rows are within 37.6 (the root of 1418) times s and not all zero, exactly the requested number of minority rows is appended, each a convex combination of a minority row and those n_dim - 1 of its neighbours for which the vector of squared distances from the difference (neighbour minus base) to all minority rows has the largest cosine, without sign, with H; H is the row at the position of the largest eigenvalue in the eigenvectors of the kernel matrix. Apart from the kernel matrix the result does not depend on s. The kernel matrix has the entry one for equal rows, no smaller entry anywhere, and entries that do not decrease when the rows are further apart, the reverse of a Gaussian kernel.", "quantifier": "every two-class data set with at least three minority rows and two columns, all s > 0, neighbourhoods, eigenvector answers, random draws and simplex sampling parameters", "why_tests_cant": "The failure depends on the scale of the data: a test on one data set with one s does not meet it; the selection of the neighbours is not visible in the shape of the output.", "anchors": ["smote_variants/oversampling/_g_smote.py:G_SMOTE.determine_H", "smote_variants/oversampling/_g_smote.py:G_SMOTE.angles_non_linear", "smote_variants/oversampling/_g_smote.py:G_SMOTE.sampling_algorithm"]}
{"id": "C144", "title": "SMOTE_PSOBAT scores a combination by an unshuffled cross validation in which new rows are tested", "statement": "SMOTE_PSOBAT scores every combination of parameters by a five-fold cross validation on the oversampled data: for at least five rows every row gets exactly one prediction, made by a tree fitted to the other four of five consecutive blocks. The accuracy is the share of right predictions; kappa is the share above chance relative to what is possible above chance, undefined exactly if chance alone is always right; kappa is never above the accuracy, and it is one exactly if no prediction is wrong. The folds are not shuffled and the new rows come last: once there are at least a quarter as many new rows as given ones the last test fold consists of new rows only; with proportion 1 this holds whenever the classes are at least as five to three.", "quantifier": "all oversampled two-class data sets with at least five rows, all trees that predict labels they were fitted to", "why_tests_cant": "The scores only decide which combination is used, so the output does not show how they are computed; the statement ranges over all data sets, predictions and class ratios.", "anchors": ["smote_variants/oversampling/_smote_psobat.py:SMOTE_PSOBAT.pred_test_vectors", "smote_variants/oversampling/_smote_psobat.py:SMOTE_PSOBAT.calculate_scores", "smote_variants/oversampling/_smote_psobat.py:SMOTE_PSOBAT.evaluate"]}
{"id": "C145", "title": "The sensitivity SSO computes depends on the unit of measurement", "statement": "The measure by which SSO decides where to put new rows should not depend on the unit in which the attributes are measured. The responses of its hidden units and the second of the two averages do not: with rows, centres, widths and box size converted to another unit they are the same. The first average does: for one attribute and a network whose only unit with a weight is centred at the row, every change of the unit changes it, and with it the sensitivity of the row, unless the response is zero. The second average is the mean square, over the box around the row, of a network whose hidden units are bell curves with the widths as standard deviations.", "quantifier": "all networks with positive widths, all rows, all box sizes and all conversion factors; for the failure all strictly increasing error functions and all conversion factors other than one", "why_tests_cant": "The sensitivity is only used for drawing rows, so a wrong formula shows in no single output; the statement compares two runs for all conversion factors.", "anchors": ["smote_variants/oversampling/_sso.py:SSO.eq_6_vectorized", "smote_variants/oversampling/_sso.py:SSO.eq_8_av_bv", "smote_variants/oversampling/_sso.py:SSO.eq_8_vectorized", "smote_variants/oversampling/_sso.py:SSO.determine_Q_and_weights"]}
{"id": "C146", "title": "With two minority rows PDFOS always takes the largest bandwidth", "statement": "PDFOS should choose the bandwidth of its kernels by the data. With two minority rows it does not: its criterion falls strictly as the bandwidth grows, whatever the distance of the rows and the number of columns, so the search always returns the largest bandwidth it tries.", "quantifier": "all pairs of rows (all nonnegative quadratic forms of their difference), all numbers of columns, all ascending lists of positive bandwidths", "why_tests_cant": "The bandwidth is not visible in the output, which is random; that the data play no role is a statement about all data sets.", "anchors": ["smote_variants/oversampling/_pdfos.py:PDFOSKDE.eq_8_vectorized", "smote_variants/oversampling/_pdfos.py:PDFOSKDE.M", "smote_variants/oversampling/_pdfos.py:PDFOSKDE.find_best_sigma"]}

# Design of the formal model of smote_variants

The model is written in Lean 4.33 (with single Mathlib modules) under `lean/Verif/`:

* `Verif/Py.lean` – Python exceptions as values, small numpy list helpers;
* `Verif/Model/*.lean` – the models, one file per source module, each definition citing `/repo` file and lines;
* `Verif/Spec/*.lean` – small specifications that do not mention model helpers;
* `Verif/Lemmas/*.lean` – helper lemmas;
* `Verif/Props/*.lean` – the property theorems, with a non-vacuity `example` beside each.

## General modelling decisions

* **Numbers.** Feature values, weights and probabilities are exact rationals `ℚ`.
  Every finite float64 is a rational, so inputs are covered exactly; rounding in the
  arithmetic between inputs and outputs is *not* modelled (see trusted base), except in
  C132 to C139.
* **Arrays.** A 2-d numpy array is a `List` of rows (`List ℚ`), a label vector a `List ℤ`.
* **Random generator.** All draws are universally quantified parameters: uniform draws are rationals
  in `[0,1)`, integer draws are in the documented range, permutations are arbitrary permutations.
  Nothing about their distribution is assumed.
* **Nearest neighbours, clustering, PCA, classifiers.** External (sklearn) calls are parameters.
  What is assumed about an answer (shape, index range, sometimes that it is a nearest point) is an
  explicit hypothesis of the theorem.
* **Exceptions** are values of `Except PyErr`. Error branches are modelled.
* **Concurrency.** The process pool is a labelled transition system; theorems quantify over all runs.
* **Files and crashes.** A file is a list of characters/bytes; a crash during a write leaves an
  arbitrary prefix.

## Plan per property

| id | model | proof |
|----|-------|-------|
| C01 | `sample`, SMOTE and simplex sampler pipeline | list equalities, case analysis over all modes |
| C02 | `det_n_to_sample`, SMOTE | truncation arithmetic, length lemmas for every sampler branch |
| C03 | `random_samples_from_simplices`, `add_samples` | convex combination with explicit weights |
| C04 | `sample` with its ordered check dictionary | induction over the checks |
| C05 | `class_label_statistics` over sorted unique counts | counting lemmas |
| C06 | `deterministic_sample` | ceil/floor inequalities, injectivity of spaced floors, induction |
| C07 | `base_idx_neighbor_idx_simplices` etc. | sublists-of-length enumeration |
| C08 | `vector_choice`, `choice` | cumulative sum induction |
| C09 | `fix_density` over ℚ ∪ {inf, nan} | algebra |
| C10 | `deterministic_samples_dim_2`, `add_samples`, dim 1 | list induction |
| C11 | association-list dictionaries | induction on nesting |
| C12 | product enumeration | induction |
| C13 | confusion atoms, scores | counting + ordered field algebra |
| C14 | `prediction_labels` | induction |
| C15–C17 | noise filters, kNN answer as parameter | sublist lemmas, loop measure |
| C18 | undersampling | choice without replacement as arbitrary Nodup list |
| C19 | multiclass wrapper around an abstract binary oversampler | invariant over the class loop |
| C20 | labelled transition system of the pool | inductive invariant over all runs + termination measure |
| C21, C22 | JSON printer/parser, files, crash prefixes | prefix lemma for bracketed grammars, round trip |
| C23 | folding with a heap cell for the shared dict | invariants |
| C24–C27 | evaluation jobs and caches | case analysis, history induction, negation witness |
| C28 | query + complete runtime table extracted from source | sorting lemma + `decide` on the complete table |
| C29 | row-chunked distance recursion | well-founded recursion |
| C30 | checks | iff statements; induction over the digits for numbers in texts (Props/C30b) |
| C31 | three oversamplers | interval arithmetic |
| C32 | Lee loop | measure on (missing, level, tries) |
| C33 | Bellman–Ford | classical invariants |
| C34, C35 | level loop; merge loops | partition invariants |
| C36, C37 | SMOTE_D loop, CCR | floor bounds, AM–HM |
| C38 | SPY, Stefanowski, SMOTE_ENN, SMOTE_TomekLinks, Gazzah | sublist and label lemmas |
| C39, C40 | parameter maps; AMSCO.evaluate | negation witnesses and partial positive theorems |
| C41 | constructor checks over the extracted parameter table | `decide` on the complete table + case analysis |
| C42 | undersampling driven by an oversampler | sorting lemma, negation witness |
| C43 | parameter combinations of every class | induction over the product, table |
| C44 | `ClosestNeighborsInClasses` | witness + partial positive theorem |
| C45 | polynom_fit_SMOTE, four topologies | explicit weights, counting |
| C46 | `add_gaussian_noise` in the SMOTE pipeline | index lemmas |
| C47, C48 | ADASYN, Borderline_SMOTE1/2: selection by weights through the whole sampler | positive-weight lemmas for the choice, weighted simplices |
| C49 | `calculate_prob_scores` | list sums, permutation, negation witness |
| C50 | SDSMOTE against SMOTE | equality of the uniform weights and the missing ones through the sampler |
| C51 | AND_SMOTE | regions as finite sets, argmin, weighted simplices |
| C52 | ISMOTE | sorted permutation of the majority, capped weights |
| C53 | ANS | loop invariant for the threshold, counting of the rows within the radius |
| C54 | distance_SMOTE | table with two coordinate lists, hull of hulls |
| C55 | Gaussian_SMOTE | affine image of a hull, scaled noise |
| C56 | NT_SMOTE, RWO_sampling | full rows of the table as simplices, column noise |
| C57 | kmeans_SMOTE, cluster_SMOTE | one call per distinct cluster with its count, sums of counts, masks commute with indexing |
| C58 | MWMOTE | chained filters as sets of listed positions, weights positive, circulant tables |
| C59 | CE_SMOTE, NRAS | the relabelling loop is the identity, mode of a column, unscaling of simplices |
| C60 | CURE_SMOTE | linkage invariant of the matrix, run relation for the loop, means commute with scaling |
| C61 | MCT, Edge_Det_SMOTE, ADASYN | cumulative sums of the weights of the simplices regrouped by base row, sorted positions as ranks |
| C62 | SN_SMOTE, SMMO | invariant of the neighbourhood loop (the state never changes), segment lemma for one base and one vertex |
| C63 | Supervised_SMOTE, NRSBoundary_SMOTE | measure on (relaxations left, trials left) for the first loop, shrinking radii for the second |
| C64 | TRIM_SMOTE | invariant of the scan over the sorted attribute, correspondence of sorted positions and thresholds, size of the largest leaf as measure |
| C65 | VIS_RST | every step computed under the contracts, transport from scaled to original coordinates |
| C66 | OUPS | the index table is computed, the stand-ins of negative positions are appended to the vertices, then `sampleSimplex_simplexOf_vw` |
| C67 | SOMO | the grid and the pairs computed from the winner cells, both draws and all calls of the sampler shown to succeed |
| C68 | G_SMOTE | sorted table from the contract of `argsort`; the simplex has as many vertices as the table has columns, so it is the whole row; `arccos` decreasing turns angles into cosines |
| C69 | LLE_SMOTE | Gram systems: a solution of `C w = 1` has a positive sum and, normalised, is the constrained least squares minimum (expand the square); with more rows than columns the Gram matrix is singular by a dimension count (Mathlib's rank theorem); simplex lemmas for the embedding |
| C70 | SMOTE_OUT, SMOTE_Cosine | one common row lemma; the argsort of a permutation is its inverse, so the rank sum is zero for the row itself and positive elsewhere |
| C71 | Selected_SMOTE, ROSE | rounding to the even number computed around one half; the thresholds are the smallest and the largest share |
| C72 | LVQ_SMOTE | invariant of the fold over the pairs: the value held is attained and is at most that of every pair seen |
| C73 | SL_graph_SMOTE | the sum of the labels is an affine function of the count, and the third moment scales with the cube of the factor |
| C74 | SMOBD | the mean of a list with an infinite entry is infinite and nothing exceeds it; weights are non-negative so that the choice accepts them |
| C75 | ADOMS | sign of the step and of the scalar product agree; the squared length of the step is the square of its factor |
| C76 | ASMOBD | induction over the rounds of the loop; a ball contains its centre, so the majority share is below one and the weight is not negative |
| C77 | LN_SMOTE | the level minus one plus the next neighbour is the count over the list without p; only pairs with positive levels are drawn, so no branch divides by zero |
| C78 | MSYN | the first row of the sorted list with the right label is a closest one; the margin differences are the positive parts; the first n of a sorted list are minimal |
| C79 | AHC | invariant of the memo table (every filled entry is the mean of its cluster and the children of a filled entry are filled); every node is reachable from the last merge; induction on the chain for the recursion limit |
| C80 | SUNDO | the entry at a position of a sorted list has at most that many smaller ones; each removed row owns two entries below the threshold, each other row one; witness for the reversal |
| C81 | NDO_sampling | the quotient of means decides the branch; loop invariant on length (at most one more than requested) and origin of rows; witness for the extra row |
| C82 | MOT2LD | clustering totality, the weights survive both normalisations, membership of clusters; samples by cluster (C58 machinery); witness for the deleted majority row |
| C83 | DSMOTE | the partial sums belong to the rows (invariant of the loop), every candidate has a positive score because no coordinate exceeds those of the first rows, scaling is inverted exactly |
| C84 | ISOMAP_Hybrid | composition of the totality of SMOTE (C01), SmoteStep (C38) and the cleaning rule (C16); counting over kept positions |
| C85 | SVM_balance, NoSMOTE | induction over the candidate values for the best score; totality of SMOTE (C01) |
| C86 | SMOTE_RSB | invariant of the loop over the levels: the positions collected are those dissimilar at a level already seen, ordered by level; totality of SMOTE (C01) |
| C87 | SMOTE_IPF | the measure rows·(k + 1) + (k - condition) decreases in every round, by induction on it; for p = 0 induction on the number of rounds |
| C88 | MDO | the weighted choice by `choiceIdx_spec`; a sum of squares bounded coordinate by coordinate |
| C89 | KernelADASYN | loop invariant: the samples at iteration `it` are the chain's states at the multiples of `periods` after `burn_in`; induction on the number of columns |
| C90 | SYMPROD | the closeness sums are independent of the neighbour order (permutation); first tenth with two rows by the fuel-bounded loop; positions in the flattened table below its first row's length; scaling is inverted exactly |
| C91 | SSO | induction over the rounds: the rows of the round `t` are the `t`-th block of the new rows, its minority rows the original ones followed by the blocks before; `choiceIdx_spec` for the shares |
| C92 | PDFOS | the loop over the distinct bases equals pairing the sorted bases with the drawn vectors (a permutation by counting); running minimum for sigma; exchange of sums for the orthonormal basis |
| C93 | NEATER | the mixed utility cancels in the normalisation; induction over the rounds with the invariant that beliefs are in [0, 1]; totality of SMOTE (C01) and ADASYN (C47) |
| C94 | SMOTE_FRST_2T | the cache belongs to the present rows (loop invariant), so a round of the code is a step of an inductive relation in the original coordinates; conservation by induction over that relation |
| C95 | SMOTEWB | boosting rounds as an inductive relation, weights positive with sum 1 (or all 0) as invariant; the first majority position in a nearest-first answer bounds the distances; counting the dropped positions gives the block sizes |
| C96 | GASMOTE | the search as an inductive history of evaluated configurations and populations; elitism by induction over it; folds as a splitting of the data |
| C97 | V_SYNTH | rounds of the reduction as an inductive relation; half-spaces (nearer to p than to q) are convex |
| C98 | DE_oversampling | rounds of the generation one by one; the removed positions characterised; a first nearest row is never removed |
| C99 | E_SMOTE | the search as an inductive history; the head of a stable sort is the first best entry, and first best entries compose over appended lists |
| C100 | SMOTE_AMSR | one lemma on the pull for the three topologies; spans as largest minus smallest entry |
| C101 | SMOTE_PSO | the states of the search as a sequence; invariant: the bests kept are the first bests of what was visited; fuel bounded by the majority |
| C102 | SMOTE_PSOBAT | invariants of both searches (ranges, kept entries sorted); the best of the swarm as a relation over the iterations; witnesses for the wrong choices; fold over the calls; the move of a particle as a weighted mean (Props/C102b) |
| C103 | IPADE_ID | results that are fine or a ValueError composed along the code; invariant of the prototypes; a measure (scores above the current one, attempts left) for the while loop |
| C104 | CBSO | the merge loop of C35 (groups are the connected components), sampling per drawn cluster, weights of base rows |
| C105 | Assembled_SMOTE | the merge loop of C35 (a partition), sampling per drawn group, sizes sum to the number of minority rows |
| C106 | A_SUWO | noise positions, the merge loop of C35, sampling per drawn cluster with base weights |
| C107 | SOI_CJ | references to mutable sets, an invariant of the rounds, a round without intersection changes nothing; that the loop ends is proved for data where no clusters are merged (each intersection removes an element), in general it is open (the results hold for any number of rounds) |
| C108 | DEAGO | the SMOTE step is C01; the prediction of the network is modelled, its training is a parameter |
| C109 | ADG | the loop refines a relation describing the batches; invariants of the matrices; witnesses for the deviations |
| C110 | DSRBF | invariant of the population (sizes, data of some run, loss known or that of some network on these data), the head of the sorted population only improves; NaN losses leave the order |
| C111 | create_summary | groups as the filter by key, argsort as a permutation applied to every column; uniqueness of strictly sorted permutations for the independence of the order |
| C112 | vector_labeling, unique_data, relabel_y | np.unique with counts over the rounded rows; the projection to a permutation of the columns is injective, so the outer merge joins at most one row with one row |
| C113 | `sampling_algorithm` of 62 oversamplers, MulticlassOversampling | every path through the algorithm ends in copies of the input, an exception or the input with rows stacked below it; no contract on the parameters is used |
| C114 | computations with draws over a world of generators, SMOTE with its draws in the order of the code, refinement of `smoteSample` | induction on the computation: a run is a function of the states of the generators it uses and leaves the others alone; induction on the history |
| C115 | metric tensors as Mathlib matrices over an ordered field, the dispatch of `MetricTensor.tensor`, the regression, the forest and the searcher | spectral form of the quadratic form with orthonormal eigenvectors; inverse of a positive definite matrix; the linear model is the quadratic form of the symmetrised coefficients; the contracts are met over the reals by the spectral theorem |
| C116 | `simplexVolume`, `simplexVolumeEntry` over the reals, `sampleSimplex` with the volumes as a parameter which is zero where the volume is zero | Gram determinant; positive semidefinite; kernel of the edges = affine dependence; a permutation of the vertices multiplies the edges with an integer matrix whose inverse is one, so its determinant is 1 or -1; rank argument for too many vertices; the chosen positions have a positive share |
| C117 | `NamesDontMatter` (any injective renaming), `OnlyOrderMatters` (strictly increasing renaming) for the `*Alg` models | two runs side by side: the statistics are the renamed ones, selecting, counting, deleting and assigning commute with an injective map, `np.unique` and the mode with a strictly increasing one; three counterexamples |
| C118 | `affineRow`, `CommutesWith`, `SameTable`, `SameQuery`, `VolScaled` for the `*Alg` models | the chosen simplices depend on the rows only through the volumes, whose common factor cancels in the normalisation; weights sum to one, so affine maps commute with the combinations; for the Euclidean search the sum of squares is multiplied by a constant; boxes and one draw per feature commute with diagonal matrices only (`DiagonalOn`); four counterexamples |
| C119 | `newRows`, `IgnoresMajority` for the `*Alg` models | two runs side by side: equal class sizes give equal statistics and counts, the rows are used only through the minority selection; a counterexample for Gaussian_SMOTE |
| C120 | `KeepsBalanced`, `Idempotent` for the `*Alg` models | equal counts make `det_n_to_sample` zero, and each model ends there; SMOTE with proportion 1 gives equal counts (C02), so the second run meets balanced data; counterexamples for the six violators, for other proportions and for the two cleaners |
| C121 | `Reordered`, `SameNeighbors`, `IgnoresOrder`, `SameRows` for `tomekRemove`, `ennRemove`, `ncrRemove`, `spyAlg`, `polynomAlg`, `smoteSample` | the removed positions of C15/C16 are carried along the permutation; for SMOTE the list of simplices is a permutation, so a draw for the same simplex exists; counterexamples without ties for the others |
| C122 | `Genuine`, `Settled`, `History` for `Bench.plain`, `Bench.cachedSeq`, `Bench.cachedPar`, `Bench.evaluate`, `doCleanUp`, `parseResults` | an invariant of the store (every good file holds the outcome of the combination its name stands for) is kept by every step of a history; induction over the jobs shows that the files read are the ones written; joblib keeps the order of its results, json gives back what was stored, and the pool is the one of C20 |
| C123 | Spec/Relations, Lemmas/Relations, Props/C123, C123b | a bound of a linear form on some points also holds for their convex combinations (induction on the weights); equations are pairs of inequalities; the theorems about where new rows lie give membership in the hull of the minority rows; concrete data for the negative results |
| C124 | Model/Reuse, Spec/Reuse, Props/C124 | objects with attributes and fields; one step of the object is the function of the other properties; invariants of the fields by induction on the history; concrete histories for the negative results |
| C125 | `Clf.RowByRow`, `Osr.RowByRow`, `Scaler.RowByRow`, `AgreeAt` for `Genuine` results, `SampJob.compute`, `foldItem` | a genuine result is the outcome of a sampling and an evaluation job; case by case (sampling succeeds or fails, fitting succeeds or fails) the second column of the probabilities is a map over the test rows with a function chosen before the fold; `takeRows` depends on the positions taken only |
| C126 | `cleanTimes` of `tomekRemove`, `ennRemove`, `ncrRemove`, `cnnRemove`, `randomUndersample` | every round gives a sublist of the rows, so it is the same list or a shorter one: strong induction on the number of rows; for condensing, the loop run on the rows it has added adds them again in the same order |
| C127 | `SharedStep` (file-system calls of `dump_dict` and `load_dict`) | inductive invariants: every inode holds characters of the text or zeros at their places, the last process that has emptied the file has filled its beginning; the json parser never passes over a zero character, so such a text is complete, a proper prefix (C21) or refused; executions as lists of calls for the negative results |
| C128 | `arrayArrayIndex`, `cartesianProduct`, `shuffleTrainingSet`, `jitter`, `jitterComponentwise`, `covHelper` (base) | position `i + r * w` of the flattened array is item `i` of row `r`, by induction on the rows; mixed-radix induction on the arguments; the quadratic form of the covariances is a sum of squares |
| C129 | `smoteAlg`, `mctAlg`, `edgeDetAlg`, `adasynAlg`, `borderline1Alg`, `randomSmoteAlg`, `sampleSimplex` | from a point of a simplex the draws are computed backwards: the cumulated weights give the number that selects the simplex, halved weights give the numbers within it; the other direction is C03 and C61 |
| C130 | Model/Heap, Spec/Memory, Props/C130 | arrays at addresses, a state monad in which exceptions do not undo writes; one rule per operation (read, new array, write, exception handler) gives that the first arrays are kept and that the contents are those of the model with values; induction on the session |
| C131 | Model/Config, Props/C131 | the flags as a state, a history as a fold; a value is kept by all calls which give none for the same setting, by induction; distances by C29 |
| C132 | Model/Rounded, Spec/Rounding, Lemmas/Rounding, Lemmas/BinaryRounding, Lemmas/RoundedSmote, Props/C132, Props/C132b, Props/C132c | rounding as a function with a contract (to nearest, relative error), which binary rounding meets for every precision; rounding to nearest is monotone and idempotent; the error of a sum, in any order, by induction on the tree of additions; a relation between the outcomes of the rounded and the exact run; for points on edges a bound on the rounded split points |
| C133 | Model/Rounded, Spec/Rounding, Props/C133 | monotone rounding keeps a number on its side of an exact integer; for a quotient the relative error of two roundings is too small to lose a second row; induction on the classes with the invariant that fewer rows are missing than classes were handled; witnesses by evaluation in the kernel |
| C134 | Model/RoundedChoice, Spec/Rounding, Props/C134 | partial sums rounded to nearest are monotone and do not move at a zero, the last quotient is exactly one; relative errors of the sums bound the intervals; weights with and without rounding are zero at the same places, so every selected position has positive probability and is reached by some draw of exact arithmetic |
| C135 | Model/RoundedChoice, Spec/Rounding, Props/C135 | the rounded products sum up to the number of picks up to less than one, so the ceilings are not too few and exceed it by at most the number of non-zero counts; rounded points of a step above one by at least 1/r keep a distance of one, a step of one is exact; then the counting argument of C06; every pick has positive weight and is reached by some draw of the random selection; witness by evaluation in the kernel |
| C136 | Model/RoundedSafe, Spec/RoundedSafe, Props/C136 | Monotony of rounding bounds the parts of the factor; the sum is at most `1 + ε (1 - r)`, closer to one than to the next number of the machine. The row is then a rounded point between two points (C132). |
| C137 | Model/RoundedPolynom, Props/C137 | a quotient which is no half of an integer is further from all halves than its rounding error, and halves are exact; rounded splits are at most the largest number below one, so C132 places the rows; the rounded mean is the exact mean of slightly changed numbers; witness by evaluation in the kernel |
| C138 | Model/RoundedSmoteD, Props/C138 | one is a multiple of the unit of every binary number from one to 2^p, so the difference has at most p digits; induction over the steps of both loops; the inverse of a rounded weight above one is at most the largest number below one, so C132 places the rows; witnesses by evaluation in the kernel |
| C139 | Model/RoundedScale, Spec/RoundedScale, Props/C139 | the relative errors of the four operations of one number are added up; rows and data sets entry by entry; witnesses with true means, deviations and minima, evaluated in the kernel |
| C140 | Model/Plots, Props/C140 | the column of names is a function of the last entry of the keys of C112, so the panels are filters of the frame; frames in memory, so that plotting twice and comparing a frame with itself relabel names; witness for NRAS by evaluation in the kernel |
| C141 | Model/Xmeans, Spec/Xmeans, Props/C141 | over the reals: the sum over clusters is regrouped to a sum over rows, where it is the logarithm of the density; the loop keeps the lowest score (induction); for separated clusters the entropy bound `Σ n log n ≥ N log (N / k)` from `log x ≤ x - 1` |
| C142 | Model/RbfNeuron, Props/C142 | induction over the history of a neuron: the parameters never change; the clone is a function of the parameters, centre and radius only; generators as answers by number of call, a seed restarts it |
| C143 | Model/GSmoteNl, Props/C143 | the general theorem C68_gsmote with the angles of the non-linear method; the factor -1/2s² cancels in the cosine by homogeneity of the norm; overflow of `exp` as a contract (infinite from 710 on, finite up to 709) |
| C144 | Model/PsoBatEval, Props/C144 | the cross validation of C96; induction over the rows for the four counts; kappa by algebra from the bounds of the chance; the last block is a suffix not longer than the new rows |
| C145 | Model/SsoNet, Props/C145 | real numbers with `erf` as a parameter; every summand of the second average is multiplied by the same power of the factor; strict monotonicity of `erf` for the failure of the first one; the fundamental theorem of calculus for every attribute and induction over the attributes for the mean (Props/C145b) |
| C146 | Model/PdfosCriterion, Props/C146 | real numbers; the criterion as a sum of a falling part and one whose square is monotone by its derivative and a quadratic bound of `exp`; induction over the bandwidths |

## Trusted base

* Lean 4.33's kernel, and the three standard axioms `propext`, `Classical.choice`, `Quot.sound`. No theorem depends on
  any other axiom; `AXIOMS.md` (made by `tools/axioms.py` from `#print axioms`) lists the axioms of every theorem named in
  `MANIFEST.json`. No `sorry`, no `native_decide`, no `bv_decide`, no `implemented_by`, no `unsafe`.
* The transcription of the Python code into the definitions of `Verif/Model`. Each definition cites the lines it models;
  simplifications are written in its comment. The transcription was made by reading, the code was never run.
* `Verif/Model/Registry.lean` (classes, categories, constructor signatures, parameter grids, runtimes) was extracted from
  the source text by `tools/registry.py`, with Python's `ast` module.
* Exact rational arithmetic in place of IEEE floats. A statement such as "lies between" may fail by rounding in the code.
  C132 models the rounding of new rows for SMOTE, Random_SMOTE and MSMOTE (without overflow and underflow, and with exact draws and an
  exact choice of the rows): there "lies between" holds exactly for the last two and up to a proved bound for SMOTE.
  C133 models the rounding of the number of requested rows; everywhere else this number is the one of exact arithmetic.
  C134 models the rounding of the selection of simplices. The validation inside `RandomState.choice` is numpy's: its compensated sum is a parameter
  with a relative error, its tolerance a parameter; the volumes (`np.linalg.det`) are given numbers which are not negative.
  C135 does the same for the deterministic selection, C136 for Safe_Level_SMOTE, C137 for two topologies of polynom_fit_SMOTE and C138 for the loop of SMOTE_D.
  The exceptions are NaN and infinity where the code handles them on purpose (`XF`, `Option ℚ`), and the 64 bit
  wrap-around in the Matthews coefficient.

### Contracts assumed of external calls

Each contract is a hypothesis of the theorems that need it, or a parameter about which nothing at all is assumed.

| call | what is assumed |
|------|-----------------|
| `random_sample`, `uniform(0,1)` | values in `[0, 1)` (`Draws.OK`) |
| `normal` | nothing |
| `choice(n, size)`, `randint` | indices in range; without replacement: no duplicates, right length |
| `choice(p=...)` | the inverse cumulative sum method, modelled |
| `shuffle`, `permutation` | a permutation of its argument |
| `kneighbors` | one list per query, in range, right length, the query first where the code relies on it (`KnnOK`, `KnnQueryOK`); nearest only where the theorem says so |
| `radius_neighbors` | one answer per query (`RadiusOK`); which rows only where the theorem says so (`RadiusExact`, `NearestOK`, `NearestDistOK` in `Spec/Search.lean`) |
| metric learning (NCA, ITML, ...) | nothing; the resulting neighbour answer is the parameter |
| `pairwise_distances` | symmetric, non-negative where stated |
| `argsort` | a permutation that sorts |
| `np.sqrt`, `np.exp`, `np.std`, `**`, `np.polyfit` | nothing unless stated (positivity of `exp`) |
| `DBSCAN`, `AgglomerativeClustering` | one label per row |
| `AgglomerativeClustering.children_` (AHC) | n - 1 merges of two different earlier nodes, every node but the last merged |
| `StandardScaler` | non-zero scales |
| `MinMaxScaler` (DSMOTE) | modelled exactly |
| `gmean`, `np.sqrt` (DSMOTE) | between the least and the largest of three positive numbers; non-negative, positive for positive numbers |
| `TSNE`, `find_peaks_cwt`, `list(set)` (MOT2LD) | one row per row; positions in range; a permutation |
| `OPTICS` (SMOBD, ASMOBD) | a core distance and a reachability for every row, each finite and non-negative or infinite, at least one reachability infinite; or a `ValueError` |
| `KMeans` (LVQ_SMOTE, AHC) | as many centres as asked for, of the dimension of the rows |
| `MiniSom.winner` (SOMO) | a cell of the grid for every row |
| `np.linalg.eigh`, `np.linalg.inv` (metric tensors) | orthonormal eigenvectors, symmetric matrices are put together again; the inverse where there is one |
| `LinearRegression`, `mutual_info_regression` (metric tensors) | least squares; not negative |
| `ITML`, `LSML`, `NCA`, the random forest (metric tensors) | none: any matrix, any leaves |
| `np.linalg.det` of a Gram matrix, the volumes | not negative, zero exactly for affinely dependent vertices (`VolumeOK`; exact numbers) |
| `np.linalg.eig` (G_SMOTE) | as many values and vectors as rows of the matrix |
| `np.linalg.norm`, `np.arccos` (G_SMOTE) | non-negative with the Cauchy-Schwarz inequality; decreasing on `[0, 1]` |
| `np.linalg.solve` (LLE_SMOTE) | an answer solves the equations; `LinAlgError` for a singular matrix where stated |
| `LocallyLinearEmbedding` | one row with the requested number of components for every row |
| `PCA` (angles in Assembled_SMOTE, far rows in Gazzah) | nothing |
| `Isomap` (ISOMAP_Hybrid) | one row per row, of one length |
| `SVC`, `cross_val_score` (SVM_balance) | nothing |
| `StratifiedKFold` with a classifier (SMOTE_IPF) | one prediction with labels in use per fold; may raise, and does on no rows |
| `PCA` (MDO) | as many components as asked for, of the dimension of the rows |
| `np.sqrt` (MDO) | its square is at most the number, up to a relative error |
| `np.linalg.cond`, `cholesky` (KernelADASYN) | the decomposition succeeds for well-conditioned matrices and for `[[v]]` with `v > 0` |
| `PCA` (KernelADASYN) | as many rows as given, as many columns as asked for; any inverse map |
| `np.exp` (KernelADASYN) | positive |
| decision tree (SMOTE_PSOBAT) | predicts labels it was fitted to |
| `scipy.special.erf` (SSO) | derivative `2 / √π * exp(-z²)` (C145_mean), strictly increasing (C145_units, follows); any function in C145_free |
| G_SMOTE, non-linear method | `np.exp`: not decreasing, 1 for 0, finite up to 709, `inf` from 710 on; `np.linalg.eig` raises for infinite entries and its matrix has no zero row; the norm is homogeneous, zero for zero vectors only, with Cauchy-Schwarz |
| `StandardScaler`, `kneighbors`, `dirichlet` (SYMPROD) | positive scales; all rows, if as many are asked for, in some order; positive gamma values divided by their sum |
| the radial basis network (SSO) | one value per minority row, possibly NaN or infinite; may raise |
| `np.linalg.eig`, `inv`, `multivariate_normal` (PDFOS) | vectors of the dimension of the rows; `LinAlgError` for a scalar matrix; drawn rows of the dimension of the mean, `ValueError` in dimension zero |
| SMOTEWB | decision tree: labels the rows it was fitted to, at least one of them correctly; `exp(0.5 log x)` positive for positive `x`; neighbour searcher: valid and nearest first; `choice` without replacement: distinct positions |
| decision tree in GASMOTE | one label per row; may not fail when fitted to at least one row |
| `rand ** e` (GASMOTE) | in `[0, 1]` for `C96_numbers`, below 1 for `C96_nothing` (a float power may round to 1); nothing otherwise |
| principal component analysis in V_SYNTH | one row per row, of as many entries as components, one ratio per component; nothing on the inverse |
| Voronoi tessellation in V_SYNTH | may raise; a finite vertex of a face is as near to both points of the face as to any point; faces have vertices; -1 only if there are finite vertices; not that all faces are listed |
| `KMeans` (DE_oversampling) | one label per row, below the number of clusters, as many centres as clusters |
| classifier in E_SMOTE | one label per row |
| draws of the loops adding features (E_SMOTE) | in range; every feature is drawn within some number of draws |
| scores of the isolation forest (SMOTE_AMSR) | a function of the row, nothing else |
| support vector machine, norm (SMOTE_PSO) | a support vector of every class; the norm is not negative and scales; neighbour queries name the nearest row first |
| scores, draws and sorting (SMOTE_PSOBAT) | scores are arbitrary (kappa may be NaN); draws stay in their ranges; sorting is a permutation with a largest kappa first |
| tree, classifier and scores (IPADE_ID) | a leaf for every row; the area under the curve is a fraction k / (2 p q) for p and q rows of the classes, or NaN, or ValueError is raised; the accuracy is a number or ValueError |
| `AgglomerativeClustering` (A_SUWO) | each number below n_clusters is the label of some row; ValueError for fewer than two rows |
| `LinearDiscriminantAnalysis` with `KFold` (A_SUWO) | any labels, no exception |
| iteration order of a `set`, `radius_neighbors`, `np.std` (SOI_CJ) | a permutation of the set; any rows; as many numbers as columns |
| training of the autoencoder in DEAGO | any weights of the right shapes |
| `KMeans`, `GaussianMixture`, their scores, `np.linalg.solve`, `PCA` in ADG | scores are numbers (infinite for equal rows), every cluster has a row, as many rows drawn as asked for; a system with NaN has a solution with NaN |
| neurons, `KMeans` and the loss (DSRBF) | any functions (the neurons are modelled for C142); the loss may be NaN (C110_labels: it is, without rows labelled 0 or 1) |
| pandas `groupby` | sorted keys, rows in their order, rows with a missing key dropped; no group at all: any result |
| pandas outer `merge` | keys in ascending order, all pairs of rows with equal keys, rows without a partner with missing values |
| classifiers, fitness in AMSCO | nothing; may raise |
| sklearn splitters | pairs of index lists in range |
| `pickle` | `loads (dumps x) = x`; on a proper prefix it raises, by the documented `EOFError`/`UnpicklingError` |
| `float(repr(x)) == x` | numbers in JSON are kept as text |
| `md5` | a function; distinctness is a hypothesis where needed |
| `glob`, `os.remove`, `open(..., "w")` | as in `Model/Files.lean`, `Model/Folding.lean`; with several processes as on POSIX systems (`Model/Concurrent.lean`): atomic calls, names and inodes apart, gaps filled with zeros |
| `pandas.groupby`, `mean`, `max` | as in `Model/Selection.lean` |
| `multiprocessing.Process`, `Queue`, `threading.Lock` | the transition system of `Model/Pool.lean` |

## What is modelled

| source | model |
|--------|-------|
| `base/_base.py` | statistics, `fix_density`, `mode`, random state, `equal_dicts`, `coalesce`, `check_if_damaged`, `load_dict`, `dump_dict`, parameter checks, parameter combinations |
| `base/_simplexsampling.py` | complete; the sampler takes the simplex volumes as a parameter, their formula is modelled over the reals (Model/Volume) |
| `base/_oversampling.py` | `sample`, `sample_between_points` and relatives, `set_params` |
| `base/_metrics.py` | label scores; of the probabilistic scores brier and `p_top20` (not `auc`, `log_loss`) |
| `base/_metrictensor.py` | distances with memory blocks, neighbour searches, `ClosestNeighborsInClasses`, the learning of a tensor (`MetricTensor` and its helpers) and the choice between tensor and metric; not the trainers of `metric_learn` |
| `noise_removal/*` | complete |
| `undersampling/*` | complete |
| `multiclassoversampling/*` | complete |
| `evaluation/_parallelization.py` | complete, as a transition system |
| `evaluation/_folding.py`, `_sampling.py`, `_evaluation.py`, `_functions.py` | folding, jobs, caches, parsing of results, model selection; not the gathering of command line style arguments |
| `queries/*` | complete |
| `classifiers/*` | the two wrappers; not the error warning classifier |
| `evaluation/_processing.py` | `create_summary`; not the listing of directories |
| `visualization` | the preparation of data (`unique_data`, `vector_labeling`, `relabel_y`), the points handed to the scatter plots (`plot_sampling`, `plot_comparison`, `plot_oversampled`); not the drawing |
| `datasets` | that the loaders return the arrays of the module (`Model/Heap`); the data are not modelled |
| memory | `Model/Heap`: which arrays the calls of five oversamplers, of the base class and of the helpers change and return; the other models pass values |
| `config.py` | the three settings as a state (`Model/Config`), with the limit used in the distances and the warning of `return_copies`; the other places only silence warnings of libraries |
| `base/_scipyport.py` | not modelled |
| `oversampling/*` | see below |

Oversamplers with a model of their algorithm: SMOTE, Random_SMOTE, MSMOTE, Safe_Level_SMOTE, Lee, DBSMOTE, ProWSyn, SMOTE_D,
CCR, polynom_fit_SMOTE (five classes), SPY, Stefanowski, SMOTE_ENN, SMOTE_TomekLinks, Gazzah, AMSCO, ADASYN, Borderline_SMOTE1, Borderline_SMOTE2, SDSMOTE, AND_SMOTE, ISMOTE, ANS, distance_SMOTE, Gaussian_SMOTE, NT_SMOTE, RWO_sampling, kmeans_SMOTE, cluster_SMOTE, MWMOTE, CE_SMOTE, NRAS, CURE_SMOTE, MCT, Edge_Det_SMOTE, SN_SMOTE, SMMO, Supervised_SMOTE, NRSBoundary_SMOTE, TRIM_SMOTE, VIS_RST, OUPS, SOMO, G_SMOTE, LLE_SMOTE, SMOTE_OUT, SMOTE_Cosine, Selected_SMOTE, ROSE, LVQ_SMOTE, SL_graph_SMOTE, SMOBD, ADOMS, ASMOBD, LN_SMOTE, MSYN, AHC, SUNDO, NDO_sampling, MOT2LD, DSMOTE, ISOMAP_Hybrid, SVM_balance, NoSMOTE, SMOTE_RSB, SMOTE_IPF, MDO, KernelADASYN, SYMPROD, SSO, PDFOS, NEATER, SMOTE_FRST_2T, SMOTEWB, GASMOTE, V_SYNTH, DE_oversampling, E_SMOTE, SMOTE_AMSR, SMOTE_PSO, SMOTE_PSOBAT, IPADE_ID, CBSO, Assembled_SMOTE, A_SUWO, SOI_CJ, DEAGO, ADG, DSRBF. These are all
of them. Of every oversampler the constructor signature, parameter grid, categories and `get_params` keys are in the registry.

## Where the code departs from what a user expects

Each of these is a theorem with a concrete witness in the file of the property.

* C05: with three classes the minority statistics ignore the third.
* C08: `vector_choice` falls back to index 0 when the cumulative sum stays below the draw.
* C11: `equal_dicts` raises `KeyError` instead of returning false.
* C13: the Matthews coefficient overflows for large test sets; `uc` divides by the wrong sum.
* C16: `NeighborhoodCleaningRule` raises for fewer than four rows, `EditedNearestNeighbors` does not.
* C17: `OneSidedSelection` recomputes the minority class; CNN drops a third class.
* C19: `equalize_1_vs_many` overshoots; a tie of the largest classes raises.
* C20: when `process.start()` raises (no more processes, or a job that cannot be pickled where processes are spawned), the lock of the pool is
  never released and `execute` hangs, whatever the time limit is
* C20: a finished result can be replaced by the timeout value; a large result blocks the child; `n_jobs <= 0` returns only
  `None`.
* C21: a torn pickle makes the damage check raise; an object that cannot be serialised destroys the old file.
* C22: dumping as JSON changes the caller's dictionary; two lone surrogates are merged by the round trip.
* C23: all folds share one descriptor; an incomplete cache is taken as complete; the counts are indexed by label.
* C24: the test set is unscaled on success, scaled on failure; the timeout record orders the parameters differently.
* C25: the scaler is not part of the cache key; a timeout stays in the cache.
* C26: a classifier that has seen one class ends the whole evaluation with `IndexError`.
* C27: folds that timed out form separate candidates.
* C28: a negative `n_quickest` other than -1 drops classes from the end.
* C29: one row above the memory limit recurses forever; a limit of zero divides by zero; a tensor near the identity is
  replaced; `radius_neighbors` needs an explicit radius.
* C30: the range checks accept NaN.
* C31: Safe_Level_SMOTE can copy a majority row; `sample_between_points_componentwise` uses a single draw.
* C32: Lee's rejection level is raised without limit.
* C37: CCR can exceed its energy, the L1 distance can exceed the radius, more than `n` samples can appear, the translated
  majority is never returned.
* C38: Stefanowski's `strong_amp` takes one collective decision and raises when every minority row is safe; SMOTE_TomekLinks
  can return no minority row; Gazzah drops all original minority rows.
* C39: six constructor parameters are missing in `get_params`; copying an MLP resets `max_iter`;
  `set_params(random_state=5)` leaves an unusable generator; `OversamplingClassifier.predict` ignores projections.
* C40: AMSCO keeps a combination other than the best; raises without a positive score; labels points between majority rows
  as minority.
* C41: misspelt parameters are accepted by many classes; ADASYN and MSYN do not check the proportion.
* C42: mode `farthest` keeps the closest rows.
* C43: `SMOTE_AMSR.get_params` lacks `class_name`, which breaks the listing of all combinations.
* C44: `ClosestNeighborsInClasses` returns labels that do not belong to the rows.
* C45: `star` and `bus` do not return the requested number of samples.
* C48: Borderline-SMOTE drops a column of the neighbour table twice, so the closest remaining neighbour is never used, and
  `k_neighbors=1` can only copy minority rows.
* C49: `p_top20` takes the first fifth of the test set as it stands; the probabilities play no role.
* C50: the density of SDSMOTE is the number of answers to one query, always one; the class does what SMOTE does.
* C52: ISMOTE drops a column of the neighbour table twice (with `n_neighbors=1` it copies rows), and accepts a minority weight
  above one, which makes it extrapolate.
* C53: the threshold `C` of ANS is a number of rows compared with border counts; on separated classes, or with fewer than eight
  rows, ANS returns its input.
* C55: Gaussian_SMOTE moves features that are constant in the whole data set (`StandardScaler` uses the scale one for them);
  RWO_sampling (C56) does not.
* C56: NT_SMOTE and RWO_sampling ask for `n_dim` neighbours without limiting the number to the minority rows, so a user
  `n_dim` above the minority count raises `ValueError` where SMOTE reduces it.
* C57: cluster_SMOTE counts the row itself among the `n_neighbors`, so `n_neighbors = 1` (accepted) only duplicates rows;
  kmeans_SMOTE asks for one neighbour more.
* C58: the constructor of MWMOTE accepts `cf_th = 0` and `cmax = 0`, which make every weight 0/0 and raise ValueError in the draw of
  the clusters (`C58_zero_parameter`); the border is computed from `k2 + 1` nearest majority rows, the row not being one of them.
* C59: `CE_SMOTE.cluster_matching` uses the leftover loop variable `kdx` and discards the assignment: it never changes a label
  (`C59_ce_matching`), so the boundary depends on the names of the clusters (`C59_ce_names`); with `h = 1` and `alpha < 1` nothing is
  ever generated (`C59_ce_single`). `NRAS.generate_samples` sets vertex weights of noise rows to zero in a copy, so new rows lie
  between kept rows and removed ones or majority rows (`C59_nras_noise_vertex`).
* C60: with `n_clusters = 1` every round of CURE_SMOTE drops a cluster and joins two, and the last cluster is joined with itself and
  deleted: for an even number of minority rows nothing is ever generated (`C60_even`).
* C61: MCT ("Minority Cloning Technique") has simplices of dimension one as default, so it ignores the neighbours it computes
  (`C61_mct_clones`).
* C62: SN_SMOTE assigns through `ncn[mask][improved, ...] = ...`, that is into a copy, so the nearest centroid neighbourhood never
  grows beyond the nearest neighbour (`C62_sn`, `C62_sn_same`); with `n_neighbors = 1` the same assignment raises `IndexError`
  (`C62_sn_one`). SMMO compares the votes with the hard-coded labels 0 and 1 (`C62_smmo_other`, `C62_smmo_nothing`).
* C63: NRSBoundary_SMOTE stacks the accepted rows without checking that there are any: with `w = 0`, accepted by the constructor, and
  a duplicated majority row it raises `ValueError` (`C63_nrs_raises`); it may also give fewer rows than requested (`C63_nrs_fewer`).
* C64: TRIM_SMOTE drops parts of a single row, so that minority rows without minority rows around them never become seeds; if all are of
  this kind the input is returned (`C64_isolated`).
* C65: VIS_RST returns training rows with changed labels, and as the number of samples is computed from the labels before the change the
  classes end unbalanced (`C65_label_lost`). The nearest neighbour of a row is never used by the two main modes: the first entry of the
  neighbour list is dropped by the caller and again by the sampler (`VisOrigin`, visible in the `drop 1` of the tables).
* C66: OUPS never uses the row next in the order (the first column of the table is dropped by the sampler, which expects the row
  itself there); the weights set to zero for positions behind the end are indexed by all rows and read by minority rows, so they have
  no effect (`C66_weights`), and negative positions pick minority rows of higher propensity (`C66_wraps`).
* C68: G_SMOTE takes `eigv[np.argmax(eigw)]`, a row of the matrix whose columns are the eigenvectors; the result depends on the signs
  chosen by the solver and can be far from the principal direction (`C68_wrong_direction`).
* C69: with the default parameters of LLE_SMOTE (`n_neighbors=5`, `n_components=2`) the Gram matrix of the 6 neighbours in 2 dimensions
  is always singular, so the equal weights of the fallback are used and every new row is the mean of 6 minority rows (`C69_default`, in
  exact arithmetic; in floating point `solve` may miss the singularity and the norm test has to catch it). With more components the
  weights can be negative and new rows leave the hull of the minority class (`C69_outside`).
* C70: SMOTE_Cosine draws the minority partner from all minority rows; `n_neighbors` only limits the majority neighbours
  (`C70_cosine_all`). SMOTE_OUT and SMOTE_Cosine leave the box of the minority class (`C70_outside`).
* C71: Selected_SMOTE computes `num_sign_attr = np.min([1, tmp])` where a maximum is meant: `perc_sign_attr` has two effects only, and
  zero selects all attributes while every larger value selects those of the largest overlap alone (`C71_share`, `C71_zero`). ROSE takes
  the number of all rows for the width of the kernel, not that of the minority class.
* C72: the pairs of centres compared by LVQ_SMOTE include a centre with itself, so that with three centres the only pair left is of
  this kind. The new rows may leave the range of the minority class (`C72_outside`).
* C73: SL_graph_SMOTE adds the values of the labels of the neighbours where the number of minority neighbours is meant. With the smaller
  label for the minority class the sign of the skewness is inverted and the other oversampler is used (`C73_choice`, `C73_labels`).
* C74: OPTICS reports an infinite reachability for the row it begins with, so the mean reachability used by SMOBD is infinite and no row
  exceeds it: the noise filter never fires and `t` has no effect (`C74_threshold`). A larger core distance, that is a sparser
  neighbourhood, counts as a larger density.
* C76: ASMOBD divides the number of majority neighbours by the number of neighbours and then subtracts this share from the number of
  neighbours to get the number of minority neighbours. The noise rule with the means never applies (as in C74). With sigmoid smoothing
  the balance term is subtracted from the density, which may become negative: `choice` raises `ValueError` (`C76_sigmoid`).
* C77: LN_SMOTE accepts n_neighbors = 1 but then always returns its input.
* C79: AHC ignores how many rows are needed: the minority class always becomes 2m - 1 rows and outgrows a
  majority class smaller than that, so balanced data come out unbalanced. `C79_outgrows`. A chain of merges
  over more rows than the recursion limit raises RecursionError: `C79_recursion`.
* C80: SUNDO sorts the array of close pairs along the wrong axis (`_sundo.py:170`), so it removes both rows of
  each pair, up to 2N majority rows instead of N. With 3 and 7 rows it returns 5 minority and 3 majority rows
  instead of 5 and 5. `C80_both`, `C80_reversed`.
* C81: NDO_sampling may append one row more than requested (a turn of the loop may append two): `C81_one_more`.
  Its SMOTE branch ignores `n_neighbors`: `C81_default_k`.
* C82: MOT2LD deletes the positions of the noisy minority rows, counted among the minority rows, from the whole data
  set, so majority rows vanish and noise stays: `C82_wrong_rows`.
* C83: DSMOTE returns minority rows with the majority label and leaves the classes unbalanced (`C83_relabelled`, `C83_gap`),
  raises when fewer than three minority rows remain (`C83_too_few`), and its maintained `norm` is the sum over all rows with
  the norms of new rows not squared (`diversity`), contrary to the comment in the source.
* C84: ISOMAP_Hybrid tests `np.sum(y_final)` and `y_final == 0` in place of the class labels (`C84_labels`), and the cleaning
  rule recomputes which class is the smaller one after balancing, so minority rows may be removed: `C84_minority_removed`.
* C85: SVM_balance overwrites the labels of original rows with predictions: `C85_changed`.
* C86: SMOTE_RSB may return fewer rows than requested, even the bare input: `C86_none`, `C86_short`. The levels are a parameter,
  because adding up 0.05 as floats may lose the last one.
* C87: SMOTE_IPF hard-codes the labels 0 and 1: majority voting removes every row of a class labelled otherwise (`C87_labels`).
  Consensus voting never removes a row labelled 1 (`C87_consensus`) and nothing at all if the minority class has fewer rows than
  `n_folds` (`C87_few`). With `p = 0` it never returns (`C87_zero`, `C87_hangs`).
* C88: MDO samples are not on the ellipsoid of their base row, as the method has it, but within, or, with three components or more,
  possibly outside it: `C88_ellipsoid`, `C88_outside`. With `K1 = 0` it may raise `ValueError`: `C88_isolated`.
* C89: KernelADASYN, for an ill-conditioned covariance matrix and more than two columns, returns projections of the rows of the input, not
  the rows: `C89_projected`. With one column and equal values the Cholesky decomposition raises: `C89_one_column`. The steps are `z·L`
  and not `L·z`, so their covariance is `LᵀL`, not the covariance matrix.
* C90: SYMPROD takes the neighbours with `np.take` without an axis, so every new row mixes the neighbourhood of the first selected row
  into a reference row that may be far away: `C90_between` (a new row farther than 40 from every minority row, in groups of width 4). With
  fewer than `m_neighbors + 4` minority rows (11 by default) it never adds a row: `C90_few`. The check after the noise removal asks for
  the minority twice, so the whole majority may be dropped: `C90_majority_lost`. Equal closeness factors give NaN: `C90_nan`.
* C91: SSO adds `n_iter` rows even if none is requested, so balanced data become unbalanced: `C91_unrequested`, `C91_balanced`; otherwise
  it rounds the requested number down to a multiple of `n_iter`: `C91_count`. `h = 1`, accepted by the constructor, always raises:
  `C91_one_centre`.
* C92: PDFOS never adds a row to data with one column (`C92_one_column`), raises if no variance of the scaled minority class exceeds 0.02
  (`C92_compact`), and takes its covariance from the rows labelled 1, which may be the majority (`C92_label_one`). The bandwidth criterion
  uses the logistic function `expit` where the formula has `exp`, and the covariance is multiplied by sigma, not by its square (both in
  the code, not in a theorem).
* C93: NEATER writes the positions 0 and 1 of the larger belief as labels: with the minority labelled 0 the classes are exchanged
  (`C93_exchanged`), with other labels new ones appear (`C93_foreign`). With `h = 0` no new row is labelled 1 (`C93_no_rounds`).
* C94: SMOTE_FRST_2T returns majority rows of the input as minority rows and changes the order of the rows (`C94_relabelled`). Thresholds of 0
  are accepted; then 100 rounds give nothing but the input in another order (`C94_zero`).
* C95: if SMOTEWB finds exactly one clean row and it belongs to the minority, the rows to be generated from it are lost: fewer rows than requested
  (`C95_fewer`), or `ValueError` if there is no other (`C95_error`). Majority rows labelled correctly by every tree may all be noise
  (`C95_fewer`): with classes of different size the threshold of the majority is below the mean weight. The SMOTE it falls back on is not
  given `random_state`.
* C96: GASMOTE does not look at the class sizes and has no `proportion`: it may turn the minority into the majority (`C96_overshoot`), and with
  `maxn = 1`, which the constructor accepts, it returns the input (`C96_nothing`). The second child of a crossover always equals a parent, for
  `conf_b` is built from the new `conf_a` (in the history of `C96_gasmote`). `pm` is the probability of *no* mutation: with `pm = 1` nothing is
  mutated. The score belongs to other generated rows than those returned.
* C97: V_SYNTH chooses the faces with the labels before the removal of repeated rows but numbers the points after it: with a repeated minority row the
  new minority rows may be in the cells of majority rows (`C97_shifted`). A vertex at infinity, number -1, takes the last vertex of the
  tessellation (`C97_unbounded`). All rows of the bounding box are the same lower corner, for `randint(0, 1)` is 0 (`C97_box`).
  `n_components=1`, which the constructor accepts, raises `UnboundLocalError` whenever rows are requested (`C97_one_component`).
* C98: DE_oversampling cleanses last, original rows included, by angles seen from the origin: with the default threshold 3 minority and 5 majority
  rows may become 1 and 3 (`C98_imbalanced`).
* C99: E_SMOTE returns rows with the columns of its mask only, and after a call that requests nothing all columns while `preprocessing_transform`
  still uses the mask of an earlier call, or `None` (`C99_stale`). The first mask is drawn from the global generator, not from `random_state`.
* C101: SMOTE_PSO adds whole searches: the minority can end up larger than the majority (3 of 4 become 6 of 4), and
  with eps > 1 starting rows beyond the nearest majority support vector are returned although moved rows are held back to it
* C102: SMOTE_PSOBAT's swarm replaces a good pair of parameters only by a less accurate one (comparison reversed), its bats return
  the wrong bat (position among the masked entries used as a position among all), alpha and gamma have no effect, and
  `k_range` shrinks with the smallest minority class seen and is not restored: the result depends on earlier calls. The counter that
  should end the bat search when nothing changes is multiplied with the wrong flag: ten iterations with an improvement end it, stagnation does not
* C103: IPADE_ID's trial with an added row is overwritten before it is used, so no row is ever added; when a ValueError is caught
  the scaled data is returned in place of a copy of the input (`X` was rebound)
* C104: CBSO raises ValueError if there are no more than n_neighbors rows; a minority row far from all others is only copied
* C106: A_SUWO returns neither the dropped rows nor the requested ratio; it raises ValueError if fewer than two majority rows are left;
  with n_neighbors = 1 it only copies
* C107: SOI_CJ stores the second of two updated clusters at the position within the slice (`clusters[jdx]` instead of `clusters[idx + 1 + jdx]`):
  joined clusters and bystanders get lost. An isolated minority class gives no clusters (`argmax` of an all-false row is 0), so nothing is generated.
  `n_neighbors` is never used; the message says two rows where three are needed
* C108: DEAGO seeds the global generators of `random`, `numpy` and tensorflow and sets environment variables (side effects on the caller, not
  modelled); the new rows are not confined to the hull or box of the minority
* C109: ADG calls `evaluate_matrices` without labels, so it works for labels 0 (majority) and 1 (minority) only: with 0 as the minority it
  models the majority, with other labels it fails or drops a class. It adds up to 2n-1 rows. `update_partial_results` uses the columns
  `l_new:` instead of `-l_new:` and multiplies means by the number of rows instead of columns. Equal rows give an `AttributeError`
  (the score is infinite, no clustering is chosen); after a singular matrix the input rows come back projected
* C110: DSRBF: `epoch_len` is 0 for `n_iter < n_sampling_epoch`, then `%` raises a ZeroDivisionError; `hidden_range=(1, …)` is accepted but
  `randint(1, 1)` raises; recombined networks may be smaller than the range allows; for labels other than 0 and 1 the loss is NaN and the whole
  search has no effect. Clones forget mutations: C142. Not proved, but visible in the code: the loss is not computed again after
  `improve_centers`
* C111: `create_summary` groups by the column `deterministic`, which is `None` for oversamplers without `ss_params`; pandas drops groups
  with missing keys, so that these oversamplers are missing in the summary. The columns it adds to the data frame stay in the data of the caller.
  `repeat_idx` is extracted but not used for the order
* C112: `vector_labeling` takes the distinct rows of all columns, but joins them on the plotted coordinates; with more columns than plotted
  coordinates rows are joined many-to-many, and unchanged data are flagged as changed. `resampled_flag` is false for points that are repeated in
  the resampled data. `relabel_y` calls both classes `dummy` if the two labels are not 0 and 1; `plot_sampling` overwrites the labels in the
  frame of the caller, and hence shows `dummy` when it is called twice
* C113: `multiclass_filter` accepts A_SUWO, MOT2LD and NRAS, which remove rows, as well as ADG and KernelADASYN, which may return projected rows;
  `MulticlassOversampling` takes the rows from position `len(X)` on for the generated ones, so the first generated rows are lost
* C114: `E_SMOTE` draws its first feature from `np.random`, the SMOTE inside `SMOTEWB` gets no `random_state`, and `DEAGO` calls `np.random.seed` with its
  own seed, which makes every unseeded oversampler repeat itself afterwards and raises `TypeError` for a `RandomState` object
* C115: `_train_metric_learning` knows only ITML, LSML and NCA, so that `ITML_mi` and `gmean` train NCA; the tensor of `ITML_mi` is the product with a
  diagonal matrix, not symmetric, with negative squared distances possible; `cov_min` takes the rows labelled 1; `reverse_matrix` maps the
  eigenvalues 0, 1, 1 to 1, 1, 1; a `metric_tensor` in `nn_params` without `metric='precomputed'` is ignored
* C116: `simplex_sampling='volume'` with `n_dim` above the number of features plus one has only volumes zero; the weights are then 0/0 and the
  selection raises `ValueError` (in floating point numbers the volumes are rounding noise, or NaN for a determinant below zero)
* C117: Borderline_SMOTE1/2 with an even `n_neighbors` decide ties by the smaller label, so exchanging the names of the classes may change two new
  rows into none; NEATER writes the labels 0 and 1 and SMMO compares the mean predicted label with 1/2, so both are wrong for other labels
* C118: SMOTE's result depends on the units of the columns (no scaling happens inside), and the gaussian component is added in the units of the data,
  so a change of units changes the shape of the noise
* C119: Gaussian_SMOTE standardises with a scaler fitted to all rows, so the noise added to the minority rows depends on the majority rows
* C120: SMOTE_TomekLinks, SMOTE_ENN, SPY, Stefanowski, AHC and SSO change data that are already balanced: the first two clean whatever SMOTE
  did, the others never compare the sizes of the classes
* C121: CondensedNearestNeighbors keeps the first majority row, so its result (and those of OneSidedSelection and CNNTomekLinks) depends on
  the order of the rows; so do the bus topology of polynom_fit_SMOTE and the deterministic variants of SMOTE
* C122: without a cache all records show the descriptor of the last fold (they share one dictionary); results in the cache are never cleaned up,
  so a data set with changed data and an old name gets the old results; with several jobs folds of another cross-validation left in
  the directory are evaluated too, and an oversampler raising e.g. `TypeError` is reported as "TimeOutError" (one job: it raises)
* C123: Random_SMOTE draws a share for every feature and the polynomial topology of polynom_fit_SMOTE a position for every feature, so that
  sums of features (dummy variables, totals) of the minority class are not kept; Safe_Level_SMOTE, MSMOTE and Borderline_SMOTE2 change
  features which are constant in the minority class; SMOTE_OUT gives negative values to features without negative values in the data.
* C124: `MOT2LD` lowers `self.n_components` and `SMOTE_PSOBAT` lowers `self.k_range[1]` for good, so an object used on a small data set behaves
  differently from a new one afterwards; an exception between the two assignments to `self.n_dim` leaves SOMO with `n_dim = 2`; a call with one
  class replaces `class_stats` but not the labels; after an early return `E_SMOTE.preprocessing_transform` selects the columns of the previous call.
* C125: one test row for which `preprocessing_transform` raises `ValueError` makes the job train on the unsampled rows, and one test row for
  which the classifier raises gives all test rows of the fold the probability 0
* C126: removing Tomek links makes new ones, and repeated removal can eat up the majority class and then raise `IndexError`; condensing a
  condensed data set can throw away minority rows, as the classes may have changed their roles; ENN and NCR can leave a single class
* C127: `dump_dict` checks for the file, removes it and opens it in separate calls: a second process can get `FileNotFoundError` from `os.remove`, a
  reader can find the complete file missing or empty for a while, and two processes that store different records can leave a mixture
* C128: `array_array_index` computes positions in the flattened array, so an index that is too large (or negative) for its row reads the item of a
  neighbouring row; with a single column of indices the same index raises `IndexError`
* C130: SMOTE_AMSR returns the arrays of the caller themselves when nothing has to be sampled (all others return copies), as do `sampling_algorithm`
  of the base class and `shuffle_training_set` without a random state; the loaders of sample data return the arrays of the module, so that an
  in-place change of loaded data changes what later calls load
* C131: the memory limit for distances is not validated: 0 makes every later computation divide by zero, and a limit below one row of differences
  makes it recurse endlessly
* C132: SMOTE does not keep a constant column of floating-point numbers: rounded weights do not add up to one, so with the value 3 in all minority
  rows a new row may have 3.0000000000000004 (outside the bounds of the class). `a + (b - a) * u`, as in Random_SMOTE, never does that
* C133: `int((n_maj - n_min) * proportion)` truncates a rounded product: proportion 0.7 of a gap of 10 gives 7 rows (one more than the exact share
  of the stored number), and 1/49 of a gap of 49 gives none. By the second effect MulticlassOversampling does not always balance: classes of 29,
  20 and 14 rows end with 29, 29 and 28 rows. The exact balance of C19 is a statement about exact arithmetic only
* C135: `deterministic_sample` rounds `n * p` up, so a product which rounding lifts just above an integer counts as one more, and the surplus is
  taken from another position: with the weights 1, 4 and 7 and 12 picks the first position, whose share is exactly one, is never picked
* C136: Safe_Level_SMOTE replaces a base of safe level zero by its neighbour. With rounding the result is not a copy: it can be
  outside the range of all rows of the data by one unit in the last place.
* C137: the topology star of polynom_fit_SMOTE moves a constant column: the rounded mean of three times 0.1 is above 0.1, and so are
  new rows
* C138: `SMOTE_D.generate_samples` decreases counts in place until they are not positive; above 2^53 the decrease is lost and the loop would never
  end. The counts of the method are at most the number of requested rows, so this needs no care in practice
* C139: VIS_RST and NRAS (and, by the same `inverse_transform` of the whole data, DSRBF, SMOTE_FRST_2T, DSMOTE) return the training rows they keep
  changed in the last place; equality tests against the input and range checks on the output can fail. Other oversamplers stack the input itself
* C140: `plot_sampling` and `plot_comparison` assign to `labeling["y"]` of the caller: a second plot of the same frame has lost the classes.
  `plot_oversampled` finds the new rows by position, which is wrong for every oversampler that removes or reorders rows
* C141: `xmeans` in ADG minimises a score which has to be maximised (`bic_score` is log-likelihood minus penalty, the docstring says "lowest BIC score").
  Well separated clusters are never found
* C142: `RBFNeuron.clone` returns the initial connections, weights and a new output weight (`mask` is stored under the wrong name, `beta` and
  `input_weights` in `params` stay `None`). With an integer seed every neuron restarts the same generator, so only one of the five mutations ever happens
* C143: `determine_H` takes `np.exp` of `+d²/2σ²`; the comment above it says that the negative sign has been added. Entries grow with the distance and
  overflow, and `np.linalg.eig` raises for infinite entries (`C143_far`, `C143_grows`). `angles_non_linear` uses the exponents themselves, without `exp`
* C30: `ADG` and `G_SMOTE` only look at how the text of `kernel` and `method` begins and at what follows its last underscore, so misspellings such as
  `rbfoo_0.5` are accepted (`C30_numeric_text`)
* C144: `KFold(5)` does not shuffle and the new rows are at the end, so combinations which generate many rows are partly judged by folds of new rows
  only (`C144_synthetic`); with proportion 1 this is the case from a class ratio of 5 to 3 on (`C144_ratio`)
* C145: `eq_6_vectorized` of SSO divides a length by the square root of a width (`np.sqrt(2 * v)`, not `np.sqrt(2) * v`) and multiplies by the width once
  instead of once per attribute, so the sensitivity depends on the unit of measurement (`C145_units`); `eq_8_vectorized` is right in this respect (`C145_free`).
  It averages units `exp(-d²/2v²)` (`C145_mean`), while the fitted ones are `exp(-d²/v²)`
* C146: `eq_8_vectorized` of PDFOS uses `scipy.special.expit` (the logistic function) where the paper has the exponential function; for two rows the
  criterion then has no minimum and the largest bandwidth is taken (`C146_two`, `C146_largest`). The covariance is multiplied by the bandwidth, not its square

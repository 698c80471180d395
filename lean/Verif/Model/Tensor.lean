import Verif.Model.Base
import Mathlib.Data.Matrix.Mul

/-!
# Learning a metric: `MetricTensor` and its helpers in `smote_variants/base/_metrictensor.py`

Matrices are Mathlib matrices over an ordered field `K`, which can be the reals: eigenvectors are rarely rational. `eigh`, `inv`, the
trainers of `metric_learn`, the forest and the linear regression are parameters.
-/

namespace Verif

open Matrix

variable {K : Type} {d : Nat}

/-- A symmetric eigenvalue solver: `eigv, eigw = np.linalg.eigh(matrix)`, the eigenvectors are the columns of the second part.
Used for base/_metrictensor.py:126 and base/_metrictensor.py:144. -/
abbrev Eigh (K : Type) (d : Nat) := Matrix (Fin d) (Fin d) K → (Fin d → K) × Matrix (Fin d) (Fin d) K

/-- `np.dot(np.dot(eigw, np.diag(eigv)), eigw.T)`, base/_metrictensor.py:130 and base/_metrictensor.py:146. -/
def fromSpectrum [Field K] (v : Fin d → K) (W : Matrix (Fin d) (Fin d) K) : Matrix (Fin d) (Fin d) K :=
  W * diagonal v * W.transpose

/-- `fix_pd_matrix`, base/_metrictensor.py:115-131. `np.real` has no effect on the answer of `eigh`. -/
def fixPd [Field K] [LinearOrder K] (eigh : Eigh K d) (eps : K) (M : Matrix (Fin d) (Fin d) K) : Matrix (Fin d) (Fin d) K :=
  let e := eigh M
  fromSpectrum (fun k => if e.1 k ≤ eps then eps else e.1 k) e.2

/-- `rankdata(eigv).astype(int)` for the entry `x`: the mean of the places of the equal entries, cut to an integer.
Used for base/_metrictensor.py:145. -/
def intRank [LinearOrder K] (l : List K) (x : K) : Nat := l.countP (fun z => decide (z < x)) + (l.countP (fun z => decide (z = x)) + 1) / 2

/-- base/_metrictensor.py:145: the new order of the eigenvalues. -/
def reverseValues [LinearOrder K] (argsort : List K → List Nat) (l : List K) : Res (List K) :=
  l.mapM (fun x => do
    let p ← getRow (argsort l) (l.length - intRank l x)
    getRow l p)

/-- `reverse_matrix`, base/_metrictensor.py:134-147. -/
def reverseMatrix [Field K] [LinearOrder K] (eigh : Eigh K d) (argsort : List K → List Nat) (M : Matrix (Fin d) (Fin d) K) :
    Res (Matrix (Fin d) (Fin d) K) := do
  let e := eigh M
  let v ← reverseValues argsort (List.ofFn e.1)
  return fromSpectrum (fun k => v.getD k 0) e.2

/-- `create_metric_tensor` before `fix_pd_matrix`, base/_metrictensor.py:150-169. Simplification: the vector `elements` is a table whose
entries `(i, j)` with `i ≤ j` are used. -/
def symmetrised [Field K] (c : Fin d → Fin d → K) : Matrix (Fin d) (Fin d) K :=
  let dist : Matrix (Fin d) (Fin d) K := of (fun i j => if i ≤ j then c i j else 0)
  let both := dist + dist.transpose
  of (fun i j => if i = j then both i j / 2 else both i j)

/-- `create_metric_tensor`, base/_metrictensor.py:150-173. -/
def createTensor [Field K] [LinearOrder K] (eigh : Eigh K d) (c : Fin d → Fin d → K) : Matrix (Fin d) (Fin d) K :=
  fixPd eigh (1 / 10000) (symmetrised c)

/-- One row of `X_target`, base/_metrictensor.py:212-222: the products of the components of a difference vector, doubled off the
diagonal. -/
def pairFeatures [Field K] (v : Fin d → K) (i j : Fin d) : K := if i < j then v i * v j * 2 else v i * v j

/-- What the regression without intercept predicts for a difference vector. Used for base/_metrictensor.py:225. -/
def predictPair [Field K] (c : Fin d → Fin d → K) (v : Fin d → K) : K :=
  ∑ i, ∑ j, if i ≤ j then c i j * pairFeatures v i j else 0

/-- `np.triu_indices(n, k=0)`. Used for base/_metrictensor.py:189-205. -/
def upperPairs (n : Nat) : List (Nat × Nat) :=
  (List.range n).flatMap (fun i => ((List.range n).filter (fun j => decide (i ≤ j))).map (fun j => (i, j)))

/-- The pairs of rows in the regression, base/_metrictensor.py:189-208: all of them, or `n_d * 100` chosen by the permutation of
`RandomState(5)`, in their order. -/
def regressionPairs (perm : Nat → List Nat) (n d : Nat) : List (Nat × Nat) :=
  let pairs := upperPairs n
  let nd := d * (d + 1) / 2
  if nd * 100 < pairs.length then
    (pairs.zipIdx.filter (fun p => !((perm pairs.length).drop (nd * 100)).contains p.2)).map Prod.fst
  else pairs

/-- `construct_tensor`, base/_metrictensor.py:176-230, without the score. `regress` gets the difference vectors and the targets.
Simplification: it may form the features of `pairFeatures` itself. -/
def constructTensor [Field K] [LinearOrder K] (eigh : Eigh K d) (perm : Nat → List Nat)
    (regress : List ((Fin d → K) × K) → Fin d → Fin d → K) (X : List (Fin d → K)) (dissim : Nat → Nat → K) :
    Matrix (Fin d) (Fin d) K :=
  createTensor eigh (regress ((regressionPairs perm X.length d).map (fun p =>
    (fun k => X.getD p.1 0 k - X.getD p.2 0 k, dissim p.1 p.2 ^ 2))))

/-! ## The dissimilarity of a forest -/

/-- The share of the trees for which two rows end in different leaves; the rows are the leaf numbers of `apply`.
Used for base/_metrictensor.py:308-309 and base/_metrictensor.py:328-329. -/
def leafDissim (a b : List Nat) : ℚ := (List.zipWith (fun s t => if s = t then (0 : ℚ) else 1) a b).sum / (a.length : ℚ)

/-- `ClassifierImpliedDissimilarityMatrix.dissimilarity_matrix`, base/_metrictensor.py:313-329: the matrix and the remembered leaves. -/
def dissimilarityMatrix {R : Type} (apply : R → List Nat) (X : List R) : List (List ℚ) × List (List Nat) :=
  let nodes := X.map apply
  (nodes.map (fun a => nodes.map (fun b => leafDissim a b)), nodes)

/-- `ClassifierImpliedDissimilarityMatrix.transform_kneighbors`, base/_metrictensor.py:291-311, for at least one query row (`apply`
refuses an empty array). Without remembered leaves `np.vstack` raises `ValueError`. -/
def transformKneighbors {R : Type} (apply : R → List Nat) (nodes : Option (List (List Nat))) (X : List R) : Res (List (List ℚ)) :=
  match nodes with
  | none => .error .valueError
  | some ns => if X.length = 0 then .error .valueError else .ok (X.map (fun x => ns.map (fun b => leafDissim (apply x) b)))

/-! ## Removing correlated columns -/

/-- `corr > threshold` for one entry; a comparison with NaN is false. Used for base/_metrictensor.py:411. -/
def aboveThreshold (t : ℚ) : Option ℚ → Bool
  | some q => decide (t < q)
  | none => false

/-- `RemoveCorrelatedColumns.fit`, base/_metrictensor.py:399-412, for the absolute correlations `corr` of `n` columns; `none` is the
NaN of a constant column. `np.corrcoef` of one column is a number and has no length (`TypeError`). -/
def correlatedMask (corr : Nat → Nat → Option ℚ) (threshold : ℚ) (n : Nat) : Res (List Bool) :=
  if n = 1 then .error .typeError
  else .ok ((List.range n).map (fun i => !(List.range n).any (fun j =>
    decide (i < j) && aboveThreshold threshold (corr i j))))

/-- `RemoveCorrelatedColumns.transform`, base/_metrictensor.py:414-424, for one row. -/
def dropColumns (mask : List Bool) (r : Row) : Row := maskRows r mask

/-! ## Mutual information -/

/-- `np.mean` of some numbers. Used for base/_metrictensor.py:467-470. -/
def meanOf [Field K] (l : List K) : K := l.sum / (l.length : K)

/-- `estimate_mutual_information`, base/_metrictensor.py:441-472, with its defaults: the mean of the ten runs for every column, divided by the
mean of the columns; `none` stands for the NaN (0/0) when no column carries information. -/
def mutualInformation [Field K] [DecidableEq K] (mi : Nat → Fin d → K) : Option (Fin d → K) :=
  let m : Fin d → K := fun k => meanOf ((List.range 10).map (fun r => mi r k))
  let total := meanOf (List.ofFn m)
  if total = 0 then none else some (fun k => m k / total)

/-! ## The methods -/

/-- The external calls of `MetricTensor.tensor`, base/_metrictensor.py:550-654. `itml`, `lsml`, `nca` are the Mahalanobis matrices of the
trainers of `metric_learn` on rows without repetitions; `cov` is `np.cov` of the transposed rows for at least two columns, `mi` the
answers of `mutual_info_regression`. -/
structure Learners (K : Type) (d : Nat) where
  eigh : Eigh K d
  inv : Matrix (Fin d) (Fin d) K → Matrix (Fin d) (Fin d) K
  uniq : List (Fin d → K) → List Nat
  itml : List (Fin d → K) → List Int → Res (Matrix (Fin d) (Fin d) K)
  lsml : List (Fin d → K) → List Int → Res (Matrix (Fin d) (Fin d) K)
  nca : List (Fin d → K) → List Int → Res (Matrix (Fin d) (Fin d) K)
  cov : List (Fin d → K) → Matrix (Fin d) (Fin d) K
  leaves : List (Fin d → K) → List Int → (Fin d → K) → List Nat
  cast : ℚ → K
  perm : Nat → List Nat
  regress : List ((Fin d → K) × K) → Fin d → Fin d → K
  mi : List (Fin d → K) → List Int → Nat → Fin d → K

/-- `MetricTensor._train_metric_learning`, base/_metrictensor.py:550-576. -/
def trainMetric (L : Learners K d) (method : String) (X : List (Fin d → K)) (y : List Int) : Res (Matrix (Fin d) (Fin d) K) :=
  if method = "ITML" then L.itml X y
  else if method = "LSML" then L.lsml X y
  else L.nca X y

/-- `np.linalg.inv(fix_pd_matrix(np.cov(rows.T)))`, base/_metrictensor.py:611-615. `np.cov` of one column is a number, for which `eigh`
raises (`ValueError`); with fewer than two rows it is NaN. -/
def covTensor [Field K] [LinearOrder K] (L : Learners K d) (rows : List (Fin d → K)) : Res (Matrix (Fin d) (Fin d) K) :=
  if d = 1 then .error .valueError
  else if rows.length ≤ 1 then .error .nan
  else .ok (L.inv (fixPd L.eigh (1 / 10000) (L.cov rows)))

/-- `psd_mean`, base/_metrictensor.py:508-522, of two matrices. -/
def psdMean [Field K] [LinearOrder K] (eigh : Eigh K d) (A B : Matrix (Fin d) (Fin d) K) : Matrix (Fin d) (Fin d) K :=
  fixPd eigh (1 / 10000) (of (fun i j => (A i j + B i j) / 2))

/-- `MetricTensor.tensor` of a new object, base/_metrictensor.py:578-654; an unknown name leaves `self.metric_tensor` at `None`. -/
def learnTensor [Field K] [LinearOrder K] (L : Learners K d) (method : Option String) (X : List (Fin d → K)) (y : List Int) :
    Res (Option (Matrix (Fin d) (Fin d) K)) := do
  let Xm ← takeRows X (L.uniq X)
  let ym ← takeRows y (L.uniq X)
  match method with
  | some "ITML" => do let t ← trainMetric L "ITML" Xm ym; return some t
  | some "rf" =>
    let nodes := (X.map (L.leaves X y))
    return some (constructTensor L.eigh L.perm L.regress X (fun i j => L.cast (leafDissim (nodes.getD i []) (nodes.getD j []))))
  | some "LSML" => do let t ← trainMetric L "LSML" Xm ym; return some t
  | some "cov" => do let t ← covTensor L X; return some t
  | some "cov_min" => do let t ← covTensor L (selectLabel X y 1); return some t
  | some "MI_weighted" =>
    match mutualInformation (L.mi X y) with
    | none => throw .nan
    | some w => return some (diagonal w)
  | some "id" => return some 1
  | some "ITML_mi" => do
    let t ← trainMetric L "ITML_mi" Xm ym
    match mutualInformation (L.mi X y) with
    | none => throw .nan
    | some w => return some (t * diagonal w)
  | some "NCA" => do let t ← L.nca Xm ym; return some t
  | some "gmean" => do
    let a ← trainMetric L "gmean" Xm ym
    let b ← trainMetric L "gmean" Xm ym
    return some (psdMean L.eigh a b)
  | _ => return none

/-! ## The searcher -/

/-- The entries of `nn_params` that matter here. Used for base/_metrictensor.py:662-683. -/
structure NnParams (T : Type) where
  metric : Option String := none
  method : Option String := none
  tensor : Option T := none

/-- `MetricLearningMixin.metric_tensor_from_nn_params`, base/_metrictensor.py:662-683. -/
def tensorFromNnParams {T : Type} (learn : Option String → Res (Option T)) (p : NnParams T) : Res (Option T) :=
  if p.metric = some "precomputed" ∧ p.tensor.isNone then learn p.method
  else match p.tensor with
    | some t => .ok (some t)
    | none => .ok none

/-- `NearestNeighborsWithMetricTensor(metric=..., metric_tensor=...)`, `fit` and `kneighbors`, base/_metrictensor.py:728-799: `sk m` is the answer
of sklearn's searcher with the metric `m`, `ten t` that of `n_neighbors_func` with the tensor `t`. -/
def nnSearch {T A : Type} (sk : String → Res A) (ten : T → Res A) (metric : Option String) (tensor : Option T) : Res A :=
  match metric.getD "minkowski", tensor with
  | "precomputed", some t => ten t
  | m, _ => sk m

/-- The start of every neighbour search of an oversampler, e.g. oversampling/_smote.py:124-131: `nn_params` are copied, the tensor is
determined and handed to the searcher. -/
def searchWithNnParams {T A : Type} (learn : Option String → Res (Option T)) (sk : String → Res A) (ten : T → Res A) (p : NnParams T) :
    Res A := do
  let t ← tensorFromNnParams learn p
  nnSearch sk ten p.metric t

end Verif

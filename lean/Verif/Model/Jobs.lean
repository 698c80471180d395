import Verif.Model.Dict
import Verif.Model.Folding

/-!
# Model of `smote_variants/evaluation/_sampling.py` and `smote_variants/evaluation/_evaluation.py`

Oversamplers, classifiers and scalers are parameters (functions with arbitrary behaviour, exceptions included). The
cache directory is a map from file names to cells: a complete record or a torn file (how records are stored is modelled
in `Verif.Model.Files`). Clock readings and recorded warnings are parameters.
-/

namespace Verif

/-- Values stored in a result record. Used for evaluation/_evaluation.py:23-49 and evaluation/_evaluation.py:149-170. -/
inductive RV
  | rows (x : List Row)
  | labels (y : List Int)
  | vec (v : List ℚ)
  | desc (d : Desc)
  | params (p : Dict String String)
  | num (t : ℚ)
  | text (s : Option String)
  | name (s : String)
  deriving DecidableEq, Repr

/-- A result record: a python dictionary. Used for evaluation/_sampling.py:174-181 and evaluation/_sampling.py:161-190. -/
abbrev Record := Dict String RV

/-- An exception with its message. Used for evaluation/_sampling.py:27-58 and evaluation/_sampling.py:162-163. -/
abbrev Exc := PyErr × String

/-- An instantiated oversampler. Used for evaluation/_sampling.py:27-58 and evaluation/_sampling.py:162-163. -/
structure Osr where
  /-- `get_params()` -/
  getParams : Dict String String
  /-- `sample(X, y)` -/
  sample : List Row → List Int → Except Exc (List Row × List Int)
  /-- `preprocessing_transform(X)` after `sample(Xt, yt)`: it may use what `sample` has learnt -/
  transform : List Row → List Int → List Row → Except Exc (List Row)

/-- A scaler: `fit` on the training data gives the transformation. Used for evaluation/_sampling.py:27-58. -/
abbrev Scaler := List Row → List Int → List Row → List Row

/-- A fold with its descriptor. Used for evaluation/_sampling.py:27-58. -/
structure Fold where
  item : FoldItem
  desc : Desc
  deriving DecidableEq

/-- A `SamplingJob` (evaluation/_sampling.py:27-58), with the environment it runs in: the instantiation of the
oversampler (`instantiate_obj`), the elapsed time and the text of the recorded warnings. -/
structure SampJob where
  fold : Fold
  oversampler : String
  params : Dict String String
  scaler : Option Scaler
  cached : Bool
  reset : Bool
  instantiate : String → Dict String String → Except Exc Osr
  elapsed : ℚ
  warnings : String

/-- evaluation/_sampling.py:142-149: training and test rows after the optional scaling. -/
def SampJob.scaled (j : SampJob) : List Row × List Row :=
  match j.scaler with
  | none => (j.fold.item.xTrain, j.fold.item.xTest)
  | some fit =>
    (fit j.fold.item.xTrain j.fold.item.yTrain j.fold.item.xTrain,
      fit j.fold.item.xTrain j.fold.item.yTrain j.fold.item.xTest)

/-- `{**d, ...}`: the entries of the display override those of `d`. Used for evaluation/_sampling.py:174-181 and evaluation/_sampling.py:161-190. -/
def Dict.merge {κ V : Type} [DecidableEq κ] (d e : Dict κ V) : Dict κ V := e.foldl (fun r kv => r.set kv.1 kv.2) d

/-- evaluation/_sampling.py:162-163: the guarded computation. -/
def SampJob.attempt (j : SampJob) (o : Osr) : Except Exc ((List Row × List Int) × List Row) := do
  let s ← o.sample j.scaled.1 j.fold.item.yTrain
  let t ← o.transform j.scaled.1 j.fold.item.yTrain j.fold.item.xTest
  pure (s, t)

/-- evaluation/_sampling.py:174-181 and 183-190: the record of a failed attempt. -/
def SampJob.failed (j : SampJob) (base : Record) (error : String) : Record :=
  base.merge [("X_train", .rows j.scaled.1), ("y_train", .labels j.fold.item.yTrain), ("X_test", .rows j.scaled.2),
    ("runtime", .num j.elapsed), ("error", .text (some error))]

/-- evaluation/_sampling.py:161-190: the `try` statement. -/
def SampJob.afterTry (j : SampJob) (base : Record) : Except Exc ((List Row × List Int) × List Row) →
    Except Exc Record
  | .ok r => pure (base.merge [("X_train", .rows r.1.1), ("y_train", .labels r.1.2), ("X_test", .rows r.2),
      ("runtime", .num j.elapsed), ("error", .text none), ("warning", .text none)])
  | .error (.valueError, msg) => pure (j.failed base msg)
  | .error (.runtimeError, msg) => pure (j.failed base msg)
  | .error e => throw e

/-- evaluation/_sampling.py:138-197: the record computed by `do_oversampling`. The constructor of the oversampler is not
inside the `try`. -/
def SampJob.compute (j : SampJob) : Except Exc Record := do
  let o ← j.instantiate j.oversampler j.params
  let base : Record := [("fold_descriptor", .desc j.fold.desc), ("y_test", .labels j.fold.item.yTest),
    ("oversampler", .params (coalesceDict (some o.getParams) j.params))]
  let r ← j.afterTry base (j.attempt o)
  pure (r.merge [("warning", .text (some j.warnings))])

/-- evaluation/_sampling.py:232-259: the record computed by `timeout`. -/
def SampJob.computeTimeout (j : SampJob) : Except Exc Record := do
  let o ← j.instantiate j.oversampler j.params
  let base : Record := [("fold_descriptor", .desc j.fold.desc), ("y_test", .labels j.fold.item.yTest),
    ("oversampler", .params o.getParams)]
  pure (base.merge [("X_train", .rows j.scaled.1), ("y_train", .labels j.fold.item.yTrain), ("X_test", .rows j.scaled.2),
    ("runtime", .num (-1)), ("error", .text (some "TimeOutError")), ("warning", .text none)])

/-- A file of the cache. Used for evaluation/_sampling.py:117-209 and evaluation/_evaluation.py:120-182. -/
inductive Cell
  | good (r : Record)
  | torn
  deriving DecidableEq

/-- File names of the cache: kind, repeat, fold and the hash code. Used for evaluation/_sampling.py:92-102 and evaluation/_evaluation.py:83-96. -/
structure FileKey where
  kind : String
  repeatIdx : Nat
  foldIdx : Nat
  hash : Nat
  deriving DecidableEq, Repr

/-- The cache directory. Used for evaluation/_sampling.py:117-209 and evaluation/_evaluation.py:120-182. -/
abbrev Store := FileKey → Option Cell

/-- `check_if_damaged` on the cache (json; see C21 for why torn files are detected).
Used for evaluation/_sampling.py:117-209 and evaluation/_evaluation.py:120-182. -/
def Store.damaged (s : Store) (k : FileKey) : Bool :=
  match s k with
  | some (.good _) => false
  | _ => true

/-- evaluation/_sampling.py:92-102: the name of the result file. `md5` hashes the oversampler's name and parameters. -/
def SampJob.key (md5 : String × Dict String String → Nat) (j : SampJob) : FileKey :=
  ⟨"oversampling", j.fold.desc.repeatIdx, j.fold.desc.foldIdx, md5 (j.oversampler, j.params)⟩

/-- What a job returns: the name of a file or the record itself. Used for evaluation/_sampling.py:117-209 and evaluation/_evaluation.py:120-182. -/
inductive JobResult
  | file (k : FileKey)
  | record (r : Record)
  deriving DecidableEq

/-- evaluation/_sampling.py:117-209, 211-270: `do_oversampling` (with `compute`) and `timeout` (with `computeTimeout`)
share this skeleton: look into the cache, compute, store. -/
def SampJob.run (md5 : String × Dict String String → Nat) (j : SampJob) (compute : Except Exc Record) (s : Store) :
    Except Exc (JobResult × Store) :=
  if j.cached = true ∧ s.damaged (j.key md5) = false ∧ j.reset = false then pure (.file (j.key md5), s)
  else do
    let r ← compute
    if j.cached = true then pure (.file (j.key md5), Function.update s (j.key md5) (some (.good r)))
    else pure (.record r, s)

/-- `SamplingJob.do_oversampling`. Used for evaluation/_sampling.py:117-209. -/
def SampJob.doOversampling (md5 : String × Dict String String → Nat) (j : SampJob) (s : Store) :
    Except Exc (JobResult × Store) := j.run md5 j.compute s

/-- `SamplingJob.timeout`. Used for evaluation/_sampling.py:211-223. -/
def SampJob.timeout (md5 : String × Dict String String → Nat) (j : SampJob) (s : Store) :
    Except Exc (JobResult × Store) := j.run md5 j.computeTimeout s

/-! ## Evaluation -/

/-- A classifier description `(module, class, parameters)`. Used for evaluation/_evaluation.py:23-49 and evaluation/_evaluation.py:149-170. -/
structure ClfDesc where
  module : String
  cls : String
  params : Dict String String
  deriving DecidableEq, Repr

/-- A classifier: `fit(X, y).predict_proba(X_test)`. Used for evaluation/_evaluation.py:23-49 and evaluation/_evaluation.py:137-146. -/
abbrev Clf := List Row → List Int → List Row → Except Exc (List (List ℚ))

/-- The oversampling record as the evaluation reads it. Used for evaluation/_evaluation.py:23-49. -/
structure OsRecord where
  desc : Desc
  params : Dict String String
  className : String
  xTrain : List Row
  yTrain : List Int
  xTest : List Row
  yTest : List Int
  error : Option String
  warning : Option String
  runtime : ℚ
  /-- the file it was loaded from, if any -/
  fileName : Option String

/-- An `EvaluationJob` (evaluation/_evaluation.py:23-49) with its environment. -/
structure EvalJob where
  os : OsRecord
  cached : Bool
  reset : Bool
  instantiate : ClfDesc → Except Exc Clf
  elapsed : ClfDesc → ℚ
  warnings : ClfDesc → String
  /-- `calculate_all_scores` -/
  scores : List Int → List ℚ → Except Exc RV

/-- evaluation/_evaluation.py:137-146: predicted probabilities and the recorded error. -/
def EvalJob.predict (j : EvalJob) (clf : Clf) : Except Exc (List (List ℚ) × Option String) :=
  match clf j.os.xTrain j.os.yTrain j.os.xTest with
  | .ok p => pure (p, none)
  | .error (.valueError, msg) => pure (List.replicate j.os.yTest.length [0, 0], some msg)
  | .error (.runtimeError, msg) => pure (List.replicate j.os.yTest.length [0, 0], some msg)
  | .error e => throw e

/-- evaluation/_evaluation.py:146-152: `row[1]`. -/
def secondProb (row : List ℚ) : Except Exc ℚ :=
  match row[1]? with
  | some v => .ok v
  | none => .error (.indexError, "index 1 is out of bounds for axis 1 with size 1")

/-- `y_pred[:, 1]`: `IndexError` when the classifier has seen a single class only. Used for evaluation/_evaluation.py:129-170. -/
def secondColumn (p : List (List ℚ)) : Except Exc (List ℚ) := p.mapM secondProb

/-- evaluation/_evaluation.py:149-170: the `evaluation` dictionary. -/
def EvalJob.record (j : EvalJob) (c : ClfDesc) (y1 : List ℚ) (sc : RV) (err : Option String) : Record :=
  [("fold_descriptor", .desc j.os.desc), ("oversampler", .name j.os.className),
    ("oversampler_params", .params j.os.params), ("oversampler_module", .name "smote_variants"),
    ("oversampling_error", .text j.os.error), ("oversampling_warning", .text j.os.warning),
    ("oversampling_runtime", .num j.os.runtime), ("oversampling_filname", .text j.os.fileName),
    ("runtime", .num (j.elapsed c)), ("y_pred", .vec y1),
    ("y_test", .labels j.os.yTest), ("scores", sc), ("classifier", .name c.cls),
    ("classifier_params", .params c.params), ("classifier_module", .name c.module), ("error", .text err),
    ("warning", .text (some (j.warnings c)))]

/-- evaluation/_evaluation.py:129-170: the record of one classifier. -/
def EvalJob.compute (j : EvalJob) (c : ClfDesc) : Except Exc Record := do
  let clf ← j.instantiate c
  let pe ← j.predict clf
  let y1 ← secondColumn pe.1
  let sc ← j.scores j.os.yTest y1
  pure (j.record c y1 sc pe.2)

/-- evaluation/_evaluation.py:83-96: the name of the result file. -/
def EvalJob.key (md5 : ClfDesc × Dict String String → Nat) (j : EvalJob) (c : ClfDesc) : FileKey :=
  ⟨"evaluation", j.os.desc.repeatIdx, j.os.desc.foldIdx, md5 (c, j.os.params)⟩

/-- evaluation/_evaluation.py:120-182, one round of the loop. -/
def EvalJob.step (md5 : ClfDesc × Dict String String → Nat) (j : EvalJob) (c : ClfDesc) (s : Store) :
    Except Exc (JobResult × Store) :=
  if j.cached = true ∧ s.damaged (j.key md5 c) = false ∧ j.reset = false then pure (.file (j.key md5 c), s)
  else do
    let r ← j.compute c
    if j.cached = true then pure (.file (j.key md5 c), Function.update s (j.key md5 c) (some (.good r)))
    else pure (.record r, s)

/-- evaluation/_evaluation.py:102-184, `do_evaluation`. -/
def EvalJob.doEvaluation (md5 : ClfDesc × Dict String String → Nat) (j : EvalJob) :
    List ClfDesc → Store → Except Exc (List JobResult × Store)
  | [], s => pure ([], s)
  | c :: cs, s => do
    let r ← j.step md5 c s
    let rest ← j.doEvaluation md5 cs r.2
    pure (r.1 :: rest.1, rest.2)

end Verif

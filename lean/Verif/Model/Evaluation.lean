import Verif.Model.Jobs

/-!
# The whole evaluation (evaluation/_functions.py)

`evaluate_oversamplers` puts the folding, the sampling jobs and the evaluation jobs together. Simplifications: the
serialization is json (for pickle see C21); the numbers of a record survive being stored (C22); the iterator of the
folds is a list of folds, each with the descriptor it shows when it is yielded (C23); a caught exception keeps its text.
-/

namespace Verif

/-- An oversampler of the argument `oversamplers`: name and parameters (entries 1 and 2 of the triple).
Used for evaluation/_functions.py:54-62. -/
abbrev OsArg := String × Dict String String

/-- What all runs of an evaluation have in common: the classes behind the names, the scaler, the scores, the hash codes
and the paths of files. Used for evaluation/_functions.py:389-402. -/
structure Bench where
  /-- `instantiate_obj(("smote_variants", name, params))` -/
  instOs : String → Dict String String → Except Exc Osr
  scaler : Option Scaler
  /-- `instantiate_obj(classifier)` -/
  instClf : ClfDesc → Except Exc Clf
  /-- `calculate_all_scores` -/
  scores : List Int → List ℚ → Except Exc RV
  md5Os : OsArg → Nat
  md5Clf : ClfDesc × Dict String String → Nat
  path : FileKey → String

/-- What may differ from run to run: elapsed times, recorded warnings, and which jobs are killed by the pool because
they are late. Used for evaluation/_functions.py:389-402. -/
structure Obs where
  osElapsed : Fold → OsArg → ℚ
  osWarnings : Fold → OsArg → String
  clfElapsed : OsRecord → ClfDesc → ℚ
  clfWarnings : OsRecord → ClfDesc → String
  late : Fold → OsArg → Bool

/-- The `SamplingJob` for a fold and an oversampler; `reset` has its default.
Used for evaluation/_functions.py:55-62, evaluation/_functions.py:98-105 and evaluation/_functions.py:288-295. -/
def Bench.sampJob (B : Bench) (ob : Obs) (cached : Bool) (f : Fold) (o : OsArg) : SampJob where
  fold := f
  oversampler := o.1
  params := o.2
  scaler := B.scaler
  cached := cached
  reset := false
  instantiate := B.instOs
  elapsed := ob.osElapsed f o
  warnings := ob.osWarnings f o

/-- The `EvaluationJob` for the result of a sampling job. Used for evaluation/_functions.py:65-67 and
evaluation/_functions.py:135-137. -/
def Bench.evalJob (B : Bench) (ob : Obs) (cached : Bool) (os : OsRecord) : EvalJob where
  os := os
  cached := cached
  reset := false
  instantiate := B.instClf
  elapsed := ob.clfElapsed os
  warnings := ob.clfWarnings os
  scores := B.scores

/-- The fields of a sampling record that `do_evaluation` reads, evaluation/_evaluation.py:109-118 and
evaluation/_evaluation.py:150-170. `file` is the name of the file the record was loaded from. The class name is looked
up at once, and not when the first classifier is evaluated. -/
def readOs (file : Option String) (r : Record) : Except Exc OsRecord :=
  match r.get "fold_descriptor", r.get "oversampler", r.get "X_train", r.get "y_train", r.get "X_test",
      r.get "y_test", r.get "error", r.get "warning", r.get "runtime" with
  | some (.desc d), some (.params p), some (.rows x), some (.labels y), some (.rows xt), some (.labels yt),
      some (.text e), some (.text w), some (.num t) =>
    match p.get "class_name" with
    | some c => .ok ⟨d, p, c, x, y, xt, yt, e, w, t, file⟩
    | none => .error (.keyError, "class_name")
  | _, _, _, _, _, _, _, _, _ => .error (.keyError, "")

/-- evaluation/_evaluation.py:109-118: the result of a sampling job is a record or the name of a file to load. -/
def Bench.osOf (B : Bench) (s : Store) : JobResult → Except Exc OsRecord
  | .record r => readOs none r
  | .file k =>
    match s k with
    | some (.good r) => readOs (some (B.path k)) r
    | some .torn => .error (.jsonDecode, "")
    | none => .error (.fileNotFound, "")

/-- `execute_1_job`, evaluation/_functions.py:39-69, for one oversampler. Nothing is cached, so the store stays as it
is. -/
def Bench.plainOne (B : Bench) (ob : Obs) (clfs : List ClfDesc) (f : Fold) (o : OsArg) :
    Except Exc (List JobResult) := do
  let r ← (B.sampJob ob false f o).doOversampling B.md5Os (fun _ => none)
  let os ← B.osOf r.2 r.1
  let e ← (B.evalJob ob false os).doEvaluation B.md5Clf clfs r.2
  pure e.1

/-- `execute_1_job`, evaluation/_functions.py:39-69. -/
def Bench.execute1Job (B : Bench) (ob : Obs) (oss : List OsArg) (clfs : List ClfDesc) (f : Fold) :
    Except Exc (List JobResult) := do
  let rs ← oss.mapM (B.plainOne ob clfs f)
  pure rs.flatten

/-- The records of a run in one process refer to one dictionary with the descriptor of the fold. When the run has ended,
all of them show its last contents. Used for evaluation/_functions.py:433-441. -/
def shareDesc (last : Option Fold) : JobResult → JobResult
  | .file k => .file k
  | .record r =>
    match last with
    | none => .record r
    | some f => .record (Dict.set r "fold_descriptor" (.desc f.desc))

/-- evaluation/_functions.py:433-441, without a cache and with `n_jobs=1` (joblib then runs every job at once, in the
same process). -/
def Bench.plain (B : Bench) (ob : Obs) (oss : List OsArg) (clfs : List ClfDesc) (folds : List Fold) :
    Except Exc (List (List JobResult)) := do
  let rs ← folds.mapM (B.execute1Job ob oss clfs)
  pure (rs.map (fun l => l.map (shareDesc folds.getLast?)))

/-- The directory of a data set in the cache: the files with folds, and the files with results.
Used for evaluation/_folding.py:68-72 and evaluation/_functions.py:338. -/
structure Dir where
  folds : Dict Path Fold
  store : Store

/-- `cache_foldings`, evaluation/_folding.py:134-149. -/
def cacheFoldings (folds : List Fold) (d : Dict Path Fold) : Dict Path Fold :=
  folds.foldl (fun m f => Dict.set m (foldFileName sJson f.desc) f) d

/-- `execute_1_os` for all folds, evaluation/_functions.py:351-356, 72-111: the sampling jobs, one after the other. -/
def Bench.sampAll (B : Bench) (ob : Obs) : List (Fold × OsArg) → Store → Except Exc (List JobResult × Store)
  | [], s => pure ([], s)
  | j :: js, s => do
    let r ← (B.sampJob ob true j.1 j.2).doOversampling B.md5Os s
    let rest ← B.sampAll ob js r.2
    pure (r.1 :: rest.1, rest.2)

/-- A job in the pool, evaluation/_parallelization.py:78-107, 110-159: the answer of a job that is killed, or that
raises any exception, is that of its method `timeout`; when this raises as well, it is `None`. -/
def Bench.poolJob (B : Bench) (ob : Obs) (j : Fold × OsArg) (s : Store) : Option JobResult × Store :=
  match (if ob.late j.1 j.2 then .error (.runtimeError, "") else (B.sampJob ob true j.1 j.2).doOversampling B.md5Os s :
      Except Exc (JobResult × Store)) with
  | .ok r => (some r.1, r.2)
  | .error _ =>
    match (B.sampJob ob true j.1 j.2).timeout B.md5Os s with
    | .ok r => (some r.1, r.2)
    | .error _ => (none, s)

/-- The jobs in the order in which the pool runs them: each file is written by one job at a time, and only the order in
which this happens matters. Used for evaluation/_functions.py:300-302. -/
def Bench.poolAll (B : Bench) (ob : Obs) : List (Fold × OsArg) → Store → List ((Fold × OsArg) × Option JobResult) × Store
  | [], s => ([], s)
  | j :: js, s =>
    let r := B.poolJob ob j s
    let rest := B.poolAll ob js r.2
    ((j, r.1) :: rest.1, rest.2)

/-- `execute_1_eval`, evaluation/_functions.py:114-139. `None` has no entries: `TypeError`. -/
def Bench.execute1Eval (B : Bench) (ob : Obs) (clfs : List ClfDesc) (r : Option JobResult) (s : Store) :
    Except Exc (List JobResult × Store) :=
  match r with
  | none => if clfs = [] then pure ([], s) else .error (.typeError, "'NoneType' object is not subscriptable")
  | some r => do
    let os ← B.osOf s r
    (B.evalJob ob true os).doEvaluation B.md5Clf clfs s

/-- evaluation/_functions.py:358-367: the evaluation jobs. With several jobs joblib returns the results in the order of
the arguments as well; the jobs are executed one after the other here. -/
def Bench.evalAll (B : Bench) (ob : Obs) (clfs : List ClfDesc) :
    List (Option JobResult) → Store → Except Exc (List (List JobResult) × Store)
  | [], s => pure ([], s)
  | r :: rs, s => do
    let e ← B.execute1Eval ob clfs r s
    let rest ← B.evalAll ob clfs rs e.2
    pure (e.1 :: rest.1, rest.2)

/-- `do_clean_up`, evaluation/_functions.py:142-158. -/
def doCleanUp (opt : String) (d : Dir) : Dir where
  folds := if opt = "all" then d.folds.filter (fun e => !(['f', 'o', 'l', 'd'].isPrefixOf e.1)) else d.folds
  store := fun k => if (opt = "oversamplings" ∨ opt = "all") ∧ k.kind = "oversampling" then none else d.store k

/-- evaluation/_functions.py:285-296: every fold with every oversampler. -/
def jobsOf (folds : List Fold) (oss : List OsArg) : List (Fold × OsArg) :=
  folds.flatMap (fun f => oss.map (fun o => (f, o)))

/-- `cached_evaluation`, evaluation/_functions.py:307-371, with `n_jobs=1`. -/
def Bench.cachedSeq (B : Bench) (ob : Obs) (oss : List OsArg) (clfs : List ClfDesc) (opt : String) (folds : List Fold)
    (d : Dir) : Except Exc (List (List JobResult) × Dir) := do
  let os ← B.sampAll ob (jobsOf folds oss) d.store
  let ev ← B.evalAll ob clfs (os.1.map some) os.2
  pure (ev.1, doCleanUp opt ⟨cacheFoldings folds d.folds, ev.2⟩)

/-- `folding_files`, evaluation/_folding.py:84-99, after `cache_foldings`: all files with folds, in the order of their
names, loaded by the jobs (evaluation/_sampling.py:126-131). -/
def foldsOnDisk (m : Dict Path Fold) : List Fold :=
  (sortNames (m.keys.filter (matchesFold sJson))).filterMap m.get

/-- `cached_evaluation`, evaluation/_functions.py:307-371, with `n_jobs` above 1; `shuffle` is the shuffling of the jobs
(evaluation/_functions.py:298), `sched` the order in which the pool runs them. The results are in the order of the
shuffled jobs: a job appears among those that ran. -/
def Bench.cachedPar (B : Bench) (ob : Obs) (shuffle sched : List (Fold × OsArg) → List (Fold × OsArg))
    (oss : List OsArg) (clfs : List ClfDesc) (opt : String) (folds : List Fold) (d : Dir) :
    Except Exc (List (List JobResult) × Dir) := do
  let m := cacheFoldings folds d.folds
  let jobs := shuffle (jobsOf (foldsOnDisk m) oss)
  let os := B.poolAll ob (sched jobs) d.store
  let ev ← B.evalAll ob clfs (jobs.map (fun j => ((os.1.find? (fun e => decide (e.1 = j))).bind Prod.snd))) os.2
  pure (ev.1, doCleanUp opt ⟨m, ev.2⟩)

/-- A data set with the splits that `RepeatedStratifiedKFold` makes of it. Used for evaluation/_folding.py:109-119. -/
structure DataSet where
  name : String
  data : List Row
  target : List Int
  nSplits : Nat
  splits : List (List Nat × List Nat)

/-- An exception whose text does not matter. Used for evaluation/_functions.py:426-431. -/
def liftExc {α : Type} : Res α → Except Exc α
  | .ok a => .ok a
  | .error e => .error (e, "")

/-- evaluation/_functions.py:426-431 and evaluation/_folding.py:101-132: the statistics of the constructor, then the
folds. -/
def DataSet.folds (ds : DataSet) : Except Exc (List Fold) := do
  let _ ← liftExc (foldingStats ds.target)
  let l ← liftExc (foldSnapshots ds.data ds.target ds.nSplits ⟨0, 0, 0⟩ ds.splits)
  pure (l.map (fun p => ⟨p.2, p.1⟩))

/-- `evaluate_oversampler_on_dataset`, evaluation/_functions.py:389-462, with `n_jobs=1`. `cache` is `none` without a
cache path, otherwise the option `clean_up`. -/
def Bench.evaluateOn (B : Bench) (ob : Obs) (cache : Option String) (oss : List OsArg) (clfs : List ClfDesc)
    (ds : DataSet) (dirs : String → Dir) : Except Exc (List (List JobResult) × (String → Dir)) := do
  let folds ← ds.folds
  match cache with
  | none => do
    let rs ← B.plain ob oss clfs folds
    pure (rs, dirs)
  | some opt => do
    let r ← B.cachedSeq ob oss clfs opt folds (dirs ds.name)
    pure (r.1, Function.update dirs ds.name r.2)

/-- `evaluate_oversamplers` with `parse_results=False` (for the table see C27), evaluation/_functions.py:465-555. -/
def Bench.evaluate (B : Bench) (ob : Obs) (cache : Option String) (oss : List OsArg) (clfs : List ClfDesc) :
    List DataSet → (String → Dir) → Except Exc (List JobResult × (String → Dir))
  | [], dirs => pure ([], dirs)
  | ds :: rest, dirs => do
    let r ← B.evaluateOn ob cache oss clfs ds dirs
    let q ← B.evaluate ob cache oss clfs rest r.2
    pure (r.1.flatten ++ q.1, q.2)

end Verif

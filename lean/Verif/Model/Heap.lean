import Verif.Model.Cleaning
import Verif.Model.VisRst
import Verif.Model.Isomap
import Verif.Model.Amsr

/-!
# Arrays in memory

The other models pass arrays as values. Here arrays live in memory, at addresses, so that it can be said which arrays a call changes and
which arrays it hands out. An exception does not undo what has been written before. Arrays computed by numpy expressions (`X[mask]`,
`np.vstack`, …) are new; they are values here until they are stored under a name that is written to or returned.
-/

namespace Verif

/-- An array of rows or of labels. Used for base/_oversampling.py:212-247. -/
inductive Arr
  | rows (v : List Row)
  | labels (v : List Int)
  deriving DecidableEq

/-- The memory: the arrays by address. Used for base/_oversampling.py:212-247. -/
abbrev Heap := List Arr

/-- A computation which may change the memory and may raise. Used for base/_oversampling.py:212-247. -/
def Mem (α : Type) : Type := Heap → Res α × Heap

/-- Sequencing; after an exception nothing more is done. Used for base/_oversampling.py:212-247. -/
instance : Monad Mem where
  pure a := fun h => (.ok a, h)
  bind p f := fun h =>
    match p h with
    | (.ok a, h') => f a h'
    | (.error e, h') => (.error e, h')

/-- A computation without effect on the memory. Used for base/_oversampling.py:212-247. -/
def Mem.lift {α : Type} (r : Res α) : Mem α := fun h => (r, h)

/-- The content of an array of rows. Used for base/_oversampling.py:212-247. -/
def Mem.readRows (a : Nat) : Mem (List Row) := fun h =>
  match h[a]? with
  | some (.rows v) => (.ok v, h)
  | _ => (.error .typeError, h)

/-- The content of an array of labels. Used for base/_oversampling.py:212-247. -/
def Mem.readLabels (a : Nat) : Mem (List Int) := fun h =>
  match h[a]? with
  | some (.labels v) => (.ok v, h)
  | _ => (.error .typeError, h)

/-- A new array. Used for base/_oversampling.py:266 (`X.copy()`) and oversampling/_smote.py:137-139 (`np.vstack`). -/
def Mem.new (c : Arr) : Mem Nat := fun h => (.ok h.length, h ++ [c])

/-- Writing into an array. Used for oversampling/_spy.py:147 and oversampling/_stefanowski.py:174 (`y[ind] = self.min_label`). -/
def Mem.write (a : Nat) (c : Arr) : Mem Unit := fun h => (.ok (), h.set a c)

/-- `return_copies`, base/_oversampling.py:249-266, and `return X.copy(), y.copy()`, base/_oversampling.py:237 and 245. -/
def returnCopies (x y : Nat) : Mem (Nat × Nat) := do
  let X ← Mem.readRows x
  let Y ← Mem.readLabels y
  let x' ← Mem.new (.rows X)
  let y' ← Mem.new (.labels Y)
  return (x', y')

/-- Returning the arrays of two numpy expressions, e.g. `np.vstack` and `np.hstack`, oversampling/_smote.py:137-139. -/
def returnNew (r : List Row × List Int) : Mem (Nat × Nat) := do
  let x' ← Mem.new (.rows r.1)
  let y' ← Mem.new (.labels r.2)
  return (x', y')

/-- `OverSampling.sample`, base/_oversampling.py:212-247. -/
def sampleH (checks : List Check) (d : Nat) (alg : Stats → Nat → Nat → Mem (Nat × Nat)) (x y : Nat) : Mem (Nat × Nat) := do
  let Y ← Mem.readLabels y
  let s ← Mem.lift (classLabelStatistics Y)
  if checksFire (s.count s.minLabel) d checks then returnCopies x y
  else alg s x y

/-- `OverSampling.sampling_algorithm` of the base class, base/_oversampling.py:199-210: the arrays themselves. -/
def baseH (_s : Stats) (x y : Nat) : Mem (Nat × Nat) := return (x, y)

/-- `SMOTE.sampling_algorithm`, oversampling/_smote.py:92-139. -/
def smoteH (par : SmoteParams) (vol : List Row → ℚ) (dr : Draws) (d : Nat) (knn : Nat → List Row → List (List Nat)) (s : Stats)
    (x y : Nat) : Mem (Nat × Nat) := do
  let n ← Mem.lift (detNToSample (.num par.proportion) (s.count s.majLabel) (s.count s.minLabel))
  if n = 0 then returnCopies x y
  else do
    let X ← Mem.readRows x
    let Y ← Mem.readLabels y
    let Xmin := selectLabel X Y s.minLabel
    let k := min Xmin.length (par.nNeighbors + 1)
    let samples ← Mem.lift (sampleSimplex par.ss vol dr d Xmin (knn k Xmin) k n {})
    returnNew (X ++ samples, Y ++ List.replicate n s.minLabel)

/-- `NoSMOTE.sampling_algorithm`, oversampling/_nosmote.py:54-72. -/
def noSmoteH (raiseValue raiseRuntime : Bool) (_s : Stats) (x y : Nat) : Mem (Nat × Nat) :=
  if raiseValue then Mem.lift (.error .valueError)
  else if raiseRuntime then Mem.lift (.error .runtimeError)
  else returnCopies x y

/-- `SPY.sampling_algorithm`, oversampling/_spy.py:108-159: the labels are written into a copy. -/
def spyH (threshold : ℚ) (nNeighbors : Nat) (knn : Nat → List Row → List Row → List (List Nat)) (s : Stats) (x y : Nat) :
    Mem (Nat × Nat) := do
  let X ← Mem.readRows x
  let Y ← Mem.readLabels y
  let k := min X.length (nNeighbors + 1)
  let ind := knn k X (selectLabel X Y s.minLabel)
  let ynew ← Mem.new (.labels Y)
  let flips ← Mem.lift (ind.mapM (spyFlips threshold k Y s.majLabel))
  let L ← Mem.readLabels ynew
  Mem.write ynew (.labels (assignAt L flips.flatten s.minLabel))
  let xnew ← Mem.new (.rows X)
  return (xnew, ynew)

/-- `Stefanowski.sampling_algorithm`, oversampling/_stefanowski.py:236-320, with `weak_amp_relabel`, lines 151-177, which writes into the
array it is given: the copy made in line 254. -/
def stefanowskiH (strategy : StefStrategy) (knn : Nat → List Row → List (List Nat)) (s : Stats) (x y : Nat) : Mem (Nat × Nat) := do
  let X ← Mem.readRows x
  let Y0 ← Mem.readLabels y
  let y1 ← Mem.new (.labels Y0)
  let indices ← Mem.lift (kneighbors knn (min 4 X.length) X)
  let indices5 ← Mem.lift (kneighbors knn (min 6 X.length) X)
  let Y ← Mem.readLabels y1
  let safe ← Mem.lift (safeFlags indices Y)
  let D := (labelPositions Y s.majLabel).filter (fun i => ! safe.getD i false)
  let samples ← Mem.lift (strategy.samples X indices indices5 Y safe s)
  let ind ← Mem.lift (strategy.flips indices Y safe s)
  Mem.write y1 (.labels (assignAt Y ind s.minLabel))
  let Y1 ← Mem.readLabels y1
  let rem := D.filter (fun i => ! ind.contains i)
  let yk := npDelete Y1 rem
  if (npUnique yk).length < 2 then returnCopies x y
  else returnNew (withSamples (npDelete X rem) yk s.minLabel samples)

/-- The steps of `VIS_RST.all_steps` after the relabelling, oversampling/_vis_rst.py:424-444. -/
def visRest (par : NbParams) (nb : Nat → List Row → Row → List Nat) (vol : List Row → ℚ) (pick : Nat → Nat → Nat → List Nat)
    (drs : Nat → Draws) (d n : Nat) (X : List Row) (minL majL : Int) (y1 : List Int) : Res (List Row × List Int) := do
  let k := min X.length (par.nNeighbors + 1)
  let Xmin := selectLabel X y1 minL
  if y1.count majL ≤ y1.count minL then throw .valueError
  let labels ← visLabels nb k X y1 majL Xmin
  if labels.length ≠ 0 ∧ labels.all (fun l => decide (l = VisLab.noi)) = true then throw .valueError
  let samples ← visGenerate par nb vol pick drs d n Xmin labels
  let kept ← visRemove nb k X y1 majL samples
  if (npUnique y1).length = 1 then throw .valueError
  return (kept, y1)

/-- `VIS_RST.all_steps`, oversampling/_vis_rst.py:412-444: the relabelling writes into the array `y` it is given. -/
def visStepsH (par : NbParams) (nb : Nat → List Row → Row → List Nat) (vol : List Row → ℚ) (pick : Nat → Nat → Nat → List Nat)
    (drs : Nat → Draws) (d n : Nat) (X : List Row) (minL majL : Int) (y : Nat) : Mem (List Row) := do
  let Y ← Mem.readLabels y
  let L ← Mem.lift (visRelabel nb (min X.length (par.nNeighbors + 1)) X Y minL majL)
  Mem.write y (.labels L)
  let Y1 ← Mem.readLabels y
  let r ← Mem.lift (visRest par nb vol pick drs d n X minL majL Y1)
  return r.1

/-- `except ValueError`, oversampling/_vis_rst.py:472-475: what has been written before stays written. -/
def Mem.onValueError {α β : Type} (p : Mem α) (handler : Mem β) (f : α → Mem β) : Mem β := fun h =>
  match p h with
  | (.ok a, h') => f a h'
  | (.error .valueError, h') => handler h'
  | (.error e, h') => (.error e, h')

/-- `VIS_RST.sampling_algorithm`, oversampling/_vis_rst.py:446-480. -/
def visH (par : NbParams) (fitScaler : List Row → Row × Row) (nb : Nat → List Row → Row → List Nat) (vol : List Row → ℚ)
    (pick : Nat → Nat → Nat → List Nat) (drs : Nat → Draws) (d : Nat) (s : Stats) (x y : Nat) : Mem (Nat × Nat) := do
  let n ← Mem.lift (detNToSample (.num par.proportion) (s.count s.majLabel) (s.count s.minLabel))
  if n = 0 then returnCopies x y
  else do
    let X ← Mem.readRows x
    let Y ← Mem.readLabels y
    let sc := fitScaler X
    let Xs := X.map (scaleRow sc.1 sc.2)
    let y1 ← Mem.new (.labels Y)
    Mem.onValueError (visStepsH par nb vol pick drs d n Xs s.minLabel s.majLabel y1) (returnCopies x y) (fun kept => do
      let Y1 ← Mem.readLabels y1
      returnNew ((Xs ++ kept).map (unscaleRow sc.1 sc.2), Y1 ++ List.replicate kept.length s.minLabel))

/-- `SMOTE_AMSR.sampling_algorithm`, oversampling/_smote_amsr.py:406-438: without anything to sample it returns the arrays themselves. -/
def amsrH (env : AmsrEnv) (proportion : ℚ) (top : AmsrTopology) (d : Nat) (s : Stats) (x y : Nat) : Mem (Nat × Nat) := do
  let X ← Mem.readRows x
  let Y ← Mem.readLabels y
  let A := selectLabel X Y s.minLabel
  let n ← Mem.lift (detNToSample (.num proportion) (s.count s.majLabel) (s.count s.minLabel))
  if n = 0 then return (x, y)
  else do
    let new ← Mem.lift (match top with
      | .star => amsrStar env (env.score X) d A n
      | .bus => amsrBus env (env.score X) A n
      | .mesh => amsrMesh env (env.score X) A n)
    returnNew (X ++ new, Y ++ List.replicate new.length s.minLabel)

/-- `shuffle_training_set`, base/_base.py:58-76: `perm` is the shuffled mask, if there is a random state. -/
def shuffleH (perm : Option (List Nat)) (x y : Nat) : Mem (Nat × Nat) :=
  match perm with
  | none => return (x, y)
  | some p => do
    let X ← Mem.readRows x
    let Y ← Mem.readLabels y
    let X' ← Mem.lift (takeRows X p)
    let Y' ← Mem.lift (takeRows Y p)
    returnNew (X', Y')

/-- A loader of sample data, e.g. `load_1_dim`, datasets/_datasets.py:34-41: `x` and `y` are the addresses of the arrays of the module.
The dictionary itself is new at every call; its keys and the name of the data set are left out. -/
def loadH (x y : Nat) : Mem (Nat × Nat) := return (x, y)

end Verif

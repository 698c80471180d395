import Verif.Model.Clusters
import Verif.Model.Dbsmote

/-!
# VIS_RST

`nb k X q` are the positions of the `k` nearest rows of `X` of the row `q`, nearest first (the search answers every row on its own),
`fitScaler X` the means and scales of the `StandardScaler`, `pick t m n` the answer of `choice(m, n)` in round `t`, `drs t` the draws
of round `t`.
-/

namespace Verif

/-- The labels `"SAF"`, `"DAN"`, `"NOI"` of the minority rows. Used for oversampling/_vis_rst.py:175-180 and oversampling/_vis_rst.py:151-182. -/
inductive VisLab
  | saf | dan | noi
  deriving DecidableEq

/-- `VIS_RST.relabel_boundary`, oversampling/_vis_rst.py:115-149: the labels after the assignment, which changes the array in place. -/
def visRelabel (nb : Nat → List Row → Row → List Nat) (k : Nat) (X : List Row) (y : List Int) (minL majL : Int) : Res (List Int) :=
  (X.zip y).mapM (fun p => do
    if p.2 = majL then
      let ls ← takeRows y (nb k X p.1)
      return if ls.count majL ≠ k then minL else p.2
    else return p.2)

/-- The label of one minority row, oversampling/_vis_rst.py:175-180. -/
def visLab (k : Nat) (majL : Int) (ls : List Int) : VisLab :=
  let l := if ls.count majL = k - 1 then VisLab.noi else VisLab.dan
  if (ls.count majL : ℚ) < ((k - 1 : Nat) : ℚ) / 2 then VisLab.saf else l

/-- `VIS_RST.label_minority_samples`, oversampling/_vis_rst.py:151-182. -/
def visLabels (nb : Nat → List Row → Row → List Nat) (k : Nat) (X : List Row) (y : List Int) (majL : Int) (Xmin : List Row) :
    Res (List VisLab) :=
  Xmin.mapM (fun x => do
    let ls ← takeRows y ((nb k X x).drop 1)
    return visLab k majL ls)

/-- One pass of the loops of `sampling_high_complexity` (`copyDanger`) and `sampling_low_complexity`, oversampling/_vis_rst.py:232-250
and 279-297. `nn` are the rows which are no noise with their labels and neighbours, `base` the drawn positions. -/
def visBatch (ss : SSParams) (vol : List Row → ℚ) (dr : Draws) (d : Nat) (Xmin : List Row) (k : Nat) (copyDanger : Bool)
    (nn : List (Row × VisLab × List Nat)) (base : List Nat) : Res (List Row) := do
  let picked ← takeRows nn base
  let copied := fun (p : Row × VisLab × List Nat) => decide (p.2.1 = VisLab.dan) == copyDanger
  let from_ := nn.filter (fun p => !copied p)
  let tmp ← sampleSimplex ss vol dr d (from_.map (fun p => p.1)) (from_.map (fun p => p.2.2.drop 1)) (k - 1)
    (picked.filter (fun p => !copied p)).length { Xv := some Xmin }
  return (picked.filter copied).map (fun p => p.1) ++ tmp

/-- The `while` loop of the two functions, oversampling/_vis_rst.py:231-254 and 278-301. The first argument bounds the number of passes
(that the bound in use is enough is a theorem). -/
def visLoop (gen : Nat → Nat → Res (List Row)) (n : Nat) : Nat → Nat → List Row → Res (List Row)
  | 0, _, _ => .error .recursionError
  | f + 1, t, samples =>
    if samples.length < n then do
      let batch ← gen t (max (n - samples.length) 10)
      visLoop gen n f (t + 1) (samples ++ batch)
    else .ok (samples.take n)

/-- `VIS_RST.set_mode` and `generate_samples`, oversampling/_vis_rst.py:184-353. -/
def visGenerate (par : NbParams) (nb : Nat → List Row → Row → List Nat) (vol : List Row → ℚ) (pick : Nat → Nat → Nat → List Nat)
    (drs : Nat → Draws) (d n : Nat) (Xmin : List Row) (labels : List VisLab) : Res (List Row) :=
  let k := min Xmin.length (par.nNeighbors + 1)
  let ind := Xmin.map (nb k Xmin)
  let nn := (Xmin.zip (labels.zip ind)).filter (fun p => !decide (p.2.1 = VisLab.noi))
  if labels.count VisLab.saf = 0 then sampleSimplex par.ss vol (drs 0) d Xmin ind k n {}
  else
    visLoop (fun t q => visBatch par.ss vol (drs t) d Xmin k
      (decide ((3 / 10 : ℚ) * (Xmin.length : ℚ) < (labels.count VisLab.dan : ℚ))) nn (pick t nn.length q)) n (n + 1) 0 []

/-- `VIS_RST.noise_removal`, oversampling/_vis_rst.py:355-380. -/
def visRemove (nb : Nat → List Row → Row → List Nat) (k : Nat) (X : List Row) (y : List Int) (majL : Int) (samples : List Row) :
    Res (List Row) := do
  let keep ← samples.mapM (fun x => do
    let ls ← takeRows y ((nb k X x).drop 1)
    return decide (ls.count majL = 0))
  return ((samples.zip keep).filter (fun p => p.2)).map Prod.fst

/-- `VIS_RST.all_steps`, oversampling/_vis_rst.py:412-444, with the checks of lines 382-410: the samples and the changed labels. -/
def visSteps (par : NbParams) (nb : Nat → List Row → Row → List Nat) (vol : List Row → ℚ) (pick : Nat → Nat → Nat → List Nat)
    (drs : Nat → Draws) (d n : Nat) (X : List Row) (y : List Int) (minL majL : Int) : Res (List Row × List Int) := do
  let k := min X.length (par.nNeighbors + 1)
  let y1 ← visRelabel nb k X y minL majL
  let Xmin := selectLabel X y1 minL
  if y1.count majL ≤ y1.count minL then throw .valueError
  let labels ← visLabels nb k X y1 majL Xmin
  if labels.length ≠ 0 ∧ labels.all (fun l => decide (l = VisLab.noi)) = true then throw .valueError
  let samples ← visGenerate par nb vol pick drs d n Xmin labels
  let kept ← visRemove nb k X y1 majL samples
  if (npUnique y1).length = 1 then throw .valueError
  return (kept, y1)

/-- `VIS_RST.sampling_algorithm`, oversampling/_vis_rst.py:446-480: a `ValueError` of the steps gives the input back. -/
def visAlg (par : NbParams) (fitScaler : List Row → Row × Row) (nb : Nat → List Row → Row → List Nat) (vol : List Row → ℚ)
    (pick : Nat → Nat → Nat → List Nat) (drs : Nat → Draws) (d : Nat) (s : Stats) (X : List Row) (y : List Int) :
    Res (List Row × List Int) := do
  let n ← detNToSample (.num par.proportion) (s.count s.majLabel) (s.count s.minLabel)
  if n = 0 then return (X, y)
  let sc := fitScaler X
  let Xs := X.map (scaleRow sc.1 sc.2)
  match visSteps par nb vol pick drs d n Xs y s.minLabel s.majLabel with
  | .error .valueError => .ok (X, y)
  | .error e => .error e
  | .ok r => .ok ((Xs ++ r.1).map (unscaleRow sc.1 sc.2), r.2 ++ List.replicate r.1.length s.minLabel)

end Verif

import Verif.Model.Labeling
import Mathlib.Data.Char

/-!
# The plots (visualization/_visualization.py)

A figure is the points handed to the scatter plots; sizes, colours and legends are left to the plotting library. Frames live in memory, as the functions
assign to the column `y` of the frames they are given.
-/

namespace Verif

/-- The column `y` of a frame: the numbers of `vector_labeling`, or names after a plot. Used for visualization/_visualization.py:278 and 364-365. -/
inductive PlotCol
  | nums (v : List ℚ)
  | names (v : List LabName)

/-- The text of a name. Used for visualization/_visualization.py:56-79. -/
def LabName.text : LabName → List Char
  | .dummy => ['d', 'u', 'm', 'm', 'y']
  | .majority => ['m', 'a', 'j', 'o', 'r', 'i', 't', 'y']
  | .minority => ['m', 'i', 'n', 'o', 'r', 'i', 't', 'y']
  | .minorityNr i => ['m', 'i', 'n', 'o', 'r', 'i', 't', 'y', ' '] ++ Nat.toDigits 10 i

/-- `relabel_y` of a column, visualization/_visualization.py:56-79. A text is never equal to the numbers 0 and 1. -/
def relabelCol : PlotCol → List LabName
  | .nums v =>
    let u := npUnique v
    if u.length = 2 then v.map (fun l => if l = 1 then .minority else if l = 0 then .majority else .dummy)
    else v.map (fun l => if l = 0 then .majority else .minorityNr (u.idxOf l))
  | .names v =>
    let u := npUnique (v.map LabName.text)
    if u.length = 2 then v.map (fun _ => .dummy) else v.map (fun n => .minorityNr (u.idxOf n.text))

/-- A frame as `vector_labeling` returns it. Used for visualization/_visualization.py:107-160. -/
structure LabFrame where
  rows : List LabRow
  y : PlotCol

/-- The frame of `vector_labeling`, visualization/_visualization.py:107-160. -/
def freshFrame (rows : List LabRow) : LabFrame := ⟨rows, .nums (rows.map (fun r => r.key.getLastD 0))⟩

/-- A point of a scatter plot. Used for visualization/_visualization.py:284-318. -/
structure PlotPoint where
  coords : Row
  hue : LabName
  size : Option Nat
  flag : Option LabFlag
deriving DecidableEq

/-- The scatter plot on the left, visualization/_visualization.py:284-295. -/
def originalPanel (rows : List LabRow) (hues : List LabName) : List PlotPoint :=
  ((rows.zip hues).filter (fun p => p.1.originalFlag)).map (fun p => ⟨p.1.key.dropLast, p.2, p.1.countsOld, none⟩)

/-- The points with a flag on the right, visualization/_visualization.py:297-309. -/
def resampledPanel (rows : List LabRow) (hues : List LabName) : List PlotPoint :=
  ((rows.zip hues).filter (fun p => decide (p.1.flag ≠ some .removed))).map (fun p => ⟨p.1.key.dropLast, p.2, p.1.counts, p.1.flag⟩)

/-- The faint points on the right, visualization/_visualization.py:310-319. -/
def removedPanel (rows : List LabRow) (hues : List LabName) : List PlotPoint :=
  ((rows.zip hues).filter (fun p => decide (p.1.flag = some .removed))).map (fun p => ⟨p.1.key.dropLast, p.2, none, none⟩)

/-- A figure of `plot_sampling`. Used for visualization/_visualization.py:259-328. -/
structure SamplingFigure where
  original : List PlotPoint
  resampled : List PlotPoint
  removed : List PlotPoint

/-- The names shown for a frame. Used for visualization/_visualization.py:278 and 364-365. -/
def LabFrame.hues (f : LabFrame) : List LabName :=
  match f.y with
  | .nums _ => []
  | .names v => v

/-- `labeling["y"] = relabel_y(labeling["y"].values)` for the frame at an address, visualization/_visualization.py:278 and 364-365. -/
def relabelFrame (mem : Nat → LabFrame) (i : Nat) : Nat → LabFrame :=
  Function.update mem i ⟨(mem i).rows, .names (relabelCol (mem i).y)⟩

/-- The panels of a frame after relabelling. Used for visualization/_visualization.py:284-319 and visualization/_visualization.py:375-436. -/
def figureOf (f : LabFrame) : SamplingFigure :=
  ⟨originalPanel f.rows f.hues, resampledPanel f.rows f.hues, removedPanel f.rows f.hues⟩

/-- `plot_sampling`, visualization/_visualization.py:259-328: the figure, and the memory after the call. -/
def plotSampling (mem : Nat → LabFrame) (i : Nat) : SamplingFigure × (Nat → LabFrame) :=
  let mem := relabelFrame mem i
  (figureOf (mem i), mem)

/-- `plot_comparison`, visualization/_visualization.py:348-444: the panels of the two frames (the left plot is that of the first one). -/
def plotComparison (mem : Nat → LabFrame) (i j : Nat) : SamplingFigure × SamplingFigure × (Nat → LabFrame) :=
  let mem := relabelFrame (relabelFrame mem i) j
  (figureOf (mem i), figureOf (mem j), mem)

/-- A point of `plot_oversampled`: coordinates, name, and whether it is flagged as new. Used for visualization/_visualization.py:207-256. -/
structure OverPoint where
  coords : Row
  hue : LabName
  isNew : Bool
deriving DecidableEq

/-- `plot_oversampled`, visualization/_visualization.py:207-256. -/
def plotOversampled (coords : List Nat) (X Xs : List Row) (ys : List Int) : Res (List OverPoint) := do
  let pts ← Xs.mapM (fun r => coords.mapM (getRow r))
  return (pts.zip (relabelY ys)).zipIdx.map (fun p => ⟨p.1.1, p.1.2, decide (X.length ≤ p.2)⟩)

end Verif

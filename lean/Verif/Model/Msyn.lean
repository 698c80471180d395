import Verif.Model.Smote
import Verif.Model.ProWSyn
import Mathlib.Data.List.Sort

/-!
# MSYN

`dist` is the distance of the metric tensor, used by the neighbour search and by `pairwise_distances_mahalanobis`; `knn k X` the answer
of the search with `k` neighbours for the rows of `X`.
-/

namespace Verif

/-- `np.argmax` of a mask: the first true entry, 0 if there is none. Used for oversampling/_msyn.py:200-208. -/
def firstTrue (mask : List Bool) : Nat := if mask.idxOf true < mask.length then mask.idxOf true else 0

/-- `determine_nearest_hit_miss_dist` for one row, oversampling/_msyn.py:200-208. -/
def msynHitMiss (dist : Row → Row → ℚ) (X : List Row) (y : List Int) (x : Row) (ind : List Nat) : Res (ℚ × ℚ) := do
  let i0 ← getRow ind 0
  let l0 ← getRow y i0
  let rest := ind.drop 1
  let labels ← rest.mapM (getRow y)
  let mask := labels.map (fun l => decide (l = l0))
  let h ← getRow rest (firstTrue mask)
  let m ← getRow rest (firstTrue (mask.map (fun b => !b)))
  let xh ← getRow X h
  let xm ← getRow X m
  return (dist x xh, dist x xm)

/-- `determine_Delta_P_N` and the quotient for one new row, oversampling/_msyn.py:156-177 and 251. -/
def msynScore (dist : Row → Row → ℚ) (X : List Row) (hm : List (ℚ × ℚ)) (minPos majPos : List Nat) (z : Row) : ℚ :=
  let theta := fun i : Nat => (1 / 2) * ((hm.getD i (0, 0)).2 - (hm.getD i (0, 0)).1)
  let deltaP := (minPos.map (fun i =>
    let D := dist (X.getD i []) z
    let hit := if (hm.getD i (0, 0)).1 < D then (hm.getD i (0, 0)).1 else D
    (1 / 2) * ((hm.getD i (0, 0)).2 - hit) - theta i)).sum
  let deltaN := (majPos.map (fun i =>
    let D := dist (X.getD i []) z
    let miss := if (hm.getD i (0, 0)).2 < D then (hm.getD i (0, 0)).2 else D
    (1 / 2) * (miss - (hm.getD i (0, 0)).1) - theta i)).sum
  let score := -deltaN / (deltaP + 1 / 100)
  score

/-- `MSYN.sampling_algorithm`, oversampling/_msyn.py:253-300, with `determine_f_3`, 210-251. `sorted` by the score is stable. -/
def msynAlg (par : SmoteParams) (dist : Row → Row → ℚ) (vol : List Row → ℚ) (dr : Draws) (d : Nat)
    (knn : Nat → List Row → List (List Nat)) (s : Stats) (X : List Row) (y : List Int) : Res (List Row × List Int) := do
  let n ← detNToSample (.num par.proportion) (s.count s.majLabel) (s.count s.minLabel)
  if n = 0 then return (X, y)
  let res ← smoteSample { par with proportion := par.proportion * 3 } vol dr d knn X y
  let new := res.1.drop X.length
  let hm ← (X.zip (knn X.length X)).mapM (fun p => msynHitMiss dist X y p.1 p.2)
  let f3 := new.map (msynScore dist X hm (labelPositions y s.minLabel) (labelPositions y s.majLabel))
  if f3.length = 0 then throw .valueError
  let ind := ((List.range f3.length).insertionSort (fun i j => f3.getD i 0 ≤ f3.getD j 0)).take n
  let rows ← takeRows new ind
  return (X ++ rows, y ++ List.replicate ind.length s.minLabel)

end Verif

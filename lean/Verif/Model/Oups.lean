import Verif.Model.Clusters

/-!
# OUPS

`sorting X y` is the answer of `determine_sorting`: the positions of the rows by decreasing propensity (a logistic regression).
-/

namespace Verif

/-- `np.clip(x, 0.0, 1.0)`. Used for oversampling/_oups.py:138-139. -/
def clip01 (x : ℚ) : ℚ := max 0 (min x 1)

/-- The matrix `simplex_weights`, oversampling/_oups.py:138-139 and 148: row `i` is `arange(p, 0, -1)` clipped, with zero where the
position `i + 1 + c` is not a position of a row. `w` is the number of columns. -/
def oupsWeights (m : Nat) (p : ℚ) (w : Nat) : List (List ℚ) :=
  (List.range m).map (fun i => (List.range w).map (fun (c : Nat) => if m ≤ i + 1 + c then 0 else clip01 (p - (c : ℚ))))

/-- The rows the negative positions of oversampling/_oups.py:155 stand for: `random_samples_from_simplices` adds the number of base
rows to the position `-(s + 1)` and takes the row of the base rows followed by the vertices, where a position that is still negative
counts from the end. -/
def oupsBeyond (Xs kept : List Row) (w : Nat) : Res (List Row) :=
  (List.range w).mapM (fun s =>
    if s + 1 ≤ kept.length then getRow kept (kept.length - (s + 1)) else getRow Xs (Xs.length + kept.length - (s + 1)))

/-- `OUPS.sampling_algorithm`, oversampling/_oups.py:114-194, for `within_simplex_sampling="random"` (the default; the deterministic
points resolve negative positions in another way and are not modelled). A position `m + s` behind the last row, which the code turns
into `-(s + 1)`, is kept, and the rows these positions stand for are appended to the vertices. -/
def oupsAlg (par : NbParams) (sorting : List Row → List Int → List Nat) (vol : List Row → ℚ) (dr : Draws) (d : Nat)
    (s : Stats) (X : List Row) (y : List Int) : Res (List Row × List Int) := do
  let n ← detNToSample (.num par.proportion) (s.count s.majLabel) (s.count s.minLabel)
  if n = 0 then return (X, y)
  let order := sorting X y
  let Xs ← takeRows X order
  let ys ← takeRows y order
  let p : ℚ := (y.count s.majLabel : ℚ) / (y.count s.minLabel : ℚ)
  let w := ⌈p⌉.toNat
  let positions := (labelPositions ys s.minLabel).filter
    (fun i => !((List.range' (i + 1) w).all (fun q => decide (X.length ≤ q))))
  let kept ← takeRows Xs positions
  let beyond ← oupsBeyond Xs kept w
  let samples ← sampleSimplex par.ss vol dr d kept (positions.map (fun i => List.range' (i + 1) w)) w n
    { Xv := some (Xs ++ beyond), simplexWeights := some (oupsWeights X.length p w) }
  return withSamples X y s.minLabel samples

end Verif

import Verif.Model.Interp
import Verif.Model.Smote

/-!
# NDO_sampling

`query k X Q` is the answer of the neighbour search with `k` neighbours among `X` for the rows of `Q`, `dist` the distance it reports.
`pick`, `nbr`, `u` are the draws of each turn of the loop.
-/

namespace Verif

/-- `determine_alpha`, oversampling/_ndo_sampling.py:141-167, on the labels and distances of all neighbours. `none` is `np.inf`. -/
def ndoAlpha (minLabel majLabel : Int) (l : List (Int × ℚ)) : Option ℚ :=
  let intra := (l.filter (fun p => decide (p.1 = minLabel))).map Prod.snd
  if intra.length = 0 then some 0
  else
    let exter := (l.filter (fun p => decide (p.1 = majLabel))).map Prod.snd
    if exter.length = 0 then none
    else
      let m := exter.sum / exter.length
      if m = 0 then none else some (intra.sum / intra.length / m)

/-- `y[ind[:, 1:]]` and `dist[:, 1:]` for one minority row. Used for oversampling/_ndo_sampling.py:180-234. -/
def ndoNeighbours (dist : Row → Row → ℚ) (X : List Row) (y : List Int) (x : Row) (ind : List Nat) : Res (List (Int × ℚ)) :=
  (ind.drop 1).mapM (fun j => do
    let l ← getRow y j
    let q ← getRow X j
    return (l, dist x q))

/-- The loop of `NDO_sampling.sampling_algorithm`, oversampling/_ndo_sampling.py:213-229. -/
def ndoLoop (n : Nat) (minLabel : Int) (pick nbr : Nat → Nat → Nat) (u : Nat → Nat → ℚ) (X : List Row) (y : List Int) (A : List Row)
    (ind : List (List Nat)) : Nat → Nat → List Row → Res (List Row)
  | 0, _, acc => .ok acc
  | f + 1, t, acc =>
    if n ≤ acc.length then .ok acc
    else do
      let x ← getRow A (pick t A.length)
      let row ← getRow ind (pick t A.length)
      if (row.drop 1).length = 0 then throw .valueError
      let r ← getRow (row.drop 1) (nbr t (row.drop 1).length)
      let q ← getRow X r
      let l ← getRow y r
      let acc1 := acc ++ [mixRow x q (fun _ => u t 0 / 2)]
      ndoLoop n minLabel pick nbr u X y A ind f (t + 1) (if l = minLabel then acc1 ++ [mixRow q x (fun _ => u t 1 / 2)] else acc1)

/-- `NDO_sampling.sampling_algorithm`, oversampling/_ndo_sampling.py:180-234. SMOTE is called without `n_neighbors`, so with its
default of five neighbours. Every turn of the loop appends at least one row, so `n` turns are enough. -/
def ndoAlg (par : SmoteParams) (T : ℚ) (dist : Row → Row → ℚ) (vol : List Row → ℚ) (dr : Draws) (d : Nat) (pick nbr : Nat → Nat → Nat)
    (u : Nat → Nat → ℚ) (query : Nat → List Row → List Row → List (List Nat)) (knn : Nat → List Row → List (List Nat))
    (s : Stats) (X : List Row) (y : List Int) : Res (List Row × List Int) := do
  let n ← detNToSample (.num par.proportion) (s.count s.majLabel) (s.count s.minLabel)
  if n = 0 then return (X, y)
  let A := selectLabel X y s.minLabel
  let ind := query (min X.length (par.nNeighbors + 1)) X A
  let nbs ← (A.zip ind).mapM (fun p => ndoNeighbours dist X y p.1 p.2)
  match ndoAlpha s.minLabel s.majLabel nbs.flatten with
  | some alpha =>
    if alpha < T then smoteSample { par with nNeighbors := 5 } vol dr d knn X y
    else do
      let samples ← ndoLoop n s.minLabel pick nbr u X y A ind n 0 []
      return withSamples X y s.minLabel samples
  | none => do
    let samples ← ndoLoop n s.minLabel pick nbr u X y A ind n 0 []
    return withSamples X y s.minLabel samples

end Verif

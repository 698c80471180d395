import Verif.Model.Base
import Verif.Model.Checks
import Verif.Model.Smote
import Verif.Model.Rejection

/-!
# SMOTE_RSB
-/

namespace Verif

/-- `normalization_factor`, oversampling/_smote_rsb.py:127-149. -/
def rsbFactor (d : Nat) (S : List Row) : Row :=
  (List.range d).map (fun j =>
    let col := S.map (fun r => r.getD j 0)
    if maxL col - minL col = 0 then max (maxL col) 1 else maxL col - minL col)

/-- An entry of the similarity matrix, oversampling/_smote_rsb.py:187-193. -/
def rsbSimilarity (d : Nat) (f x m : Row) : ℚ :=
  1 - ((List.range d).map (fun j => |x.getD j 0 / f.getD j 0 - m.getD j 0 / f.getD j 0|)).sum / d

/-- The values of `similarity_value`, oversampling/_smote_rsb.py:196-208, in exact arithmetic: from 0.4 to 0.9 in steps of 0.05. -/
def rsbLevels : List ℚ := (List.range 11).map (fun (k : Nat) => 2 / 5 + (k : ℚ) / 20)

/-- The loop, oversampling/_smote_rsb.py:198-208: the positions of the rows added. -/
def rsbLoop (sim : List (List ℚ)) (limit : Nat) : List ℚ → List Nat → List Nat
  | [], acc => acc
  | v :: vs, acc =>
    if acc.length < limit then
      rsbLoop sim limit vs (acc ++ (List.range sim.length).filter (fun i =>
        decide ((sim.getD i []).countP (fun q => decide (v < q)) = 0) && ! acc.contains i))
    else acc

/-- `SMOTE_RSB.sampling_algorithm`, oversampling/_smote_rsb.py:151-219. `levels` are the values of `similarity_value`: with floats the
last one may be missing. -/
def rsbAlg (levels : List ℚ) (par : SmoteParams) (vol : List Row → ℚ) (dr : Draws) (d : Nat) (knn : Nat → List Row → List (List Nat))
    (s : Stats) (X : List Row) (y : List Int) : Res (List Row × List Int) := do
  let maj := selectLabel X y s.majLabel
  let min := selectLabel X y s.minLabel
  let sm ← smoteSample par vol dr d knn X y
  let S := sm.1.drop X.length
  if S.length = 0 then return (X, y)
  let f := rsbFactor d S
  let sim := S.map (fun x => maj.map (rsbSimilarity d f x))
  let pos := rsbLoop sim (maj.length - min.length) levels []
  let added ← takeRows S pos
  let result := added.take (maj.length - min.length)
  return (X ++ result, y ++ List.replicate result.length s.minLabel)

end Verif

import Verif.Model.Base
import Verif.Model.Checks
import Verif.Model.Noise
import Verif.Model.Smote

/-!
# SMOTE_IPF
-/

namespace Verif

/-- The parameters of `SMOTE_IPF`, oversampling/_smote_ipf.py:58-121. -/
structure IpfParams where
  nFolds : Nat
  k : Nat
  p : ℚ
  consensus : Bool

/-- `np.sum(predictions, axis=0)` at one row. Used for oversampling/_smote_ipf.py:182 and oversampling/_smote_ipf.py:181-192. -/
def ipfSum (preds : List (List Int)) (i : Nat) : Int := (preds.map (fun q => q.getD i 0)).sum

/-- `pred_votes`, oversampling/_smote_ipf.py:182, at one row. -/
def ipfVote (preds : List (List Int)) (i : Nat) : Int := if (1 / 2 : ℚ) < (ipfSum preds i : ℚ) / preds.length then 1 else 0

/-- `to_remove`, oversampling/_smote_ipf.py:181-192. -/
def ipfToRemove (par : IpfParams) (preds : List (List Int)) (y : List Int) : List Nat :=
  (List.range y.length).filter (fun i =>
    decide (ipfVote preds i ≠ y.getD i 0) && (! par.consensus || decide (ipfSum preds i = par.nFolds)))

/-- The `while` loop, oversampling/_smote_ipf.py:171-204. `ensemble folds X y` are the predictions for all rows of the classifiers trained on
the folds; the splitter or the classifier may raise. `none`: the loop is still running after `fuel` rounds. -/
def ipfLoop (par : IpfParams) (folds : Nat) (ensemble : Nat → List Row → List Int → Res (List (List Int))) :
    Nat → Nat → List Row → List Int → Option (Res (List Row × List Int))
  | 0, condition, X, y => if condition < par.k then none else some (.ok (X, y))
  | fuel + 1, condition, X, y =>
    if condition < par.k then
      match ensemble folds X y with
      | .error e => some (.error e)
      | .ok preds =>
        let rem := ipfToRemove par preds y
        let X' := npDelete X rem
        let y' := npDelete y rem
        let check := if (rem.length : ℚ) < X'.length * par.p then 1 else 0
        ipfLoop par folds ensemble fuel ((condition + 1) * check) X' y'
    else some (.ok (X, y))

/-- `SMOTE_IPF.sampling_algorithm`, oversampling/_smote_ipf.py:143-206, run for `fuel` rounds. -/
def ipfAlg (fuel : Nat) (sp : SmoteParams) (par : IpfParams) (ensemble : Nat → List Row → List Int → Res (List (List Int)))
    (vol : List Row → ℚ) (dr : Draws) (d : Nat) (knn : Nat → List Row → List (List Nat)) (s : Stats) (X : List Row) (y : List Int) :
    Res (Option (Res (List Row × List Int))) := do
  let n ← detNToSample (.num sp.proportion) (s.count s.majLabel) (s.count s.minLabel)
  if n = 0 then return some (.ok (X, y))
  let sm ← smoteSample sp vol dr d knn X y
  let folds := min par.nFolds (y.count s.minLabel)
  return ipfLoop par folds ensemble fuel 0 sm.1 sm.2

/-- The call of `sample` as a whole (`OverSamplingBase.sample` with the default checks): `none` if it is still running after `fuel`
rounds of the loop. Used for base/_oversampling.py:212-247. -/
def ipfSample (fuel : Nat) (sp : SmoteParams) (par : IpfParams) (ensemble : Nat → List Row → List Int → Res (List (List Int)))
    (vol : List Row → ℚ) (dr : Draws) (d : Nat) (knn : Nat → List Row → List (List Nat)) (X : List Row) (y : List Int) :
    Option (Res (List Row × List Int)) :=
  match classLabelStatistics y with
  | .error e => some (.error e)
  | .ok s =>
    if checksFire (s.count s.minLabel) d defaultChecks then some (.ok (X, y))
    else
      match ipfAlg fuel sp par ensemble vol dr d knn s X y with
      | .error e => some (.error e)
      | .ok r => r

end Verif

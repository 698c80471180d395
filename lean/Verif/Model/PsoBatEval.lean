import Verif.Model.Gasmote

/-! How SMOTE_PSOBAT scores a combination, oversampling/_smote_psobat.py:190-280. The decision tree is a parameter. -/

namespace Verif

/-- The cross validation in `pred_test_vectors`, oversampling/_smote_psobat.py:216-228: predictions and labels. `tree X y` predicts one row
with the tree fitted to `X` and `y`. The folds of `KFold(5)` are those of `gaCross`: consecutive, without shuffling; `ValueError` for fewer
rows than folds. -/
def pbPredTest (tree : List Row → List Int → Row → Int) (Xs : List Row) (ys : List Int) : Res (List Int × List Int) :=
  if Xs.length < 5 then .error .valueError
  else gaCross (fun X y Q => .ok (Q.map (tree X y))) Xs ys (gaFoldSizes Xs.length 5) 0

/-- `calculate_scores`, oversampling/_smote_psobat.py:243-254: kappa, `none` for NaN, and the accuracy. -/
def pbScores (tp tn fp fn : Nat) : Option ℚ × ℚ :=
  let n : ℚ := tp + fn + tn + fp
  let po := ((tp : ℚ) + tn) / n
  let pe := ((tp : ℚ) + fn) * (tp + fp) / n ^ 2 + ((fp : ℚ) + tn) * (fn + tn) / n ^ 2
  (if 1 - pe = 0 then none else some ((po - pe) / (1 - pe)), po)

/-- The counts in `evaluate`, oversampling/_smote_psobat.py:274-278: positions with the label `l` whose prediction is right or not. -/
def pbCount (preds tests : List Int) (right : Bool) (l : Int) : Nat :=
  ((preds.zip tests).filter (fun p => decide (p.1 = p.2) == right && decide (p.2 = l))).length

/-- `evaluate`, oversampling/_smote_psobat.py:256-280, for the sampled rows. -/
def pbEvaluate (tree : List Row → List Int → Row → Int) (minL majL : Int) (Xs : List Row) (ys : List Int) : Res (Option ℚ × ℚ) := do
  let r ← pbPredTest tree Xs ys
  return pbScores (pbCount r.1 r.2 true minL) (pbCount r.1 r.2 true majL) (pbCount r.1 r.2 false majL) (pbCount r.1 r.2 false minL)

end Verif

import Verif.Model.Base
import Verif.Model.Checks
import Verif.Model.Noise
import Verif.Model.Smote

/-!
# ISOMAP_Hybrid, SVM_balance, NoSMOTE

The embedding, the scores of the cross validation and the predictions of the classifier are parameters.
-/

namespace Verif

/-- `ISOMAP_Hybrid.sampling_algorithm`, oversampling/_isomap_hybrid.py:132-171. `embed` is `Isomap.fit_transform`, with `c` components. -/
def isomapAlg (par : SmoteParams) (embed : List Row → List Row) (vol : List Row → ℚ) (dr : Draws) (c : Nat)
    (knn : Nat → List Row → List (List Nat)) (_s : Stats) (X : List Row) (y : List Int) : Res (List Row × List Int) := do
  let T := embed X
  let sm ← smoteSample par vol dr c knn T y
  let fin ← ncrRemove knn sm.1 sm.2
  if fin.2.sum ≤ 2 ∨ fin.2.count 0 ≤ 2 then return sm
  return fin

/-- The loop over the values of `C`, oversampling/_svm_balance.py:145-156. A score that is NaN (`none`) is never greater. -/
def svmBest (score : ℚ → Option ℚ) : List ℚ → ℚ × ℚ → ℚ × ℚ
  | [], acc => acc
  | c :: cs, acc =>
    match score c with
    | none => svmBest score cs acc
    | some q => svmBest score cs (if acc.1 < q then (q, c) else acc)

/-- `SVM_balance.sampling_algorithm`, oversampling/_svm_balance.py:120-162. `score C cv X y` is the mean score of the cross validation
with `cv` folds (`ValueError` for fewer than two), `predict C X y` the prediction for the training rows `X`. -/
def svmBalanceAlg (par : SmoteParams) (score : ℚ → Nat → List Row → List Int → Option ℚ) (predict : ℚ → List Row → List Int → List Int)
    (vol : List Row → ℚ) (dr : Draws) (d : Nat) (knn : Nat → List Row → List (List Nat)) (s : Stats) (X : List Row) (y : List Int) :
    Res (List Row × List Int) := do
  let sm ← smoteSample par vol dr d knn X y
  let validator := min 5 (sm.2.count s.minLabel)
  if validator < 2 then throw .valueError
  let best := svmBest (fun c => score c validator sm.1 sm.2) [1 / 100, 1 / 10, 1, 10] (0, 1 / 100)
  return (sm.1, predict best.2 sm.1 sm.2)

/-- `NoSMOTE.sampling_algorithm`, oversampling/_nosmote.py:54-72. -/
def noSmoteAlg (raiseValue raiseRuntime : Bool) (_s : Stats) (X : List Row) (y : List Int) : Res (List Row × List Int) :=
  if raiseValue then .error .valueError
  else if raiseRuntime then .error .runtimeError
  else .ok (X, y)

end Verif

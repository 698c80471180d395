import Verif.Model.Evaluation

/-!
# Specification: what a prediction depends on
-/

namespace Verif

/-- Fitting fails, or the probabilities are given row by row: those of a row depend on the row and on the training data only. -/
def Clf.RowByRow (k : Clf) : Prop :=
  ∀ X y, (∃ e, ∀ T, k X y T = .error e) ∨ ∃ p : Row → List ℚ, ∀ T, k X y T = .ok (T.map p)

/-- The transformation of new data never raises and works row by row. -/
def Osr.RowByRow (a : Osr) : Prop := ∀ X y, ∃ g : Row → Row, ∀ T, a.transform X y T = .ok (T.map g)

/-- The scaler, once fitted, works row by row. -/
def Scaler.RowByRow (fit : Scaler) : Prop := ∀ X y, ∃ g : Row → Row, ∀ T, fit X y T = T.map g

/-- All parts of an evaluation work row by row. -/
structure Bench.RowByRow (B : Bench) : Prop where
  scaler : ∀ fit, B.scaler = some fit → fit.RowByRow
  osr : ∀ o p a, B.instOs o p = .ok a → a.RowByRow
  clf : ∀ c k, B.instClf c = .ok k → k.RowByRow

/-- Two data sets agree at the given positions. -/
def AgreeAt (pos : List Nat) (data data' : List Row) (target target' : List Int) : Prop :=
  ∀ i ∈ pos, data[i]? = data'[i]? ∧ target[i]? = target'[i]?

end Verif

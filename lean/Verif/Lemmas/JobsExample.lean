import Verif.Lemmas.Jobs

/-! Concrete jobs. -/

namespace Verif

/-- A fold with one training row per class and one test row. -/
def exFold : Fold := ⟨⟨[[2], [4]], [0, 1], [[6]], [0]⟩, ⟨3, 1, 1⟩⟩

/-- A scaler that halves everything. -/
def exScaler : Scaler := fun _ _ x => x.map (fun r => r.map (· / 2))

/-- An oversampler that repeats the first row. -/
def exOsr : Osr where
  getParams := [("proportion", "1.0"), ("n_neighbors", "3")]
  sample := fun x y => .ok (x ++ x.take 1, y ++ y.take 1)
  transform := fun _ _ x => .ok x

/-- An oversampler that always raises the given exception. -/
def exBadOsr (e : PyErr) : Osr where
  getParams := [("proportion", "1.0"), ("n_neighbors", "3")]
  sample := fun _ _ => .error (e, "boom")
  transform := fun _ _ x => .ok x

/-- A job. -/
def exJob (scaler : Option Scaler) (o : Osr) : SampJob where
  fold := exFold
  oversampler := "SMOTE"
  params := [("n_neighbors", "3")]
  scaler := scaler
  cached := true
  reset := false
  instantiate := fun _ _ => .ok o
  elapsed := 1
  warnings := "[]"

end Verif

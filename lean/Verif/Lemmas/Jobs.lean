import Verif.Model.Jobs
import Verif.Lemmas.Basic
import Verif.Lemmas.Dict

namespace Verif

theorem ebind_ok {ε α β : Type} {x : Except ε α} {f : α → Except ε β} {b : β} :
    (x >>= f) = .ok b ↔ ∃ a, x = .ok a ∧ f a = .ok b := by
  cases x with
  | error e => simp [bind, Except.bind]
  | ok a => simp [bind, Except.bind]

theorem ebind_error {ε α β : Type} {e : ε} {f : α → Except ε β} : ((.error e : Except ε α) >>= f) = .error e := rfl

theorem eok_bind {ε α β : Type} {a : α} {f : α → Except ε β} : ((.ok a : Except ε α) >>= f) = f a := rfl

/-- The nine fields of a sampling record. -/
def sampFields : List String :=
  ["fold_descriptor", "y_test", "oversampler", "X_train", "y_train", "X_test", "runtime", "error", "warning"]

/-- The record of a job, spelled out. -/
def sampRecord (d : Desc) (yTest : List Int) (params : Dict String String) (x : List Row) (y : List Int)
    (xt : List Row) (t : ℚ) (error warning : Option String) : Record :=
  [("fold_descriptor", .desc d), ("y_test", .labels yTest), ("oversampler", .params params), ("X_train", .rows x),
    ("y_train", .labels y), ("X_test", .rows xt), ("runtime", .num t), ("error", .text error),
    ("warning", .text warning)]

theorem compute_ok {j : SampJob} {o : Osr} (hi : j.instantiate j.oversampler j.params = .ok o)
    {s : (List Row × List Int) × List Row} (ha : j.attempt o = .ok s) :
    j.compute = .ok (sampRecord j.fold.desc j.fold.item.yTest (coalesceDict (some o.getParams) j.params) s.1.1 s.1.2 s.2
      j.elapsed none (some j.warnings)) := by
  unfold SampJob.compute
  rw [hi, eok_bind]
  dsimp only
  rw [ha]
  simp only [SampJob.afterTry, Dict.merge, List.foldl_cons, List.foldl_nil, Dict.set, pure_bind]
  simp [sampRecord, Dict.set]; rfl

theorem compute_failed {j : SampJob} {o : Osr} (hi : j.instantiate j.oversampler j.params = .ok o) {c : PyErr}
    (hc : c = .valueError ∨ c = .runtimeError) {msg : String} (ha : j.attempt o = .error (c, msg)) :
    j.compute = .ok (sampRecord j.fold.desc j.fold.item.yTest (coalesceDict (some o.getParams) j.params) j.scaled.1
      j.fold.item.yTrain j.scaled.2 j.elapsed (some msg) (some j.warnings)) := by
  unfold SampJob.compute
  rw [hi, eok_bind]
  dsimp only
  rw [ha]
  rcases hc with rfl | rfl <;>
  · simp only [SampJob.afterTry, SampJob.failed, Dict.merge, List.foldl_cons, List.foldl_nil, Dict.set, pure_bind]
    simp [sampRecord, Dict.set]; rfl

theorem compute_other {j : SampJob} {o : Osr} (hi : j.instantiate j.oversampler j.params = .ok o) {e : Exc}
    (h1 : e.1 ≠ .valueError) (h2 : e.1 ≠ .runtimeError) (ha : j.attempt o = .error e) : j.compute = .error e := by
  unfold SampJob.compute
  rw [hi, eok_bind]
  dsimp only
  rw [ha]
  obtain ⟨c, m⟩ := e
  have : ∀ b, j.afterTry b (.error (c, m)) = .error (c, m) := by
    intro b
    unfold SampJob.afterTry
    cases c <;> simp_all <;> rfl
  rw [this]
  rfl

theorem computeTimeout_ok {j : SampJob} {o : Osr} (hi : j.instantiate j.oversampler j.params = .ok o) :
    j.computeTimeout = .ok (sampRecord j.fold.desc j.fold.item.yTest o.getParams j.scaled.1 j.fold.item.yTrain j.scaled.2
      (-1) (some "TimeOutError") none) := by
  unfold SampJob.computeTimeout
  rw [hi, eok_bind]
  simp only [Dict.merge, List.foldl_cons, List.foldl_nil, Dict.set]
  simp [sampRecord, Dict.set]; rfl

end Verif

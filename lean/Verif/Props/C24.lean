import Verif.Lemmas.JobsExample

/-!
# C24 An oversampling job always produces a well-formed record
-/

namespace Verif

/-- Whatever the oversampler does, a record that is produced has the same nine fields, each once. -/
theorem C24_same_fields {j : SampJob} {r : Record} (h : j.compute = .ok r ∨ j.computeTimeout = .ok r) :
    r.keys = ["fold_descriptor", "y_test", "oversampler", "X_train", "y_train", "X_test", "runtime", "error",
      "warning"] := by
  rcases h with h | h
  · cases hi : j.instantiate j.oversampler j.params with
    | error e => unfold SampJob.compute at h; rw [hi] at h; cases h
    | ok o =>
      cases ha : j.attempt o with
      | ok s => rw [compute_ok hi ha] at h; injection h with h; subst h; rfl
      | error e =>
        by_cases hc : e.1 = .valueError ∨ e.1 = .runtimeError
        · rw [compute_failed hi hc (msg := e.2) ha] at h; injection h with h; subst h; rfl
        · rw [not_or] at hc
          rw [compute_other hi hc.1 hc.2 ha] at h; cases h
  · cases hi : j.instantiate j.oversampler j.params with
    | error e => unfold SampJob.computeTimeout at h; rw [hi] at h; cases h
    | ok o => rw [computeTimeout_ok hi] at h; injection h with h; subst h; rfl

/-- Success: the record holds what the oversampler returned for the scaled training set, no error, and the recorded
warnings. The test set is the oversampler's transformation of the test set of the fold. -/
theorem C24_success {j : SampJob} {o : Osr} (hi : j.instantiate j.oversampler j.params = .ok o) {X : List Row}
    {y : List Int} {T : List Row} (hs : o.sample j.scaled.1 j.fold.item.yTrain = .ok (X, y))
    (ht : o.transform j.scaled.1 j.fold.item.yTrain j.fold.item.xTest = .ok T) :
    ∃ r, j.compute = .ok r ∧ r.get "X_train" = some (.rows X) ∧ r.get "y_train" = some (.labels y) ∧
      r.get "X_test" = some (.rows T) ∧ r.get "y_test" = some (.labels j.fold.item.yTest) ∧
      r.get "fold_descriptor" = some (.desc j.fold.desc) ∧ r.get "error" = some (.text none) ∧
      r.get "warning" = some (.text (some j.warnings)) := by
  refine ⟨_, compute_ok hi (s := ((X, y), T)) ?_, ?_⟩
  · unfold SampJob.attempt
    rw [hs, eok_bind, ht]
    rfl
  · simp [sampRecord, Dict.get]

/-- `ValueError` and `RuntimeError` (in `sample` or in `preprocessing_transform`): the training set of the record is the
untouched, scaled fold, the test set is scaled, and the message is recorded. -/
theorem C24_failure {j : SampJob} {o : Osr} (hi : j.instantiate j.oversampler j.params = .ok o) {c : PyErr} {msg : String}
    (hc : c = .valueError ∨ c = .runtimeError)
    (hf : o.sample j.scaled.1 j.fold.item.yTrain = .error (c, msg) ∨
      ((∃ s, o.sample j.scaled.1 j.fold.item.yTrain = .ok s) ∧ o.transform j.scaled.1 j.fold.item.yTrain j.fold.item.xTest = .error (c, msg))) :
    ∃ r, j.compute = .ok r ∧ r.get "X_train" = some (.rows j.scaled.1) ∧
      r.get "y_train" = some (.labels j.fold.item.yTrain) ∧
      r.get "X_test" = some (.rows j.scaled.2) ∧ r.get "y_test" = some (.labels j.fold.item.yTest) ∧
      r.get "fold_descriptor" = some (.desc j.fold.desc) ∧ r.get "error" = some (.text (some msg)) ∧
      r.get "warning" = some (.text (some j.warnings)) := by
  refine ⟨_, compute_failed hi hc (msg := msg) ?_, ?_⟩
  · unfold SampJob.attempt
    rcases hf with hf | ⟨⟨s, hs⟩, hf⟩
    · rw [hf]; rfl
    · rw [hs, eok_bind, hf]; rfl
  · simp [sampRecord, Dict.get]

/-- Timeout: the same record with run time -1, the error text `TimeOutError` and no warning. -/
theorem C24_timeout {j : SampJob} {o : Osr} (hi : j.instantiate j.oversampler j.params = .ok o) :
    ∃ r, j.computeTimeout = .ok r ∧ r.get "X_train" = some (.rows j.scaled.1) ∧
      r.get "y_train" = some (.labels j.fold.item.yTrain) ∧
      r.get "X_test" = some (.rows j.scaled.2) ∧ r.get "y_test" = some (.labels j.fold.item.yTest) ∧
      r.get "fold_descriptor" = some (.desc j.fold.desc) ∧ r.get "error" = some (.text (some "TimeOutError")) ∧
      r.get "warning" = some (.text none) ∧ r.get "runtime" = some (.num (-1)) :=
  ⟨_, computeTimeout_ok hi, by simp [sampRecord, Dict.get]⟩

/-- The scaler is fitted to the training part of the fold, for the training rows and for the test rows of a record. -/
theorem C24_scaler {j : SampJob} {o : Osr} {fit : Scaler} (hf : j.scaler = some fit) (hi : j.instantiate j.oversampler j.params = .ok o) :
    ∃ r, j.computeTimeout = .ok r ∧ r.get "X_train" = some (.rows (fit j.fold.item.xTrain j.fold.item.yTrain j.fold.item.xTrain)) ∧
      r.get "X_test" = some (.rows (fit j.fold.item.xTrain j.fold.item.yTrain j.fold.item.xTest)) := by
  obtain ⟨r, h1, h2, _, h3, _⟩ := C24_timeout hi
  refine ⟨r, h1, ?_, ?_⟩
  · rw [h2]; unfold SampJob.scaled; rw [hf]
  · rw [h3]; unfold SampJob.scaled; rw [hf]

/-- Any other exception, and any exception of the constructor, ends the job without a record. -/
theorem C24_other_exceptions {j : SampJob} :
    (∀ e, j.instantiate j.oversampler j.params = .error e → j.compute = .error e ∧ j.computeTimeout = .error e) ∧
    (∀ o e, j.instantiate j.oversampler j.params = .ok o → e.1 ≠ PyErr.valueError → e.1 ≠ PyErr.runtimeError →
      o.sample j.scaled.1 j.fold.item.yTrain = .error e → j.compute = .error e) := by
  refine ⟨?_, ?_⟩
  · intro e he
    refine ⟨?_, ?_⟩
    · unfold SampJob.compute; rw [he]; rfl
    · unfold SampJob.computeTimeout; rw [he]; rfl
  · intro o e hi h1 h2 hs
    apply compute_other hi h1 h2
    unfold SampJob.attempt
    rw [hs]; rfl

/-- With a scaler and an oversampler without a transformation of its own, the test set is left unscaled on success
although the training set is scaled. -/
theorem C24_test_set_unscaled_on_success :
    ∃ r, (exJob (some exScaler) exOsr).compute = .ok r ∧
      r.get "X_train" = some (.rows [[1], [2], [1]]) ∧ r.get "X_test" = some (.rows [[6]]) ∧
      (exJob (some exScaler) exOsr).scaled = ([[1], [2]], [[3]]) := by
  refine ⟨_, compute_ok rfl (s := (([[1], [2], [1]], [0, 1, 0]), [[6]])) ?_, ?_, ?_, ?_⟩
  · decide +kernel
  · simp [sampRecord, Dict.get]
  · simp [sampRecord, Dict.get]
  · decide +kernel

/-- On failure it is scaled. -/
theorem C24_test_set_scaled_on_failure :
    ∃ r, (exJob (some exScaler) (exBadOsr .valueError)).compute = .ok r ∧ r.get "X_test" = some (.rows [[3]]) := by
  refine ⟨_, compute_failed (msg := "boom") rfl (Or.inl rfl) rfl, ?_⟩
  decide +kernel

/-- The parameters are recorded in another order on timeout than on success, so the two records of one oversampler do
not carry equal parameter dictionaries (and their printed form, used for grouping results, differs). -/
theorem C24_timeout_records_other_parameters :
    ∃ r t, (exJob none exOsr).compute = .ok r ∧ (exJob none exOsr).computeTimeout = .ok t ∧
      r.get "oversampler" = some (.params [("n_neighbors", "3"), ("proportion", "1.0")]) ∧
      t.get "oversampler" = some (.params [("proportion", "1.0"), ("n_neighbors", "3")]) := by
  refine ⟨_, _, compute_ok rfl (s := (([[2], [4], [2]], [0, 1, 0]), [[6]])) rfl, computeTimeout_ok rfl, ?_, ?_⟩
  · decide +kernel
  · decide +kernel

/-- Hypotheses met: a failing job and a succeeding one. -/
example : ∃ r, (exJob none (exBadOsr .runtimeError)).compute = .ok r ∧ r.get "error" = some (.text (some "boom")) := by
  obtain ⟨r, h, h'⟩ := C24_failure (j := exJob none (exBadOsr .runtimeError)) rfl (Or.inr rfl) (Or.inl rfl)
  exact ⟨r, h, h'.2.2.2.2.2.1⟩
example : (exJob none (exBadOsr .indexError)).compute = .error (.indexError, "boom") :=
  C24_other_exceptions.2 _ (.indexError, "boom") rfl (by decide) (by decide) rfl
example : ∃ r, (exJob none exOsr).compute = .ok r ∧ r.get "X_train" = some (.rows [[2], [4], [2]]) := by
  obtain ⟨r, h, h'⟩ := C24_success (j := exJob none exOsr) rfl rfl rfl
  exact ⟨r, h, h'.1⟩

end Verif

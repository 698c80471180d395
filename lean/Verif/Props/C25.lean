import Verif.Lemmas.JobsExample

/-!
# C25 What the cache of oversampling results is keyed by
-/

namespace Verif

variable (md5 : String × Dict String String → Nat)

/-- A job whose file is missing, torn or to be reset computes its own record and stores it. -/
theorem C25_miss_computes {j : SampJob} (hc : j.cached = true) {s : Store} {r : Record}
    (hmiss : s (j.key md5) = none ∨ s (j.key md5) = some .torn ∨ j.reset = true) (hr : j.compute = .ok r) :
    ∃ s', j.doOversampling md5 s = .ok (.file (j.key md5), s') ∧ s' (j.key md5) = some (.good r) ∧
      ∀ k, k ≠ j.key md5 → s' k = s k := by
  have hcond : ¬ (j.cached = true ∧ s.damaged (j.key md5) = false ∧ j.reset = false) := by
    rintro ⟨-, hd, hrs⟩
    unfold Store.damaged at hd
    rcases hmiss with h | h | h
    · rw [h] at hd; simp at hd
    · rw [h] at hd; simp at hd
    · rw [h] at hrs; simp at hrs
  refine ⟨Function.update s (j.key md5) (some (.good r)), ?_, by simp, fun k hk => by simp [hk]⟩
  unfold SampJob.doOversampling SampJob.run
  rw [if_neg hcond, hr, eok_bind, if_pos hc]
  rfl

/-- A job whose file is complete computes nothing: the stored record is returned as it is, whatever the job's own
training data, scaler or environment are. -/
theorem C25_hit_returns_stored {j : SampJob} (hc : j.cached = true) (hn : j.reset = false) {s : Store} {r : Record}
    (hs : s (j.key md5) = some (.good r)) :
    j.doOversampling md5 s = .ok (.file (j.key md5), s) ∧ j.timeout md5 s = .ok (.file (j.key md5), s) := by
  have hcond : j.cached = true ∧ s.damaged (j.key md5) = false ∧ j.reset = false := by
    refine ⟨hc, ?_, hn⟩
    unfold Store.damaged
    rw [hs]
  constructor
  · unfold SampJob.doOversampling SampJob.run
    rw [if_pos hcond]
    rfl
  · unfold SampJob.timeout SampJob.run
    rw [if_pos hcond]
    rfl

/-- The name of the file depends on nothing but the oversampler, its parameters and the position of the fold. -/
theorem C25_key_inputs {j j' : SampJob} (h1 : j.oversampler = j'.oversampler) (h2 : j.params = j'.params)
    (h3 : j.fold.desc.repeatIdx = j'.fold.desc.repeatIdx) (h4 : j.fold.desc.foldIdx = j'.fold.desc.foldIdx) :
    j.key md5 = j'.key md5 := by
  unfold SampJob.key
  rw [h1, h2, h3, h4]

/-- With a collision free hash it determines exactly these. -/
theorem C25_key_determines (hinj : Function.Injective md5) {j j' : SampJob} (h : j.key md5 = j'.key md5) :
    j.oversampler = j'.oversampler ∧ j.params = j'.params ∧
    j.fold.desc.repeatIdx = j'.fold.desc.repeatIdx ∧ j.fold.desc.foldIdx = j'.fold.desc.foldIdx := by
  unfold SampJob.key at h
  simp only [FileKey.mk.injEq, true_and] at h
  have := hinj h.2.2
  simp only [Prod.mk.injEq] at this
  exact ⟨this.1, this.2, h.1, h.2.1⟩

/-- Hence "two jobs writing the same file compute the same result" is false: the jobs below differ in the scaler only.
After the first has run, the second returns the first one's record and not its own. -/
theorem C25_scaler_not_in_key :
    ∃ j j' : SampJob, ∃ r r' : Record, j.key md5 = j'.key md5 ∧ j.compute = .ok r ∧ j'.compute = .ok r' ∧ r ≠ r' ∧
      ∃ s, j.doOversampling md5 (fun _ => none) = .ok (.file (j.key md5), s) ∧
        j'.doOversampling md5 s = .ok (.file (j'.key md5), s) ∧ s (j'.key md5) = some (.good r) := by
  have h1 := compute_ok (j := exJob none exOsr) rfl (s := (([[2], [4], [2]], [0, 1, 0]), [[6]])) (by decide +kernel)
  have h2 := compute_ok (j := exJob (some exScaler) exOsr) rfl (s := (([[1], [2], [1]], [0, 1, 0]), [[6]]))
    (by decide +kernel)
  have hk : (exJob none exOsr).key md5 = (exJob (some exScaler) exOsr).key md5 := rfl
  obtain ⟨s, hrun, hget, -⟩ := C25_miss_computes md5 (j := exJob none exOsr) rfl (s := fun _ => none) (Or.inl rfl) h1
  refine ⟨exJob none exOsr, exJob (some exScaler) exOsr, _, _, hk, h1, h2, ?_, s, hrun, ?_, by rw [← hk]; exact hget⟩
  · intro he
    have := congrArg (fun r : Record => r.get "X_train") he
    simp [sampRecord, Dict.get] at this
  · exact (C25_hit_returns_stored md5 (j := exJob (some exScaler) exOsr) rfl rfl (by rw [← hk]; exact hget)).1

/-- Likewise a timeout is stored under the same name and later returned as if it were the result. -/
theorem C25_timeout_sticks {j : SampJob} (hc : j.cached = true) (hn : j.reset = false) {r : Record}
    (hr : j.computeTimeout = .ok r) :
    ∃ s, j.timeout md5 (fun _ => none) = .ok (.file (j.key md5), s) ∧
      j.doOversampling md5 s = .ok (.file (j.key md5), s) ∧ s (j.key md5) = some (.good r) := by
  refine ⟨Function.update (fun _ => none) (j.key md5) (some (.good r)), ?_, ?_, by simp⟩
  · unfold SampJob.timeout SampJob.run
    rw [if_neg (by simp [Store.damaged]), hr, eok_bind, if_pos hc]
    rfl
  · exact (C25_hit_returns_stored md5 hc hn (r := r) (by simp)).1

/-- Hypotheses met. -/
example : ∃ r, (exJob none exOsr).compute = .ok r ∧ (exJob none exOsr).cached = true ∧
    (exJob none exOsr).reset = false := ⟨_, compute_ok rfl (s := (([[2], [4], [2]], [0, 1, 0]), [[6]])) rfl, rfl, rfl⟩
example : ∃ r, (exJob none exOsr).computeTimeout = .ok r := ⟨_, computeTimeout_ok rfl⟩

end Verif

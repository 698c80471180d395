import Verif.Lemmas.Registry

/-!
# C41 Every default parameter combination is accepted by its constructor
-/

namespace Verif

/-- The complete table satisfies the condition on single values. -/
theorem registry_gridOK : ∀ s ∈ registry, s.gridOK = true := by
  decide +kernel

/-- Every combination of every oversampler's grid uses only names of the constructor and passes all its checks. -/
theorem C41_grids_accepted : ∀ s ∈ registry, ∀ c ∈ s.combinations,
    (∀ k ∈ Dict.keys c, k ∈ s.params.map Prod.fst) ∧ s.construct c = .ok () :=
  fun s hs _ hc => construct_of_gridOK (registry_gridOK s hs) hc

/-- The default constructor of every oversampler passes all checks. -/
theorem C41_defaults_accepted : ∀ s ∈ registry, s.construct [] = .ok () := by
  intro s hs
  have h := registry_gridOK s hs
  unfold OsSpec.gridOK at h
  rw [Bool.and_eq_true, List.all_eq_true, List.all_eq_true] at h
  unfold OsSpec.construct
  rw [if_neg (by rintro ⟨-, hn⟩; exact hn (by simp [Dict.keys]))]
  apply runChecks_ok
  intro c hc
  have := h.2 c hc
  rw [Bool.and_eq_true] at this
  exact passes_ok this.1

/-- All constructors but one swallow unknown keyword arguments: a misspelt parameter goes unnoticed. -/
theorem C41_typos_unnoticed : ∀ s ∈ registry, s.name ≠ "SMOTE_AMSR" → ∀ v, s.construct [("proportoin", v)] = .ok () := by
  intro s hs hne v
  have hk : s.kwargs = true := by
    have : ∀ s ∈ registry, s.name ≠ "SMOTE_AMSR" → s.kwargs = true := by decide +kernel
    exact this s hs hne
  have hp : ∀ c ∈ s.checks, c.param ≠ "proportoin" := by
    have : ∀ s ∈ registry, ∀ c ∈ s.checks, c.param ≠ "proportoin" := by decide +kernel
    exact this s hs
  have hd := C41_defaults_accepted s hs
  unfold OsSpec.construct at hd ⊢
  rw [if_neg (by rw [hk]; simp)] at hd ⊢
  rw [← hd]
  exact bound_unchecked hp

/-- The checks bite: these constructors reject values outside their ranges. -/
theorem C41_checks_bite :
    specSMOTE.construct [("proportion", .num (-1))] = .error .valueError ∧
    specADG.construct [("kernel", .str "rbf_0")] = .error .valueError ∧
    specAHC.construct [("strategy", .str "max")] = .error .valueError ∧
    specMOT2LD.construct [("d_cut", .num 0)] = .error .valueError ∧
    specSMOTE.construct [("proportion", .str "all")] = .error .typeError ∧
    specSMOTE_AMSR.construct [("proportoin", .num 1)] = .error .typeError := by
  decide +kernel

/-- `ADASYN` and `MSYN` do not check `proportion` at all. -/
theorem C41_unchecked_proportion : ∀ s ∈ registry, "proportion" ∈ s.params.map Prod.fst →
    ((∀ v, s.construct [("proportion", v)] = .ok ()) ↔ s.name = "ADASYN" ∨ s.name = "MSYN") := by
  intro s hs hp
  have table : ∀ s ∈ registry, "proportion" ∈ s.params.map Prod.fst →
      (s.name = "ADASYN" ∨ s.name = "MSYN") ∧ (∀ c ∈ s.checks, c.param ≠ "proportion") ∧ s.kwargs = true ∨
      ¬ (s.name = "ADASYN" ∨ s.name = "MSYN") ∧ s.construct [("proportion", .num (-1))] ≠ .ok () := by
    decide +kernel
  rcases table s hs hp with ⟨hn, hc, hk⟩ | ⟨hn, hc⟩
  · refine ⟨fun _ => hn, fun _ v => ?_⟩
    have hd := C41_defaults_accepted s hs
    unfold OsSpec.construct at hd ⊢
    rw [if_neg (by rw [hk]; simp)] at hd ⊢
    rw [← hd]
    exact bound_unchecked hc
  · exact ⟨fun h => absurd (h _) hc, fun h => absurd h hn⟩

/-- The grids are not trivial. -/
example : specSMOTE ∈ registry ∧ specSMOTE.combinations.length = 35 := by decide +kernel

end Verif

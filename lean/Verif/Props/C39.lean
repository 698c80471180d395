import Verif.Model.Params
import Verif.Lemmas.Registry
import Verif.Lemmas.Unique

/-!
# C39 Copies and parameter round-trips
-/

namespace Verif

/-- The arguments `get_params()` does not report. -/
def lostParams : List (String × String) :=
  [("DEAGO", "nn_params"), ("PDFOS", "metric_learning"), ("SMOTEWB", "n_jobs"), ("SOMO", "nn_params"), ("SPY", "n_jobs"),
    ("SYMPROD", "n_jobs")]

theorem get_getParams {V : Type} (s : OsSpec) (const : V) (args : String → V) {p : String} (hp : p ≠ "")
    (h : Dict.get s.getKeys p = some p) : Dict.get (s.getParams const args) p = some (args p) := by
  unfold OsSpec.getParams
  generalize s.getKeys = l at h
  induction l with
  | nil => cases h
  | cons kv l ih =>
    obtain ⟨k, q⟩ := kv
    rw [Dict.get] at h
    rw [List.map_cons, Dict.get]
    split at h
    · rename_i hk
      injection h with h
      subst h
      rw [if_pos hk, if_neg hp]
    · rename_i hk
      rw [if_neg hk, ih h]

theorem get_getParams_none {V : Type} (s : OsSpec) (const : V) (args : String → V) {p : String}
    (h : p ∉ s.getKeys.map Prod.fst) : Dict.get (s.getParams const args) p = none := by
  rw [Dict.get_eq_none]
  unfold OsSpec.getParams Dict.keys
  rw [List.map_map]
  exact h

/-- For every oversampler, every assignment of its arguments and every argument outside the six listed: an object
rebuilt from `get_params()` has the argument of the original. -/
theorem C39_roundtrip {V : Type} (const : V) (dflt args : String → V) : ∀ s ∈ registry, ∀ p ∈ s.params.map Prod.fst,
    (s.name, p) ∉ lostParams → rebind dflt (s.getParams const args) p = args p := by
  intro s hs p hp hl
  have table : ∀ s ∈ registry, ∀ p ∈ s.params.map Prod.fst, (s.name, p) ∉ lostParams →
      p ≠ "" ∧ Dict.get s.getKeys p = some p := by decide +kernel
  obtain ⟨h0, h⟩ := table s hs p hp hl
  unfold rebind
  rw [get_getParams s const args h0 h]

/-- The six listed arguments fall back to their defaults, whatever the original was. -/
theorem C39_lost {V : Type} (const : V) (dflt args : String → V) : ∀ s ∈ registry, ∀ p, (s.name, p) ∈ lostParams →
    p ∈ s.params.map Prod.fst ∧ rebind dflt (s.getParams const args) p = dflt p := by
  intro s hs p hl
  have table : ∀ s ∈ registry, ∀ np ∈ lostParams, s.name = np.1 →
      np.2 ∈ s.params.map Prod.fst ∧ np.2 ∉ s.getKeys.map Prod.fst := by decide +kernel
  obtain ⟨h1, h2⟩ := table s hs (s.name, p) hl rfl
  refine ⟨h1, ?_⟩
  unfold rebind
  rw [get_getParams_none s const args h2]

/-- A copy of the neural network wrapper keeps everything but `max_iter`, which becomes the default. -/
theorem C39_mlp_copy {V : Type} (d m : Mlp V) : Mlp.copy d m = { m with maxIter := d.maxIter } := by
  simp [Mlp.copy, Mlp.ofParams, Mlp.getParams, Dict.get]

/-- So a copy equals the original exactly when `max_iter` was left at its default. -/
theorem C39_mlp_copy_iff {V : Type} (d m : Mlp V) : Mlp.copy d m = m ↔ m.maxIter = d.maxIter := by
  rw [C39_mlp_copy]
  constructor
  · intro h; rw [← h]
  · intro h; rw [← h]

/-- The hidden layer always has at least one unit, whatever the fraction; only a wrong string is an error. -/
theorem C39_hidden_layer (f : Fraction) (n : Nat) :
    (∃ k : Int, 1 ≤ k ∧ hiddenLayerSize f n = .ok k) ∨ ((∃ s, f = .text s) ∧ hiddenLayerSize f n = .error .valueError) := by
  cases f with
  | sqrt => exact Or.inl ⟨_, le_max_left .., rfl⟩
  | text s => exact Or.inr ⟨⟨s, rfl⟩, rfl⟩
  | num q => exact Or.inl ⟨_, le_max_left .., rfl⟩

/-- Rebuilding with the reported seed gives the same generator as the constructor did. -/
theorem C39_seed_roundtrip {v : Rs} {o : RsObj} (h : setRandomState v = .ok o) :
    setRandomState o.getParam = .ok o ∧ o.draw = .ok () ∧ ∀ n, v = .int n → o.state = .seeded n := by
  cases v with
  | int n =>
    have h0 := h
    rw [setRandomState] at h
    split at h
    · cases h; exact ⟨h0, rfl, by simp⟩
    · cases h
  | _ =>
    simp only [setRandomState] at h
    cases h
    try exact ⟨rfl, rfl, by simp⟩

/-- Seeds from zero below `2**32`, generators, the module and `None` are accepted, `None` standing for the generator of the module; anything else is a
`ValueError`. -/
theorem C39_seed_accepted (v : Rs) : (setRandomState v = .error .valueError ↔ v = .other ∨ ∃ n : Int, v = .int n ∧ (n < 0 ∨ 4294967296 ≤ n)) ∧
    ((v ≠ .other ∧ ∀ n : Int, v = .int n → 0 ≤ n ∧ n < 4294967296) →
      ∃ o, setRandomState v = .ok o ∧ o.getParam = v ∧ (v = .none → o.state = .module) ∧ ((∀ n, v ≠ .int n) → v ≠ .none → o.state = v)) := by
  cases v with
  | int n =>
    simp only [setRandomState, RsObj.getParam]
    constructor
    · by_cases h : 0 ≤ n ∧ n < 2 ^ 32
      · rw [if_pos h]
        simp
        omega
      · rw [if_neg h]
        simp
        omega
    · intro h
      have h1 := h.2 n rfl
      rw [if_pos (by omega)]
      exact ⟨_, rfl, rfl, by simp, by simp⟩
  | _ => simp [setRandomState, RsObj.getParam]

/-- After `set_params(random_state=n)` the object has no generator, every draw raises, and `get_params()` still reports
the old seed. -/
theorem C39_set_params_seed {v : Rs} {o : RsObj} (h : setRandomState v = .ok o) (n : Int) :
    (o.setParams (.int n)).draw = .error .attributeError ∧ (o.setParams .none).draw = .error .attributeError ∧
    (o.setParams (.int n)).getParam = v := by
  cases v <;> simp only [setRandomState] at h <;> first
    | (cases h; done)
    | (cases h; exact ⟨rfl, rfl, rfl⟩)
    | (split at h <;> cases h; exact ⟨rfl, rfl, rfl⟩)

/-- `fit` trains the classifier on the output of the oversampler, `predict` asks that classifier about the rows as given. -/
theorem C39_osclf {D β : Type} (inst : D → List Row → List Int → Res (List Row × List Int)) (o c : D)
    (model : List Row × List Int → List Row → Res β) (X : List Row) (y : List Int) (T : List Row) :
    (do let s ← (OsClf.new inst o c).fit X y; s.predict model T) = (do let d ← inst o X y; model d T) := by
  unfold OsClf.fit OsClf.new OsClf.predict
  dsimp only
  cases inst o X y <;> rfl

/-- After `fit`, `classes_` are the different labels of the oversampled data, in ascending order. -/
theorem C39_osclf_classes {D : Type} {inst : D → List Row → List Int → Res (List Row × List Int)} {o c : D} {X : List Row} {y : List Int}
    {r : OsClf D} (h : (OsClf.new inst o c).fit X y = .ok r) :
    ∃ (X' : List Row) (y' l : List Int), inst o X y = .ok (X', y') ∧ r.classes = some l ∧ (∀ v, v ∈ l ↔ v ∈ y') ∧ l.Pairwise (· < ·) := by
  unfold OsClf.fit OsClf.new at h
  obtain ⟨d, hd, h⟩ := bind_ok.1 h
  injection h with h
  refine ⟨d.1, d.2, npUnique d.2, hd, by rw [← h], fun v => mem_npUnique, npUnique_sorted d.2⟩

/-- `set_params` behaves like a new object: whatever was fitted is gone, and a later fit does not depend on it. -/
theorem C39_osclf_set_params {D β : Type} (inst : D → List Row → List Int → Res (List Row × List Int)) (s : OsClf D)
    (o c : Option D) (model : List Row × List Int → List Row → Res β) (X : List Row) (y : List Int) (T : List Row) :
    (s.setParams inst o c).predict model T = .error .attributeError ∧
    (do let r ← (s.setParams inst o c).fit X y; r.predict model T) =
      (do let r ← (OsClf.new inst (o.getD s.oversampler) (c.getD s.classifier)).fit X y; r.predict model T) := by
  refine ⟨rfl, ?_⟩
  unfold OsClf.fit OsClf.new OsClf.predict OsClf.setParams
  dsimp only

/-- An oversampler that projects the data (here: keeps the first coordinate) leaves a classifier that gets rows of another
length at prediction. -/
theorem C39_osclf_dimension : ∃ (inst : Unit → List Row → List Int → Res (List Row × List Int))
    (model : List Row × List Int → List Row → Res (List Int)),
    (∀ d X, (∃ r ∈ d.1, ∃ x ∈ X, r.length ≠ x.length) → model d X = .error .valueError) ∧
    ∃ X y, (∃ d, inst () X y = .ok d) ∧
      (do let s ← (OsClf.new inst () ()).fit X y; s.predict model X) = .error .valueError := by
  refine ⟨fun _ X y => .ok (X.map (List.take 1), y), fun d X =>
    if d.1.all (fun r => X.all (fun x => decide (r.length = x.length))) then .ok d.2 else .error .valueError, ?_, ?_⟩
  · rintro d X ⟨r, hr, x, hx, hne⟩
    dsimp only
    rw [if_neg]
    intro h
    rw [List.all_eq_true] at h
    have := h r hr
    rw [List.all_eq_true] at this
    exact hne (of_decide_eq_true (this x hx))
  · exact ⟨[[1, 2], [3, 4]], [0, 1], ⟨_, rfl⟩, by decide +kernel⟩

/-- `ADASYN(proportion=0)` falls back to `beta`, `MSYN(proportion=0)` uses 0; any other proportion wins over the second
name, and both are stable under get_params round trips. -/
theorem C39_pick (p : Option ℚ) (b : ℚ) :
    (∀ q, p = some q → q ≠ 0 → pickOr p b = q) ∧ pickOr (some 0) b = b ∧ pickOr none b = b ∧
    pickOr (some (pickOr p b)) b = pickOr p b ∧
    (∀ q, p = some q → pickCoalesce p b = some q) ∧ pickCoalesce none b = some b := by
  refine ⟨?_, by simp [pickOr], rfl, ?_, ?_, rfl⟩
  · rintro q rfl hq
    simp [pickOr, hq]
  · cases p with
    | none => by_cases h : b = 0 <;> simp [pickOr, h]
    | some q =>
      simp only [pickOr]
      split
      · simp
      · rfl
  · rintro q rfl; rfl

/-- Hypotheses met. -/
example : setRandomState (.int 5) = .ok ⟨.int 5, .seeded 5⟩ := rfl
example : Mlp.copy (V := Nat) ⟨10000, 0, 0, 0, 0, 0⟩ ⟨5, 1, 2, 3, 4, 5⟩ = ⟨10000, 1, 2, 3, 4, 5⟩ := by decide
example : (specSMOTE.name, "n_neighbors") ∉ lostParams ∧ "n_neighbors" ∈ specSMOTE.params.map Prod.fst ∧
  specSMOTE ∈ registry := by decide +kernel

end Verif

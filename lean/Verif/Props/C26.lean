import Verif.Lemmas.JobsExample

/-!
# C26 Evaluation yields one result per classifier in order, failures included
-/

namespace Verif

variable (md5 : ClfDesc × Dict String String → Nat)

/-- What a result of classifier `c` has to be: a file name, or a record naming `c`. -/
def ResultOf (j : EvalJob) (c : ClfDesc) : JobResult → Prop
  | .file k => j.cached = true ∧ k = j.key md5 c
  | .record r => j.cached = false ∧ j.compute c = .ok r

/-- `do_evaluation` returns exactly one result per classifier, in the given order: without a cache the record of that
classifier, with a cache its file. -/
theorem C26_one_result_each {j : EvalJob} {cs : List ClfDesc} {s s' : Store} {out : List JobResult}
    (h : j.doEvaluation md5 cs s = .ok (out, s')) : List.Forall₂ (ResultOf md5 j) cs out := by
  induction cs generalizing s out with
  | nil =>
    unfold EvalJob.doEvaluation at h
    injection h with h
    obtain ⟨rfl, -⟩ := Prod.mk.inj h
    exact .nil
  | cons c cs ih =>
    unfold EvalJob.doEvaluation at h
    rw [ebind_ok] at h
    obtain ⟨r, hr, h⟩ := h
    rw [ebind_ok] at h
    obtain ⟨rest, hrest, h⟩ := h
    injection h with h
    obtain ⟨rfl, rfl⟩ := Prod.mk.inj h
    refine .cons ?_ (ih hrest)
    unfold EvalJob.step at hr
    split at hr
    · rename_i hc
      injection hr with hr
      rw [← hr]
      exact ⟨hc.1, rfl⟩
    · rw [ebind_ok] at hr
      obtain ⟨rec, hrec, hr⟩ := hr
      split at hr
      · rename_i hc
        injection hr with hr
        rw [← hr]
        exact ⟨hc, rfl⟩
      · rename_i hc
        injection hr with hr
        rw [← hr]
        exact ⟨by simpa using hc, hrec⟩

/-- A computed record names its classifier and holds the probabilities of the second class, scored against the test
labels. -/
theorem C26_record_of_success {j : EvalJob} {c : ClfDesc} {clf : Clf} (hi : j.instantiate c = .ok clf)
    {p : List (List ℚ)} (hp : clf j.os.xTrain j.os.yTrain j.os.xTest = .ok p) {y1 : List ℚ}
    (h1 : List.Forall₂ (fun row v => row[1]? = some v) p y1) {sc : RV} (hs : j.scores j.os.yTest y1 = .ok sc) :
    ∃ r, j.compute c = .ok r ∧ r.get "classifier" = some (.name c.cls) ∧
      r.get "classifier_module" = some (.name c.module) ∧ r.get "classifier_params" = some (.params c.params) ∧
      r.get "y_pred" = some (.vec y1) ∧ r.get "scores" = some sc ∧ r.get "error" = some (.text none) ∧
      r.get "y_test" = some (.labels j.os.yTest) := by
  have hcol : secondColumn p = .ok y1 := by
    unfold secondColumn
    clear hp hs
    induction h1 with
    | nil => rfl
    | cons hv _ ih =>
      rw [List.mapM_cons, ih]
      unfold secondProb
      rw [hv]
      rfl
  refine ⟨j.record c y1 sc none, ?_, ?_⟩
  · unfold EvalJob.compute EvalJob.predict
    rw [hi, eok_bind, hp]
    dsimp only
    rw [show (pure (p, none) : Except Exc _) = .ok (p, none) from rfl, eok_bind, hcol, eok_bind, hs, eok_bind]
    rfl
  · simp [EvalJob.record, Dict.get]

/-- A classifier that raises `ValueError` or `RuntimeError` gets probability 0 for every test row, and its message is
recorded. -/
theorem C26_record_of_failure {j : EvalJob} {c : ClfDesc} {clf : Clf} (hi : j.instantiate c = .ok clf) {e : PyErr}
    {msg : String} (he : e = .valueError ∨ e = .runtimeError)
    (hp : clf j.os.xTrain j.os.yTrain j.os.xTest = .error (e, msg)) {sc : RV}
    (hs : j.scores j.os.yTest (List.replicate j.os.yTest.length 0) = .ok sc) :
    ∃ r, j.compute c = .ok r ∧ r.get "classifier" = some (.name c.cls) ∧
      r.get "y_pred" = some (.vec (List.replicate j.os.yTest.length 0)) ∧ r.get "scores" = some sc ∧
      r.get "error" = some (.text (some msg)) ∧ r.get "y_test" = some (.labels j.os.yTest) := by
  have hcol : ∀ n, secondColumn (List.replicate n [0, 0]) = .ok (List.replicate n 0) := by
    intro n
    induction n with
    | zero => rfl
    | succ n ih =>
      unfold secondColumn at ih ⊢
      rw [List.replicate_succ, List.mapM_cons, ih]
      rfl
  have hpred : j.predict clf = .ok (List.replicate j.os.yTest.length [0, 0], some msg) := by
    unfold EvalJob.predict
    rw [hp]
    rcases he with rfl | rfl <;> rfl
  refine ⟨j.record c (List.replicate j.os.yTest.length 0) sc (some msg), ?_, ?_⟩
  · unfold EvalJob.compute
    rw [hi, eok_bind, hpred, eok_bind, hcol, eok_bind, hs, eok_bind]
    rfl
  · simp [EvalJob.record, Dict.get]

/-- Every record, of a success or of a failure, repeats where its oversampling came from. -/
theorem C26_record_provenance {j : EvalJob} {c : ClfDesc} {r : Record} (h : j.compute c = .ok r) :
    r.get "fold_descriptor" = some (.desc j.os.desc) ∧ r.get "oversampler" = some (.name j.os.className) ∧
    r.get "oversampler_params" = some (.params j.os.params) ∧ r.get "oversampling_error" = some (.text j.os.error) ∧
    r.get "oversampling_warning" = some (.text j.os.warning) ∧ r.get "oversampling_runtime" = some (.num j.os.runtime) ∧
    r.get "y_test" = some (.labels j.os.yTest) ∧ r.get "classifier" = some (.name c.cls) ∧
    r.get "classifier_params" = some (.params c.params) ∧ r.get "classifier_module" = some (.name c.module) := by
  unfold EvalJob.compute at h
  rw [ebind_ok] at h
  obtain ⟨clf, _, h⟩ := h
  rw [ebind_ok] at h
  obtain ⟨pe, _, h⟩ := h
  rw [ebind_ok] at h
  obtain ⟨y1, _, h⟩ := h
  rw [ebind_ok] at h
  obtain ⟨sc, _, h⟩ := h
  injection h with h
  subst h
  simp [EvalJob.record, Dict.get]

/-- With a collision free hash the name of the result file determines the classifier, the parameters of the oversampler and the
position of the fold. -/
theorem C26_key_determines (hinj : Function.Injective md5) {j j' : EvalJob} {c c' : ClfDesc}
    (h : j.key md5 c = j'.key md5 c') :
    c = c' ∧ j.os.params = j'.os.params ∧ j.os.desc.repeatIdx = j'.os.desc.repeatIdx ∧
      j.os.desc.foldIdx = j'.os.desc.foldIdx := by
  unfold EvalJob.key at h
  simp only [FileKey.mk.injEq, true_and] at h
  have := hinj h.2.2
  simp only [Prod.mk.injEq] at this
  exact ⟨this.1, this.2, h.1, h.2.1⟩

/-- It depends on nothing else: two oversampling results of the same oversampler on the same fold position, whatever data they
hold, share the file of every classifier. -/
theorem C26_key_inputs {j j' : EvalJob} (c : ClfDesc) (h1 : j.os.params = j'.os.params)
    (h2 : j.os.desc.repeatIdx = j'.os.desc.repeatIdx) (h3 : j.os.desc.foldIdx = j'.os.desc.foldIdx) :
    j.key md5 c = j'.key md5 c := by
  unfold EvalJob.key
  rw [h1, h2, h3]

/-- Cached, complete results are not recomputed: the classifier is not even instantiated. -/
theorem C26_hit {j : EvalJob} (hc : j.cached = true) (hn : j.reset = false) {c : ClfDesc} {s : Store} {r : Record}
    (hs : s (j.key md5 c) = some (.good r)) : j.step md5 c s = .ok (.file (j.key md5 c), s) := by
  unfold EvalJob.step
  rw [if_pos ⟨hc, by unfold Store.damaged; rw [hs], hn⟩]
  rfl

/-- Missing or torn results, and all results when `reset` is set, are computed and stored. -/
theorem C26_miss {j : EvalJob} (hc : j.cached = true) {c : ClfDesc} {s : Store} {r : Record}
    (hmiss : s (j.key md5 c) = none ∨ s (j.key md5 c) = some .torn ∨ j.reset = true) (hr : j.compute c = .ok r) :
    j.step md5 c s = .ok (.file (j.key md5 c), Function.update s (j.key md5 c) (some (.good r))) := by
  have hcond : ¬ (j.cached = true ∧ s.damaged (j.key md5 c) = false ∧ j.reset = false) := by
    rintro ⟨-, hd, hrs⟩
    unfold Store.damaged at hd
    rcases hmiss with h | h | h
    · rw [h] at hd; simp at hd
    · rw [h] at hd; simp at hd
    · rw [h] at hrs; simp at hrs
  unfold EvalJob.step
  rw [if_neg hcond, hr, eok_bind, if_pos hc]
  rfl

/-- After a cached evaluation every classifier of the list has a complete file. -/
theorem C26_all_files_present {j : EvalJob} (hc : j.cached = true) {cs : List ClfDesc} {s s' : Store}
    {out : List JobResult} (h : j.doEvaluation md5 cs s = .ok (out, s')) :
    ∀ c ∈ cs, ∃ r, s' (j.key md5 c) = some (.good r) := by
  -- complete files stay complete
  have keep : ∀ (cs : List ClfDesc) (s s' : Store) (out : List JobResult),
      j.doEvaluation md5 cs s = .ok (out, s') → ∀ k r, s k = some (.good r) → ∃ r', s' k = some (.good r') := by
    intro cs
    induction cs with
    | nil =>
      intro s s' out h k r hk
      unfold EvalJob.doEvaluation at h
      injection h with h
      obtain ⟨-, rfl⟩ := Prod.mk.inj h
      exact ⟨r, hk⟩
    | cons c cs ih =>
      intro s s' out h k r hk
      unfold EvalJob.doEvaluation at h
      rw [ebind_ok] at h
      obtain ⟨⟨res, s1⟩, hr, h⟩ := h
      rw [ebind_ok] at h
      obtain ⟨rest, hrest, h⟩ := h
      injection h with h
      obtain ⟨-, rfl⟩ := Prod.mk.inj h
      have : ∃ r1, s1 k = some (.good r1) := by
        unfold EvalJob.step at hr
        split at hr
        · injection hr with hr
          obtain ⟨-, rfl⟩ := Prod.mk.inj hr
          exact ⟨r, hk⟩
        · rw [ebind_ok] at hr
          obtain ⟨rec, hrec, hr⟩ := hr
          try rw [if_pos hc] at hr
          injection hr with hr
          obtain ⟨-, rfl⟩ := Prod.mk.inj hr
          by_cases hkk : k = j.key md5 c
          · exact ⟨rec, by rw [hkk]; simp⟩
          · exact ⟨r, by simp [hkk, hk]⟩
      obtain ⟨r1, h1⟩ := this
      exact ih s1 rest.2 rest.1 hrest k r1 h1
  induction cs generalizing s out with
  | nil => intro c hc'; simp at hc'
  | cons c cs ih =>
    unfold EvalJob.doEvaluation at h
    rw [ebind_ok] at h
    obtain ⟨⟨res, s1⟩, hr, h⟩ := h
    rw [ebind_ok] at h
    obtain ⟨rest, hrest, h⟩ := h
    injection h with h
    obtain ⟨-, rfl⟩ := Prod.mk.inj h
    intro c' hc'
    rcases List.mem_cons.1 hc' with rfl | hc'
    · have : ∃ r1, s1 (j.key md5 c') = some (.good r1) := by
        unfold EvalJob.step at hr
        split at hr
        · rename_i hd
          injection hr with hr
          obtain ⟨-, rfl⟩ := Prod.mk.inj hr
          have := hd.2.1
          unfold Store.damaged at this
          split at this
          · rename_i r hgood; exact ⟨r, hgood⟩
          · simp at this
        · rw [ebind_ok] at hr
          obtain ⟨rec, hrec, hr⟩ := hr
          try rw [if_pos hc] at hr
          injection hr with hr
          obtain ⟨-, rfl⟩ := Prod.mk.inj hr
          exact ⟨rec, by simp⟩
      obtain ⟨r1, h1⟩ := this
      exact keep cs s1 rest.2 rest.1 hrest _ r1 h1
    · exact ih hrest c' hc'

/-- A classifier trained on a single class returns one column: the evaluation of the whole list ends with
`IndexError`. -/
theorem C26_single_class_raises {j : EvalJob} {c : ClfDesc} {clf : Clf} (hi : j.instantiate c = .ok clf)
    {v : ℚ} {p : List (List ℚ)} (hp : clf j.os.xTrain j.os.yTrain j.os.xTest = .ok ([v] :: p))
    (hc : j.cached = false) (cs : List ClfDesc) (s : Store) :
    ∃ msg, j.doEvaluation md5 (c :: cs) s = .error (.indexError, msg) := by
  have hcomp : ∃ msg, j.compute c = .error (.indexError, msg) := by
    refine ⟨"index 1 is out of bounds for axis 1 with size 1", ?_⟩
    · unfold EvalJob.compute EvalJob.predict
      rw [hi, eok_bind, hp]
      rfl
  obtain ⟨msg, hm⟩ := hcomp
  refine ⟨msg, ?_⟩
  unfold EvalJob.doEvaluation EvalJob.step
  rw [if_neg (by simp [hc]), hm]
  rfl

/-- A concrete evaluation job: the classifier `good` predicts one half, `bad` raises. -/
def exEval : EvalJob where
  os := ⟨⟨0, 0, 0⟩, [], "SMOTE", [[0], [1]], [0, 1], [[2], [3]], [0, 1], none, none, 1, none⟩
  cached := false
  reset := false
  instantiate := fun c => .ok (fun _ _ xt => if c.cls = "bad" then .error (.valueError, "no")
    else .ok (xt.map (fun _ => [1 / 2, 1 / 2])))
  elapsed := fun _ => 1
  warnings := fun _ => "[]"
  scores := fun _ _ => .ok (.num 0)

/-- Hypotheses met: a mix of failing and succeeding classifiers is evaluated to the end. -/
example : ∃ out s', exEval.doEvaluation (fun _ => 0) [⟨"m", "bad", []⟩, ⟨"m", "good", []⟩] (fun _ => none)
    = .ok (out, s') ∧ out.length = 2 := ⟨_, _, rfl, rfl⟩

end Verif

import Verif.Spec.Evaluation
import Verif.Lemmas.Jobs

/-! Lemmas about the whole evaluation. -/

namespace Verif

/-- The part of a sampling record that does not depend on the run. -/
structure OsCore where
  params : Dict String String
  x : List Row
  y : List Int
  xt : List Row
  err : Option String

/-- A run without any times and warnings. -/
def obs0 : Obs := ⟨fun _ _ => 0, fun _ _ => "", fun _ _ => 0, fun _ _ => "", fun _ _ => false⟩

/-- What a sampling job computes. -/
def osCore (B : Bench) (f : Fold) (o : OsArg) : Except Exc OsCore :=
  match B.instOs o.1 o.2 with
  | .error e => .error e
  | .ok a =>
    match (B.sampJob obs0 true f o).attempt a with
    | .ok s => .ok ⟨coalesceDict (some a.getParams) o.2, s.1.1, s.1.2, s.2, none⟩
    | .error e =>
      if e.1 = .valueError ∨ e.1 = .runtimeError then
        .ok ⟨coalesceDict (some a.getParams) o.2, (B.sampJob obs0 true f o).scaled.1, f.item.yTrain,
          (B.sampJob obs0 true f o).scaled.2, some e.2⟩
      else .error e

/-- The record of a sampling job. -/
def osRec (f : Fold) (c : OsCore) (t : ℚ) (w : String) : Record :=
  sampRecord f.desc f.item.yTest c.params c.x c.y c.xt t c.err (some w)

theorem samp_compute (B : Bench) (ob : Obs) (cc : Bool) (f : Fold) (o : OsArg) :
    (B.sampJob ob cc f o).compute = (osCore B f o).map (fun c => osRec f c (ob.osElapsed f o) (ob.osWarnings f o)) := by
  unfold osCore
  cases hi : B.instOs o.1 o.2 with
  | error e =>
    have : (B.sampJob ob cc f o).instantiate (B.sampJob ob cc f o).oversampler (B.sampJob ob cc f o).params = .error e :=
      hi
    unfold SampJob.compute
    rw [this]
    rfl
  | ok a =>
    have hi' : (B.sampJob ob cc f o).instantiate (B.sampJob ob cc f o).oversampler (B.sampJob ob cc f o).params = .ok a :=
      hi
    have ha : (B.sampJob ob cc f o).attempt a = (B.sampJob obs0 true f o).attempt a := rfl
    cases h : (B.sampJob obs0 true f o).attempt a with
    | ok s =>
      rw [compute_ok hi' (ha.trans h)]
      simp only [h]
      rfl
    | error e =>
      by_cases hc : e.1 = .valueError ∨ e.1 = .runtimeError
      · rw [compute_failed hi' hc (msg := e.2) (ha.trans h)]
        simp only [h, if_pos hc]
        rfl
      · rw [compute_other hi' (fun h => hc (Or.inl h)) (fun h => hc (Or.inr h)) (ha.trans h)]
        simp only [h, if_neg hc]
        rfl

/-- The sampling record as the evaluation sees it. -/
def osSeen (f : Fold) (c : OsCore) (cls : String) (t : ℚ) (w : String) (file : Option String) : OsRecord :=
  ⟨f.desc, c.params, cls, c.x, c.y, c.xt, f.item.yTest, c.err, some w, t, file⟩

theorem readOs_osRec (file : Option String) (f : Fold) (c : OsCore) (t : ℚ) (w : String) :
    readOs file (osRec f c t w) = match c.params.get "class_name" with
      | some cls => .ok (osSeen f c cls t w file)
      | none => .error (.keyError, "class_name") := by
  simp [readOs, osRec, sampRecord, Dict.get, osSeen]
  cases c.params.get "class_name" <;> rfl

/-- What an evaluation job computes: prediction, scores and error. -/
def evCore (B : Bench) (f : Fold) (c : OsCore) (clf : ClfDesc) : Except Exc (List ℚ × RV × Option String) := do
  let k ← B.instClf clf
  let pe ← (B.evalJob obs0 true (osSeen f c "" 0 "" none)).predict k
  let y1 ← secondColumn pe.1
  let sc ← B.scores f.item.yTest y1
  pure (y1, sc, pe.2)

/-- The record of an evaluation. -/
def evRec (B : Bench) (ob : Obs) (os : OsRecord) (clf : ClfDesc) (v : List ℚ × RV × Option String) : Record :=
  (B.evalJob ob true os).record clf v.1 v.2.1 v.2.2

theorem eval_compute (B : Bench) (ob : Obs) (cc : Bool) (f : Fold) (c : OsCore) (cls : String) (t : ℚ) (w : String)
    (file : Option String) (clf : ClfDesc) :
    (B.evalJob ob cc (osSeen f c cls t w file)).compute clf =
      (evCore B f c clf).map (evRec B ob (osSeen f c cls t w file) clf) := by
  unfold EvalJob.compute evCore
  show (B.instClf clf >>= _) = _
  cases hk : B.instClf clf with
  | error e => rfl
  | ok k =>
    rw [eok_bind, eok_bind]
    show ((B.evalJob obs0 true (osSeen f c "" 0 "" none)).predict k >>= _) = _
    cases hp : (B.evalJob obs0 true (osSeen f c "" 0 "" none)).predict k with
    | error e => rfl
    | ok pe =>
      rw [eok_bind, eok_bind]
      cases hy : secondColumn pe.1 with
      | error e => rfl
      | ok y1 =>
        rw [eok_bind, eok_bind]
        show (B.scores f.item.yTest y1 >>= _) = _
        cases hs : B.scores f.item.yTest y1 with
        | error e => rfl
        | ok sc => rfl

theorem emap_ok {ε α β : Type} {x : Except ε α} {g : α → β} {b : β} :
    x.map g = .ok b ↔ ∃ a, x = .ok a ∧ g a = b := by
  cases x with
  | error e => simp [Except.map]
  | ok a => simp [Except.map]

theorem sameBut_of_forall {fields : List String} {r r' : Record}
    (h : List.Forall₂ (fun a b => a.1 = b.1 ∧ (a.2 = b.2 ∨ a.1 ∈ fields)) r r') : SameBut fields r r' := by
  induction h with
  | nil => exact ⟨rfl, fun _ _ => rfl⟩
  | @cons a b l l' hab _ ih =>
    obtain ⟨ka, va⟩ := a
    obtain ⟨kb, vb⟩ := b
    obtain ⟨hk, hv⟩ := hab
    simp only at hk hv
    subst hk
    refine ⟨by simp only [Dict.keys, List.map_cons, List.cons.injEq, true_and]; exact ih.1, fun k hkf => ?_⟩
    unfold Dict.get
    by_cases e : ka = k
    · rw [if_pos e, if_pos e]
      rcases hv with rfl | hv
      · rfl
      · exact absurd (e ▸ hv) hkf
    · rw [if_neg e, if_neg e]
      exact ih.2 k hkf

/-- Two evaluations of the same combination, in different runs, agree but for the volatile fields. -/
theorem evRec_same (B : Bench) (ob ob' : Obs) (f : Fold) (c : OsCore) (cls : String) (t t' : ℚ) (w w' : String)
    (fn fn' : Option String) (clf : ClfDesc) (v : List ℚ × RV × Option String) :
    SameBut volatileFields (evRec B ob (osSeen f c cls t w fn) clf v) (evRec B ob' (osSeen f c cls t' w' fn') clf v) := by
  apply sameBut_of_forall
  unfold evRec EvalJob.record
  refine .cons ⟨rfl, Or.inl rfl⟩ (.cons ⟨rfl, Or.inl rfl⟩ (.cons ⟨rfl, Or.inl rfl⟩ (.cons ⟨rfl, Or.inl rfl⟩
    (.cons ⟨rfl, Or.inl rfl⟩ (.cons ⟨rfl, Or.inr ?_⟩ (.cons ⟨rfl, Or.inr ?_⟩ (.cons ⟨rfl, Or.inr ?_⟩
    (.cons ⟨rfl, Or.inr ?_⟩ (.cons ⟨rfl, Or.inl rfl⟩ (.cons ⟨rfl, Or.inl rfl⟩ (.cons ⟨rfl, Or.inl rfl⟩
    (.cons ⟨rfl, Or.inl rfl⟩ (.cons ⟨rfl, Or.inl rfl⟩ (.cons ⟨rfl, Or.inl rfl⟩ (.cons ⟨rfl, Or.inl rfl⟩
    (.cons ⟨rfl, Or.inr ?_⟩ .nil)))))))))))))))) <;> simp [volatileFields]

/-- The outcome of a combination, spelled out. -/
def Outcome (B : Bench) (f : Fold) (o : OsArg) (clf : ClfDesc) (r : Record) : Prop :=
  ∃ c cls v ob t w fn, osCore B f o = .ok c ∧ c.params.get "class_name" = some cls ∧ evCore B f c clf = .ok v ∧
    r = evRec B ob (osSeen f c cls t w fn) clf v

/-- Without a cache the rounds of an evaluation do not touch the store. -/
theorem doEvaluation_plain (md5 : ClfDesc × Dict String String → Nat) {j : EvalJob} (hj : j.cached = false)
    (clfs : List ClfDesc) (s : Store) :
    j.doEvaluation md5 clfs s = (clfs.mapM j.compute).map (fun l => (l.map JobResult.record, s)) := by
  induction clfs with
  | nil => rfl
  | cons c cs ih =>
    unfold EvalJob.doEvaluation
    have hstep : j.step md5 c s = (j.compute c).map (fun r => (.record r, s)) := by
      unfold EvalJob.step
      rw [if_neg (by simp [hj])]
      cases j.compute c with
      | error e => rfl
      | ok r => rw [eok_bind, if_neg (by simp [hj])]; rfl
    rw [hstep, List.mapM_cons]
    cases j.compute c with
    | error e => rfl
    | ok r =>
      show (j.doEvaluation md5 cs s >>= _) = _
      rw [ih]
      cases cs.mapM j.compute with
      | error e => rfl
      | ok l => rfl

/-- What a job without a cache returns for one oversampler. -/
theorem plainOne_eq (B : Bench) (ob : Obs) (clfs : List ClfDesc) (f : Fold) (o : OsArg) :
    B.plainOne ob clfs f o = (do
      let c ← osCore B f o
      let cls ← (match c.params.get "class_name" with
        | some cls => .ok cls
        | none => .error (.keyError, "class_name") : Except Exc String)
      let os := osSeen f c cls (ob.osElapsed f o) (ob.osWarnings f o) none
      let l ← clfs.mapM (fun clf => (evCore B f c clf).map (evRec B ob os clf))
      pure (l.map JobResult.record)) := by
  unfold Bench.plainOne SampJob.doOversampling SampJob.run
  rw [if_neg (by simp [Bench.sampJob]), samp_compute]
  cases hc : osCore B f o with
  | error e => rfl
  | ok c =>
    rw [eok_bind]
    show (B.osOf _ (.record (osRec f c (ob.osElapsed f o) (ob.osWarnings f o))) >>= _) = _
    rw [show B.osOf (fun _ => none) (.record (osRec f c (ob.osElapsed f o) (ob.osWarnings f o))) =
      readOs none (osRec f c (ob.osElapsed f o) (ob.osWarnings f o)) from rfl, readOs_osRec]
    cases hcl : c.params.get "class_name" with
    | none => rfl
    | some cls =>
      simp only
      rw [eok_bind, eok_bind, doEvaluation_plain B.md5Clf rfl]
      rw [show (B.evalJob ob false (osSeen f c cls (ob.osElapsed f o) (ob.osWarnings f o) none)).compute =
        fun clf => (evCore B f c clf).map (evRec B ob (osSeen f c cls (ob.osElapsed f o) (ob.osWarnings f o) none) clf)
        from funext (fun clf => eval_compute ..)]
      cases clfs.mapM (fun clf => (evCore B f c clf).map
        (evRec B ob (osSeen f c cls (ob.osElapsed f o) (ob.osWarnings f o) none) clf)) with
      | error e => rfl
      | ok l => rfl

/-- A genuine result is an outcome, and the other way round up to the volatile fields. -/
theorem genuine_of_outcome {B : Bench} {f : Fold} {o : OsArg} {clf : ClfDesc} {r : Record} (h : Outcome B f o clf r) :
    Genuine B f o clf r := by
  obtain ⟨c, cls, v, ob, t, w, fn, hc, hcl, hv, rfl⟩ := h
  refine ⟨ob, evRec B ob (osSeen f c cls (ob.osElapsed f o) (ob.osWarnings f o) none) clf v, ?_, evRec_same ..⟩
  unfold Bench.execute1Job
  rw [List.mapM_cons, plainOne_eq, hc, eok_bind]
  simp only [hcl]
  rw [eok_bind]
  simp only [List.mapM_cons, hv]
  rfl

end Verif

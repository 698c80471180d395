import Verif.Lemmas.EvaluationInv

/-! Runs with a cache directory. -/

namespace Verif

variable {B : Bench} {F : List Fold} {O : List OsArg} {C : List ClfDesc}

theorem osOf_kept {s s' : Store} (hk : Kept s s') {k : FileKey} {os : OsRecord} (h : B.osOf s (.file k) = .ok os) :
    B.osOf s' (.file k) = .ok os := by
  unfold Bench.osOf at h ⊢
  simp only at h ⊢
  split at h
  · rename_i r hr
    rw [hk k r hr]
    exact h
  · cases h
  · cases h

/-- The sampling jobs of a run. -/
theorem sampAll_spec {ob : Obs} {js : List (Fold × OsArg)} (hj : ∀ j ∈ js, j.1 ∈ F ∧ j.2 ∈ O)
    {s s' : Store} {rs : List JobResult} (hh : History B F O C s) (h : B.sampAll ob js s = .ok (rs, s')) :
    rs = js.map (fun j => .file (osKey B j.1 j.2)) ∧ History B F O C s' ∧ Kept s s' ∧
      ∀ j ∈ js, ∃ r, s' (osKey B j.1 j.2) = some (.good r) := by
  induction js generalizing s rs with
  | nil =>
    unfold Bench.sampAll at h
    injection h with h
    obtain ⟨rfl, rfl⟩ := Prod.mk.inj h
    exact ⟨rfl, hh, Kept.refl _, fun _ h => by simp at h⟩
  | cons j js ih =>
    unfold Bench.sampAll at h
    rw [ebind_ok] at h
    obtain ⟨⟨r, s1⟩, hr, h⟩ := h
    rw [ebind_ok] at h
    obtain ⟨⟨rest, s2⟩, hrest, h⟩ := h
    injection h with h
    obtain ⟨rfl, rfl⟩ := Prod.mk.inj h
    have hjm := hj j List.mem_cons_self
    obtain ⟨h1, h2, h3, h4⟩ := ih (fun q hq => hj q (List.mem_cons_of_mem _ hq)) (.samp hh hjm.1 hjm.2 hr) hrest
    obtain ⟨e1, e2⟩ := samp_step hr
    refine ⟨?_, h2, (samp_kept hr).trans h3, ?_⟩
    · simp only [List.map_cons]
      rw [← e1, ← h1]
    · intro q hq
      rcases List.mem_cons.1 hq with rfl | hq
      · rcases e2 with ⟨rfl, rec, hrec⟩ | ⟨-, c, -, rfl⟩
        · exact ⟨rec, h3 _ _ hrec⟩
        · exact ⟨_, h3 _ _ (Function.update_self ..)⟩
      · exact h4 q hq

/-- A run does all its sampling jobs when each of them can be done. -/
theorem sampAll_ok {ob : Obs} {js : List (Fold × OsArg)} (hc : ∀ j ∈ js, ∃ c, osCore B j.1 j.2 = .ok c) (s : Store) :
    ∃ p, B.sampAll ob js s = .ok p := by
  induction js generalizing s with
  | nil => exact ⟨_, rfl⟩
  | cons j js ih =>
    obtain ⟨c, hcj⟩ := hc j List.mem_cons_self
    have : ∃ p, (B.sampJob ob true j.1 j.2).doOversampling B.md5Os s = .ok p := by
      unfold SampJob.doOversampling SampJob.run
      split
      · exact ⟨_, rfl⟩
      · rw [samp_compute, hcj]
        exact ⟨_, rfl⟩
    obtain ⟨p, hp⟩ := this
    obtain ⟨q, hq⟩ := ih (fun j hj => hc j (List.mem_cons_of_mem _ hj)) p.2
    unfold Bench.sampAll
    rw [hp, eok_bind, hq]
    exact ⟨_, rfl⟩

/-- The rounds of an evaluation job. -/
theorem doEvaluation_spec {ob : Obs} {f : Fold} (hf : f ∈ F) {o : OsArg} (ho : o ∈ O)
    {c : OsCore} {cls : String} {t : ℚ} {w : String} {fn : Option String}
    {clfs : List ClfDesc} {s s' : Store} {out : List JobResult} (hl : ∀ c ∈ clfs, c ∈ C) (hh : History B F O C s)
    (hos : B.osOf s (.file (osKey B f o)) = .ok (osSeen f c cls t w fn))
    (h : (B.evalJob ob true (osSeen f c cls t w fn)).doEvaluation B.md5Clf clfs s = .ok (out, s')) :
    out = clfs.map (fun clf => .file (evKey B f c.params clf)) ∧ History B F O C s' ∧ Kept s s' ∧
      ∀ clf ∈ clfs, ∃ r, s' (evKey B f c.params clf) = some (.good r) := by
  induction clfs generalizing s out with
  | nil =>
    unfold EvalJob.doEvaluation at h
    injection h with h
    obtain ⟨rfl, rfl⟩ := Prod.mk.inj h
    exact ⟨rfl, hh, Kept.refl _, fun _ h => by simp at h⟩
  | cons clf clfs ih =>
    unfold EvalJob.doEvaluation at h
    rw [ebind_ok] at h
    obtain ⟨⟨r, s1⟩, hr, h⟩ := h
    rw [ebind_ok] at h
    obtain ⟨⟨rest, s2⟩, hrest, h⟩ := h
    injection h with h
    obtain ⟨rfl, rfl⟩ := Prod.mk.inj h
    obtain ⟨e1, e2⟩ := eval_step hr
    have hk1 : Kept s s1 := by
      rcases e2 with ⟨rfl, -⟩ | ⟨hd, v, -, rfl⟩
      · exact Kept.refl _
      · exact kept_of_damaged hd _
    obtain ⟨h1, h2, h3, h4⟩ := ih (fun q hq => hl q (List.mem_cons_of_mem _ hq)) (.eval hh hf ho (hl clf List.mem_cons_self) hos hr) (osOf_kept hk1 hos) hrest
    refine ⟨?_, h2, hk1.trans h3, ?_⟩
    · simp only [List.map_cons]
      rw [← e1, ← h1]
    · intro q hq
      rcases List.mem_cons.1 hq with rfl | hq
      · rcases e2 with ⟨rfl, rec, hrec⟩ | ⟨-, v, -, rfl⟩
        · exact ⟨rec, h3 _ _ hrec⟩
        · exact ⟨_, h3 _ _ (Function.update_self ..)⟩
      · exact h4 q hq

theorem doEvaluation_ok {ob : Obs} {f : Fold} {c : OsCore} {cls : String} {t : ℚ} {w : String} {fn : Option String}
    {clfs : List ClfDesc} (hv : ∀ clf ∈ clfs, ∃ v, evCore B f c clf = .ok v) (s : Store) :
    ∃ p, (B.evalJob ob true (osSeen f c cls t w fn)).doEvaluation B.md5Clf clfs s = .ok p := by
  induction clfs generalizing s with
  | nil => exact ⟨_, rfl⟩
  | cons clf clfs ih =>
    obtain ⟨v, hvc⟩ := hv clf List.mem_cons_self
    have : ∃ p, (B.evalJob ob true (osSeen f c cls t w fn)).step B.md5Clf clf s = .ok p := by
      unfold EvalJob.step
      split
      · exact ⟨_, rfl⟩
      · rw [eval_compute, hvc]
        exact ⟨_, rfl⟩
    obtain ⟨p, hp⟩ := this
    obtain ⟨q, hq⟩ := ih (fun j hj => hv j (List.mem_cons_of_mem _ hj)) p.2
    unfold EvalJob.doEvaluation
    rw [hp, eok_bind, hq]
    exact ⟨_, rfl⟩

/-- What the results of one sampling job's evaluations are. -/
def EvalResults (B : Bench) (clfs : List ClfDesc) (s : Store) (j : Fold × OsArg) (l : List JobResult) : Prop :=
  ∃ c cls, osCore B j.1 j.2 = .ok c ∧ c.params.get "class_name" = some cls ∧
    l = clfs.map (fun clf => .file (evKey B j.1 c.params clf)) ∧
    ∀ clf ∈ clfs, ∃ r, s (evKey B j.1 c.params clf) = some (.good r)

/-- The evaluation jobs of a run. -/
theorem evalAll_spec (hs : Settled B F O C) {ob : Obs} {clfs : List ClfDesc} (hl : ∀ c ∈ clfs, c ∈ C) {js : List (Fold × OsArg)}
    (hj : ∀ j ∈ js, j.1 ∈ F ∧ j.2 ∈ O) {s s' : Store} {out : List (List JobResult)} (hh : History B F O C s)
    (h : B.evalAll ob clfs (js.map (fun j => some (.file (osKey B j.1 j.2)))) s = .ok (out, s')) :
    History B F O C s' ∧ Kept s s' ∧ List.Forall₂ (EvalResults B clfs s') js out := by
  induction js generalizing s out with
  | nil =>
    unfold Bench.evalAll at h
    injection h with h
    obtain ⟨rfl, rfl⟩ := Prod.mk.inj h
    exact ⟨hh, Kept.refl _, .nil⟩
  | cons j js ih =>
    rw [List.map_cons] at h
    unfold Bench.evalAll at h
    rw [ebind_ok] at h
    obtain ⟨⟨l, s1⟩, hrun, h⟩ := h
    rw [ebind_ok] at h
    obtain ⟨⟨rest, s2⟩, hrest, h⟩ := h
    injection h with h
    obtain ⟨rfl, rfl⟩ := Prod.mk.inj h
    have hjm := hj j List.mem_cons_self
    unfold Bench.execute1Eval at hrun
    simp only at hrun
    rw [ebind_ok] at hrun
    obtain ⟨os, hos, hrun⟩ := hrun
    obtain ⟨c, cls, t, w, hc, hcls, rfl⟩ := osOf_inv (hh.inv hs) hjm.1 hjm.2 hos
    obtain ⟨e1, e2, e3, e4⟩ := doEvaluation_spec hjm.1 hjm.2 hl hh hos hrun
    obtain ⟨h1, h2, h3⟩ := ih (fun q hq => hj q (List.mem_cons_of_mem _ hq)) e2 hrest
    refine ⟨h1, e3.trans h2, .cons ⟨c, cls, hc, hcls, e1, ?_⟩ h3⟩
    intro clf hclf
    obtain ⟨r, hr⟩ := e4 clf hclf
    exact ⟨r, h2 _ _ hr⟩

/-- A combination of a fold and an oversampler can be evaluated with the classifiers. -/
def Works (B : Bench) (clfs : List ClfDesc) (j : Fold × OsArg) : Prop :=
  ∃ c cls, osCore B j.1 j.2 = .ok c ∧ c.params.get "class_name" = some cls ∧
    ∀ clf ∈ clfs, ∃ v, evCore B j.1 c clf = .ok v

theorem evalAll_ok (hs : Settled B F O C) {ob : Obs} {clfs : List ClfDesc} (hl : ∀ c ∈ clfs, c ∈ C) {js : List (Fold × OsArg)}
    (hj : ∀ j ∈ js, j.1 ∈ F ∧ j.2 ∈ O) (hw : ∀ j ∈ js, Works B clfs j) {s : Store} (hh : History B F O C s)
    (hf : ∀ j ∈ js, ∃ r, s (osKey B j.1 j.2) = some (.good r)) :
    ∃ p, B.evalAll ob clfs (js.map (fun j => some (.file (osKey B j.1 j.2)))) s = .ok p := by
  induction js generalizing s with
  | nil => exact ⟨_, rfl⟩
  | cons j js ih =>
    have hjm := hj j List.mem_cons_self
    obtain ⟨c, cls, hc, hcls, hv⟩ := hw j List.mem_cons_self
    obtain ⟨r, hr⟩ := hf j List.mem_cons_self
    obtain ⟨c', t, w, hc', rfl⟩ := (hh.inv hs).samp j.1 hjm.1 j.2 hjm.2 r hr
    rw [hc] at hc'
    injection hc' with hc'
    subst hc'
    have hos : B.osOf s (.file (osKey B j.1 j.2)) = .ok (osSeen j.1 c cls t w (some (B.path (osKey B j.1 j.2)))) := by
      unfold Bench.osOf
      simp only [hr]
      rw [readOs_osRec, hcls]
    obtain ⟨⟨l, s1⟩, hrun⟩ := doEvaluation_ok (ob := ob) (cls := cls) (t := t) (w := w)
      (fn := some (B.path (osKey B j.1 j.2))) hv s
    obtain ⟨e1, e2, e3, e4⟩ := doEvaluation_spec hjm.1 hjm.2 hl hh hos hrun
    obtain ⟨q, hq⟩ := ih (fun q hq => hj q (List.mem_cons_of_mem _ hq)) (fun q hq => hw q (List.mem_cons_of_mem _ hq)) e2
      (fun q hq => by
        obtain ⟨r, hr⟩ := hf q (List.mem_cons_of_mem _ hq)
        exact ⟨r, e3 _ _ hr⟩)
    rw [List.map_cons]
    unfold Bench.evalAll Bench.execute1Eval
    simp only
    rw [hos, eok_bind, hrun, eok_bind, hq]
    exact ⟨_, rfl⟩

theorem emapM_ok {ε α β : Type} {g : α → Except ε β} {l : List α} {out : List β} :
    l.mapM g = .ok out ↔ List.Forall₂ (fun a b => g a = .ok b) l out := by
  induction l generalizing out with
  | nil =>
    rw [List.mapM_nil]
    constructor
    · intro h; injection h with h; subst h; exact .nil
    · intro h; cases h; rfl
  | cons a l ih =>
    rw [List.mapM_cons, ebind_ok]
    constructor
    · rintro ⟨b, hb, h⟩
      rw [ebind_ok] at h
      obtain ⟨bs, hbs, h⟩ := h
      injection h with h
      subst h
      exact .cons hb (ih.1 hbs)
    · intro h
      cases h with
      | cons hb hbs => exact ⟨_, hb, by rw [ih.2 hbs]; rfl⟩

theorem emapM_exists {ε α β : Type} {g : α → Except ε β} {l : List α} :
    (∃ out, l.mapM g = .ok out) ↔ ∀ a ∈ l, ∃ b, g a = .ok b := by
  induction l with
  | nil => exact ⟨fun _ _ h => by simp at h, fun _ => ⟨[], rfl⟩⟩
  | cons a l ih =>
    constructor
    · rintro ⟨out, h⟩
      rw [emapM_ok] at h
      cases h with
      | cons hb hbs =>
        intro q hq
        rcases List.mem_cons.1 hq with rfl | hq
        · exact ⟨_, hb⟩
        · exact ih.1 ⟨_, emapM_ok.2 hbs⟩ q hq
    · intro h
      obtain ⟨b, hb⟩ := h a List.mem_cons_self
      obtain ⟨bs, hbs⟩ := ih.2 (fun q hq => h q (List.mem_cons_of_mem _ hq))
      exact ⟨b :: bs, emapM_ok.2 (.cons hb (emapM_ok.1 hbs))⟩

theorem plainOne_exists {ob : Obs} {clfs : List ClfDesc} {f : Fold} {o : OsArg} :
    (∃ l, B.plainOne ob clfs f o = .ok l) ↔ Works B clfs (f, o) := by
  rw [plainOne_eq]
  unfold Works
  simp only
  cases hc : osCore B f o with
  | error e => simp [bind, Except.bind]
  | ok c =>
    rw [eok_bind]
    cases hcls : c.params.get "class_name" with
    | none => simp only; constructor
              · rintro ⟨l, h⟩; cases h
              · rintro ⟨c', cls, h1, h2, -⟩
                injection h1 with h1
                subst h1
                rw [hcls] at h2
                cases h2
    | some cls =>
      simp only
      rw [eok_bind]
      constructor
      · rintro ⟨l, h⟩
        rw [ebind_ok] at h
        obtain ⟨q, hq, -⟩ := h
        refine ⟨c, cls, rfl, hcls, fun clf hclf => ?_⟩
        obtain ⟨b, hb⟩ := emapM_exists.1 ⟨q, hq⟩ clf hclf
        rw [emap_ok] at hb
        obtain ⟨v, hv, -⟩ := hb
        exact ⟨v, hv⟩
      · rintro ⟨c', cls', h1, h2, h3⟩
        injection h1 with h1
        subst h1
        obtain ⟨q, hq⟩ := (emapM_exists (g := fun clf => (evCore B f c clf).map
          (evRec B ob (osSeen f c cls (ob.osElapsed f o) (ob.osWarnings f o) none) clf)) (l := clfs)).2
          (fun clf hclf => by
            obtain ⟨v, hv⟩ := h3 clf hclf
            exact ⟨_, emap_ok.2 ⟨v, hv, rfl⟩⟩)
        exact ⟨_, ebind_ok.2 ⟨q, hq, rfl⟩⟩

/-- A run without a cache returns when every combination can be evaluated. -/
theorem plain_exists {ob : Obs} {oss : List OsArg} {clfs : List ClfDesc} {folds : List Fold} :
    (∃ out, B.plain ob oss clfs folds = .ok out) ↔ ∀ j ∈ jobsOf folds oss, Works B clfs j := by
  have h1 : ∀ f, (∃ l, B.execute1Job ob oss clfs f = .ok l) ↔ ∀ o ∈ oss, Works B clfs (f, o) := by
    intro f
    unfold Bench.execute1Job
    constructor
    · rintro ⟨l, h⟩
      rw [ebind_ok] at h
      obtain ⟨q, hq, -⟩ := h
      exact fun o ho => plainOne_exists.1 (emapM_exists.1 ⟨q, hq⟩ o ho)
    · intro h
      obtain ⟨q, hq⟩ := emapM_exists.2 (fun o ho => plainOne_exists.2 (h o ho))
      exact ⟨_, ebind_ok.2 ⟨q, hq, rfl⟩⟩
  unfold Bench.plain
  constructor
  · rintro ⟨l, h⟩
    rw [ebind_ok] at h
    obtain ⟨q, hq, -⟩ := h
    rintro ⟨f, o⟩ hj
    simp only [jobsOf, List.mem_flatMap, List.mem_map, Prod.mk.injEq] at hj
    obtain ⟨f', hf', o', ho', rfl, rfl⟩ := hj
    exact (h1 f').1 (emapM_exists.1 ⟨q, hq⟩ f' hf') o' ho'
  · intro h
    obtain ⟨q, hq⟩ := emapM_exists.2 (fun f hf => (h1 f).2 (fun o ho => h (f, o) (by
      simp only [jobsOf, List.mem_flatMap, List.mem_map, Prod.mk.injEq]
      exact ⟨f, hf, o, ho, rfl, rfl⟩)))
    exact ⟨_, ebind_ok.2 ⟨q, hq, rfl⟩⟩

end Verif

import Verif.Lemmas.EvaluationRun
import Verif.Lemmas.EvaluationExample
import Verif.Lemmas.Folding
import Verif.Model.Selection
import Mathlib.Data.List.Perm.Lattice

/-!
# C122 The whole evaluation
-/

namespace Verif

variable {B : Bench} {F : List Fold} {O : List OsArg} {C : List ClfDesc}

theorem forall₂_flatten {α β : Type} {R : α → List β → Prop} {P : γ → β → Prop} {g : α → List γ} {l : List α}
    {out : List (List β)} (h : List.Forall₂ R l out) (hR : ∀ a ∈ l, ∀ b, R a b → List.Forall₂ P (g a) b) :
    List.Forall₂ P (l.flatMap g) out.flatten := by
  induction h with
  | nil => exact .nil
  | @cons a b l out hab _ ih =>
    rw [List.flatMap_cons, List.flatten_cons]
    exact List.rel_append (hR a List.mem_cons_self b hab) (ih (fun q hq => hR q (List.mem_cons_of_mem _ hq)))

theorem combos_eq (folds : List Fold) (oss : List OsArg) (clfs : List ClfDesc) :
    combos folds oss clfs = (jobsOf folds oss).flatMap (fun j => clfs.map (fun c => (j.1, j.2, c))) := by
  unfold combos jobsOf
  rw [List.flatMap_assoc]
  congr 1
  funext f
  rw [List.flatMap_map]

theorem mem_jobsOf {folds : List Fold} {oss : List OsArg} {j : Fold × OsArg} :
    j ∈ jobsOf folds oss ↔ j.1 ∈ folds ∧ j.2 ∈ oss := by
  obtain ⟨f, o⟩ := j
  simp only [jobsOf, List.mem_flatMap, List.mem_map, Prod.mk.injEq]
  constructor
  · rintro ⟨f', h1, o', h2, rfl, rfl⟩; exact ⟨h1, h2⟩
  · rintro ⟨h1, h2⟩; exact ⟨f, h1, o, h2, rfl, rfl⟩

/-- The result of a combination is determined: two genuine records agree in everything but times, warnings and the
name of the file with the oversampled data. -/
theorem C122_determined {f : Fold} {o : OsArg} {c : ClfDesc} {r r' : Record} (h : Genuine B f o c r)
    (h' : Genuine B f o c r') : SameBut volatileFields r r' := by
  obtain ⟨ob, r0, h1, h2⟩ := h
  obtain ⟨ob', r1, h1', h2'⟩ := h'
  have key : ∀ (ob : Obs) (r0 : Record), B.execute1Job ob [o] [c] f = .ok [.record r0] →
      ∃ k cls v, osCore B f o = .ok k ∧ k.params.get "class_name" = some cls ∧ evCore B f k c = .ok v ∧
        r0 = evRec B ob (osSeen f k cls (ob.osElapsed f o) (ob.osWarnings f o) none) c v := by
    intro ob r0 h
    unfold Bench.execute1Job at h
    rw [List.mapM_cons, plainOne_eq] at h
    cases hk : osCore B f o with
    | error e => rw [hk] at h; cases h
    | ok k =>
      rw [hk, eok_bind] at h
      cases hcls : k.params.get "class_name" with
      | none => simp only [hcls] at h; cases h
      | some cls =>
        simp only [hcls] at h
        rw [eok_bind] at h
        cases hv : evCore B f k c with
        | error e => simp only [List.mapM_cons, hv] at h; cases h
        | ok v =>
          simp only [List.mapM_cons, hv] at h
          refine ⟨k, cls, v, rfl, hcls, hv, ?_⟩
          have h3 : ([JobResult.record (evRec B ob (osSeen f k cls (ob.osElapsed f o) (ob.osWarnings f o) none) c v)] :
            List JobResult) = [.record r0] := by
            have h4 : (Except.ok [JobResult.record (evRec B ob
              (osSeen f k cls (ob.osElapsed f o) (ob.osWarnings f o) none) c v)] : Except Exc (List JobResult)) =
              .ok [.record r0] := h
            injection h4
          simp only [List.cons.injEq, JobResult.record.injEq, and_true] at h3
          exact h3.symm
  obtain ⟨k, cls, v, a1, a2, a3, rfl⟩ := key ob r0 h1
  obtain ⟨k', cls', v', b1, b2, b3, rfl⟩ := key ob' r1 h1'
  rw [a1] at b1
  injection b1 with b1
  subst b1
  rw [a2] at b2
  injection b2 with b2
  subst b2
  rw [a3] at b3
  injection b3 with b3
  subst b3
  have hm := evRec_same B ob ob' f k cls (ob.osElapsed f o) (ob'.osElapsed f o) (ob.osWarnings f o) (ob'.osWarnings f o)
    none none c v
  exact ⟨h2.1.trans (hm.1.trans h2'.1.symm), fun q hq => (h2.2 q hq).trans ((hm.2 q hq).trans (h2'.2 q hq).symm)⟩

example : ∃ r, Genuine exBench exFold exSmote exTree r := by
  obtain ⟨l, hl⟩ : ∃ l, exBench.execute1Job exObs [exSmote] [exTree] exFold = .ok l := by
    cases h : exBench.execute1Job exObs [exSmote] [exTree] exFold with
    | ok l => exact ⟨l, rfl⟩
    | error e =>
      have : (exBench.execute1Job exObs [exSmote] [exTree] exFold).toBool = true := by decide +kernel
      rw [h] at this
      cases this
  have h1 : ((exBench.execute1Job exObs [exSmote] [exTree] exFold).map (fun l => l.map (fun
      | .record _ => true
      | .file _ => false))) = .ok [true] := by decide +kernel
  rw [hl] at h1
  match l, h1 with
  | [.record r], _ => exact ⟨r, exObs, r, hl, rfl, fun _ _ => rfl⟩

/-- What a genuine record says about its combination: the fold it was computed on, with its test labels, and the
classifier. -/
theorem C122_genuine_names {f : Fold} {o : OsArg} {c : ClfDesc} {r : Record} (h : Genuine B f o c r) :
    r.get "fold_descriptor" = some (.desc f.desc) ∧ r.get "y_test" = some (.labels f.item.yTest) ∧
      r.get "classifier" = some (.name c.cls) ∧ r.get "classifier_module" = some (.name c.module) ∧
      r.get "classifier_params" = some (.params c.params) ∧
      ∃ a, B.instOs o.1 o.2 = .ok a ∧
        r.get "oversampler_params" = some (.params (coalesceDict (some a.getParams) o.2)) := by
  have : ∃ r', Outcome B f o c r' := by
    obtain ⟨ob, r0, h1, h2⟩ := h
    unfold Bench.execute1Job at h1
    rw [ebind_ok] at h1
    obtain ⟨l, hl, -⟩ := h1
    obtain ⟨k, cls, h3, h4, h5⟩ := plainOne_exists.1 (emapM_exists.1 ⟨l, hl⟩ o List.mem_cons_self)
    obtain ⟨v, hv⟩ := h5 c List.mem_cons_self
    exact ⟨_, k, cls, v, ob, 0, "", none, h3, h4, hv, rfl⟩
  obtain ⟨r', ho⟩ := this
  have hs := C122_determined h (genuine_of_outcome ho)
  obtain ⟨k, cls, v, ob, t, w, fn, h3, -, -, rfl⟩ := ho
  obtain ⟨a, ha, hp⟩ := osCore_params h3
  refine ⟨?_, ?_, ?_, ?_, ?_, a, ha, ?_⟩ <;>
  · rw [hs.2 _ (by simp [volatileFields])]
    simp [evRec, EvalJob.record, Dict.get, osSeen, Bench.evalJob, hp]

theorem evaluation_kept (opt : String) (d : Dir) {k : FileKey} (hk : k.kind = "evaluation") :
    (doCleanUp opt d).store k = d.store k := by
  unfold doCleanUp
  simp [hk]

theorem cleanUp_history {opt : String} {d : Dir} (h : History B F O C d.store) :
    History B F O C (doCleanUp opt d).store := by
  have := History.removed (fun k => decide ((opt = "oversamplings" ∨ opt = "all") ∧ k.kind = "oversampling")) h
  simpa [doCleanUp] using this

/-- The files returned for a job hold genuine results. -/
theorem genuine_of_evalResults (hs : Settled B F O C) {clfs : List ClfDesc} (hl : ∀ c ∈ clfs, c ∈ C) {s : Store}
    (hh : History B F O C s) {j : Fold × OsArg} (hj : j.1 ∈ F ∧ j.2 ∈ O) {l : List JobResult}
    (h : EvalResults B clfs s j l) :
    List.Forall₂ (fun (t : Fold × OsArg × ClfDesc) r => ∃ k rec, r = .file k ∧ k.kind = "evaluation" ∧
      s k = some (.good rec) ∧ Genuine B t.1 t.2.1 t.2.2 rec) (clfs.map (fun c => (j.1, j.2, c))) l := by
  obtain ⟨c, cls, hc, hcls, rfl, hg⟩ := h
  rw [List.forall₂_map_left_iff, List.forall₂_map_right_iff, List.forall₂_same]
  intro clf hclf
  obtain ⟨r, hr⟩ := hg clf hclf
  exact ⟨_, r, rfl, rfl, hr, genuine_of_outcome ((hh.inv hs).eval j.1 hj.1 j.2 hj.2 clf (hl clf hclf) c r hc hr)⟩

/-- An evaluation with a cache directory that has any history (earlier runs with the same or other oversamplers and
classifiers, complete or cut off by a crash at any point, torn and removed files): one file is returned for every
combination, by fold, by oversampler, by classifier, and it holds the result of this combination, as computed without a
cache. The directory afterwards has a history again. -/
theorem C122_cached (hs : Settled B F O C) {ob : Obs} {oss : List OsArg} {clfs : List ClfDesc} {opt : String}
    {folds : List Fold} {d d' : Dir} {out : List (List JobResult)} (hF : ∀ f ∈ folds, f ∈ F) (hO : ∀ o ∈ oss, o ∈ O)
    (hC : ∀ c ∈ clfs, c ∈ C) (hh : History B F O C d.store)
    (h : B.cachedSeq ob oss clfs opt folds d = .ok (out, d')) :
    List.Forall₂ (fun (t : Fold × OsArg × ClfDesc) r => ∃ k rec, r = .file k ∧ k.kind = "evaluation" ∧
      d'.store k = some (.good rec) ∧ Genuine B t.1 t.2.1 t.2.2 rec) (combos folds oss clfs) out.flatten ∧
      History B F O C d'.store := by
  unfold Bench.cachedSeq at h
  rw [ebind_ok] at h
  obtain ⟨⟨rs, s1⟩, h1, h⟩ := h
  rw [ebind_ok] at h
  obtain ⟨⟨ev, s2⟩, h2, h⟩ := h
  injection h with h
  obtain ⟨rfl, rfl⟩ := Prod.mk.inj h
  have hj : ∀ j ∈ jobsOf folds oss, j.1 ∈ F ∧ j.2 ∈ O := fun j hj =>
    ⟨hF _ (mem_jobsOf.1 hj).1, hO _ (mem_jobsOf.1 hj).2⟩
  obtain ⟨rfl, hh1, -, hg⟩ := sampAll_spec hj hh h1
  simp only [List.map_map] at h2
  obtain ⟨hh2, -, hev⟩ := evalAll_spec hs hC hj hh1 h2
  refine ⟨?_, cleanUp_history hh2⟩
  rw [combos_eq]
  refine forall₂_flatten hev (fun j hjm l hl => ?_)
  refine (genuine_of_evalResults hs hC hh2 (hj j hjm) hl).imp ?_
  rintro t r ⟨k, rec, h1, hk, h2, h3⟩
  exact ⟨k, rec, h1, hk, by rw [evaluation_kept _ _ hk]; exact h2, h3⟩

/-- Such an evaluation returns exactly when the one without a cache does. -/
theorem C122_cached_returns (hs : Settled B F O C) (ob ob' : Obs) {oss : List OsArg} {clfs : List ClfDesc}
    {opt : String} {folds : List Fold} {d : Dir} (hF : ∀ f ∈ folds, f ∈ F) (hO : ∀ o ∈ oss, o ∈ O)
    (hC : ∀ c ∈ clfs, c ∈ C) (hh : History B F O C d.store) :
    (∃ p, B.cachedSeq ob oss clfs opt folds d = .ok p) ↔ ∃ out, B.plain ob' oss clfs folds = .ok out := by
  have hj : ∀ j ∈ jobsOf folds oss, j.1 ∈ F ∧ j.2 ∈ O := fun j hj =>
    ⟨hF _ (mem_jobsOf.1 hj).1, hO _ (mem_jobsOf.1 hj).2⟩
  rw [plain_exists]
  constructor
  · rintro ⟨⟨out, d'⟩, h⟩ j hjm
    unfold Bench.cachedSeq at h
    rw [ebind_ok] at h
    obtain ⟨⟨rs, s1⟩, h1, h⟩ := h
    rw [ebind_ok] at h
    obtain ⟨⟨ev, s2⟩, h2, -⟩ := h
    obtain ⟨rfl, hh1, -, hg⟩ := sampAll_spec hj hh h1
    simp only [List.map_map] at h2
    obtain ⟨hh2, -, hev⟩ := evalAll_spec hs hC hj hh1 h2
    have : ∃ l, EvalResults B clfs s2 j l := by
      have hlen := hev.length_eq
      obtain ⟨i, hi, rfl⟩ := List.getElem_of_mem hjm
      exact ⟨_, (List.forall₂_iff_get.1 hev).2 i hi (hlen ▸ hi)⟩
    obtain ⟨l, c, cls, hc, hcls, -, hg⟩ := this
    refine ⟨c, cls, hc, hcls, fun clf hclf => ?_⟩
    obtain ⟨r, hr⟩ := hg clf hclf
    obtain ⟨c', cls', v, ob, t, w, fn, hc', -, hv, -⟩ :=
      (hh2.inv hs).eval j.1 (hj j hjm).1 j.2 (hj j hjm).2 clf (hC clf hclf) c r hc hr
    rw [hc] at hc'
    injection hc' with hc'
    subst hc'
    exact ⟨v, hv⟩
  · intro hw
    obtain ⟨⟨rs, s1⟩, h1⟩ := sampAll_ok (ob := ob) (fun j hjm => by
      obtain ⟨c, cls, hc, -⟩ := hw j hjm
      exact ⟨c, hc⟩) d.store
    obtain ⟨hrs, hh1, -, hg⟩ := sampAll_spec hj hh h1
    obtain ⟨q, hq⟩ := evalAll_ok (ob := ob) hs hC hj hw hh1 hg
    unfold Bench.cachedSeq
    refine ⟨_, ebind_ok.2 ⟨_, h1, ebind_ok.2 ⟨q, ?_, rfl⟩⟩⟩
    simp only [hrs, List.map_map]
    exact hq

/-- Without a cache: one record for every combination, in the same order. But all of them show the descriptor of the
last fold; in everything else they are the results of their combinations. -/
theorem C122_plain {ob : Obs} {oss : List OsArg} {clfs : List ClfDesc} {folds : List Fold} {out : List (List JobResult)}
    (h : B.plain ob oss clfs folds = .ok out) :
    List.Forall₂ (fun (t : Fold × OsArg × ClfDesc) r => ∃ rec rec0 last, r = .record rec ∧ folds.getLast? = some last ∧
      Genuine B t.1 t.2.1 t.2.2 rec0 ∧ rec = Dict.set rec0 "fold_descriptor" (.desc last.desc))
      (combos folds oss clfs) out.flatten := by
  unfold Bench.plain at h
  rw [ebind_ok] at h
  obtain ⟨rs, hrs, h⟩ := h
  injection h with h
  subst h
  rw [emapM_ok] at hrs
  unfold combos
  rw [← List.map_flatten, List.forall₂_map_right_iff]
  refine forall₂_flatten hrs (fun f hf l hl => ?_)
  obtain ⟨last, hlast⟩ : ∃ last, folds.getLast? = some last := by
    cases folds with
    | nil => simp at hf
    | cons a t => exact ⟨_, List.getLast?_cons ..⟩
  unfold Bench.execute1Job at hl
  rw [ebind_ok] at hl
  obtain ⟨qs, hqs, hl⟩ := hl
  injection hl with hl
  subst hl
  rw [emapM_ok] at hqs
  refine forall₂_flatten hqs (fun o ho l hl => ?_)
  rw [plainOne_eq, ebind_ok] at hl
  obtain ⟨c, hc, hl⟩ := hl
  rw [ebind_ok] at hl
  obtain ⟨cls, hcls, hl⟩ := hl
  have hcls' : c.params.get "class_name" = some cls := by
    split at hcls
    · injection hcls with hcls; subst hcls; assumption
    · cases hcls
  simp only at hl
  rw [ebind_ok] at hl
  obtain ⟨ls, hls, hl⟩ := hl
  injection hl with hl
  subst hl
  rw [emapM_ok] at hls
  rw [List.forall₂_map_right_iff, List.forall₂_map_left_iff]
  refine hls.imp ?_
  intro clf rec hrec
  rw [emap_ok] at hrec
  obtain ⟨v, hv, rfl⟩ := hrec
  exact ⟨_, _, last, by rw [hlast]; rfl, hlast, genuine_of_outcome ⟨c, cls, v, ob, _, _, _, hc, hcls', hv, rfl⟩, rfl⟩

/-- The results that are in the directory already are kept, and those returned are under the expected names. -/
theorem cachedSeq_kept (hs : Settled B F O C) {ob : Obs} {oss : List OsArg} {clfs : List ClfDesc} {opt : String}
    {folds : List Fold} {d d' : Dir} {out : List (List JobResult)} (hF : ∀ f ∈ folds, f ∈ F) (hO : ∀ o ∈ oss, o ∈ O)
    (hC : ∀ c ∈ clfs, c ∈ C) (hh : History B F O C d.store)
    (h : B.cachedSeq ob oss clfs opt folds d = .ok (out, d')) :
    (∃ s, List.Forall₂ (EvalResults B clfs s) (jobsOf folds oss) out) ∧
      ∀ k rec, k.kind = "evaluation" → d.store k = some (.good rec) → d'.store k = some (.good rec) := by
  have hj : ∀ j ∈ jobsOf folds oss, j.1 ∈ F ∧ j.2 ∈ O := fun j hj =>
    ⟨hF _ (mem_jobsOf.1 hj).1, hO _ (mem_jobsOf.1 hj).2⟩
  unfold Bench.cachedSeq at h
  rw [ebind_ok] at h
  obtain ⟨⟨rs, s1⟩, h1, h⟩ := h
  rw [ebind_ok] at h
  obtain ⟨⟨ev, s2⟩, h2, h⟩ := h
  injection h with h
  obtain ⟨rfl, rfl⟩ := Prod.mk.inj h
  obtain ⟨rfl, hh1, hk1, hg⟩ := sampAll_spec hj hh h1
  simp only [List.map_map] at h2
  obtain ⟨hh2, hk2, hev⟩ := evalAll_spec hs hC hj hh1 h2
  exact ⟨⟨s2, hev⟩, fun k rec hk hr => by
    rw [evaluation_kept _ _ hk]
    exact hk2 _ _ (hk1 _ _ hr)⟩

/-- Running the same evaluation again returns the same files, and leaves the results as they are: nothing is evaluated a
second time, whatever was cleaned up in between. -/
theorem C122_second_run (hs : Settled B F O C) {ob : Obs} (ob' : Obs) {oss : List OsArg} {clfs : List ClfDesc}
    {opt : String} (opt' : String) {folds : List Fold} {d d' : Dir} {out : List (List JobResult)}
    (hF : ∀ f ∈ folds, f ∈ F) (hO : ∀ o ∈ oss, o ∈ O) (hC : ∀ c ∈ clfs, c ∈ C) (hh : History B F O C d.store)
    (h : B.cachedSeq ob oss clfs opt folds d = .ok (out, d')) :
    ∃ d'', B.cachedSeq ob' oss clfs opt' folds d' = .ok (out, d'') ∧
      ∀ k rec, k.kind = "evaluation" → d'.store k = some (.good rec) → d''.store k = some (.good rec) := by
  have hh' := (C122_cached hs hF hO hC hh h).2
  obtain ⟨⟨out', d''⟩, h'⟩ := (C122_cached_returns hs ob' obs0 (opt := opt') hF hO hC hh').2
    ((C122_cached_returns hs ob obs0 hF hO hC hh).1 ⟨_, h⟩)
  obtain ⟨⟨s1, e1⟩, -⟩ := cachedSeq_kept hs hF hO hC hh h
  obtain ⟨⟨s2, e2⟩, e3⟩ := cachedSeq_kept hs hF hO hC hh' h'
  have : out' = out := by
    clear h h'
    generalize jobsOf folds oss = js at e1 e2
    induction e1 generalizing out' with
    | nil => cases e2; rfl
    | cons hab _ ih =>
      cases e2 with
      | cons hab' hrest =>
        obtain ⟨c, cls, hc, -, h1, -⟩ := hab
        obtain ⟨c', cls', hc', -, h1', -⟩ := hab'
        rw [hc] at hc'
        injection hc' with hc'
        subst hc'
        rw [h1, h1', ih _ hrest]
  subst this
  exact ⟨d'', h', e3⟩

/-- The option `clean_up`: results of evaluations are never removed. "oversamplings" and "all" remove the oversampled
data, "all" also the folds; any other value removes nothing. -/
theorem C122_clean_up (opt : String) (d : Dir) :
    (∀ k, k.kind = "evaluation" → (doCleanUp opt d).store k = d.store k) ∧
    (opt = "oversamplings" ∨ opt = "all" → ∀ k, k.kind = "oversampling" → (doCleanUp opt d).store k = none) ∧
    (opt ≠ "oversamplings" → opt ≠ "all" → (doCleanUp opt d).store = d.store) ∧
    (opt ≠ "all" → (doCleanUp opt d).folds = d.folds) ∧
    (opt = "all" → ∀ desc, (doCleanUp opt d).folds.get (foldFileName sJson desc) = none) := by
  refine ⟨fun k hk => evaluation_kept opt d hk, ?_, ?_, ?_, ?_⟩
  · intro h k hk
    unfold doCleanUp
    simp [hk, h]
  · intro h1 h2
    unfold doCleanUp
    simp [h1, h2]
  · intro h
    unfold doCleanUp
    simp [h]
  · rintro rfl desc
    unfold doCleanUp
    simp only [if_true]
    generalize d.folds = m
    induction m with
    | nil => rfl
    | cons e m ih =>
      rw [List.filter_cons]
      split
      · rename_i hp
        unfold Dict.get
        rw [if_neg]
        · exact ih
        · rintro he
          rw [he] at hp
          simp [foldFileName, List.isPrefixOf] at hp
      · exact ih

/-! ## Several jobs -/

theorem cacheFoldings_get {folds : List Fold} (hd : folds.Pairwise (fun f g => foldFileName sJson f.desc ≠
    foldFileName sJson g.desc)) (m : Dict Path Fold) {f : Fold} (hf : f ∈ folds) :
    (cacheFoldings folds m).get (foldFileName sJson f.desc) = some f := by
  have other : ∀ (folds : List Fold) (m : Dict Path Fold) (q : Path), (∀ g ∈ folds, foldFileName sJson g.desc ≠ q) →
      (cacheFoldings folds m).get q = m.get q := by
    intro folds
    induction folds with
    | nil => intro m q _; rfl
    | cons g gs ih =>
      intro m q hq
      unfold cacheFoldings
      rw [List.foldl_cons]
      have := ih (Dict.set m (foldFileName sJson g.desc) g) q (fun x hx => hq x (List.mem_cons_of_mem _ hx))
      unfold cacheFoldings at this
      rw [this, Dict.get_set, if_neg (hq g List.mem_cons_self)]
  induction folds generalizing m with
  | nil => simp at hf
  | cons g gs ih =>
    rw [List.pairwise_cons] at hd
    rcases List.mem_cons.1 hf with rfl | hf
    · have := other gs (Dict.set m (foldFileName sJson f.desc) f) (foldFileName sJson f.desc)
        (fun x hx => (hd.1 x hx).symm)
      unfold cacheFoldings at this ⊢
      rw [List.foldl_cons, this, Dict.get_set, if_pos rfl]
    · have := ih hd.2 (Dict.set m (foldFileName sJson g.desc) g) hf
      unfold cacheFoldings at this ⊢
      rw [List.foldl_cons]
      exact this

theorem cacheFoldings_keys (folds : List Fold) {m : Dict Path Fold} (hm : m.keys.Nodup) :
    (cacheFoldings folds m).keys.Nodup ∧ ∀ q, q ∈ (cacheFoldings folds m).keys ↔
      q ∈ m.keys ∨ ∃ f ∈ folds, q = foldFileName sJson f.desc := by
  induction folds generalizing m with
  | nil => exact ⟨hm, fun q => by simp [cacheFoldings]⟩
  | cons g gs ih =>
    have hk := Dict.keys_set m (foldFileName sJson g.desc) g
    have hset : (Dict.set m (foldFileName sJson g.desc) g).keys.Nodup := by
      rw [hk]
      split
      · exact hm
      · rename_i hn
        rw [List.nodup_append]
        exact ⟨hm, by simp, fun a ha b hb => by
          simp only [List.mem_singleton] at hb
          subst hb
          exact fun h => hn (h ▸ ha)⟩
    obtain ⟨h1, h2⟩ := ih hset
    unfold cacheFoldings at h1 h2 ⊢
    rw [List.foldl_cons]
    refine ⟨h1, fun q => ?_⟩
    rw [h2, hk]
    simp only [List.mem_cons, exists_eq_or_imp]
    split
    · rename_i hin
      constructor
      · rintro (h | h)
        · exact Or.inl h
        · exact Or.inr (Or.inr h)
      · rintro (h | h | h)
        · exact Or.inl h
        · exact Or.inl (h ▸ hin)
        · exact Or.inr h
    · simp only [List.mem_append, List.mem_singleton, or_assoc]

theorem matchesFold_name (d : Desc) : matchesFold sJson (foldFileName sJson d) = true := by
  unfold matchesFold foldFileName
  simp only [Bool.and_eq_true, List.isPrefixOf_iff_prefix]
  refine ⟨List.prefix_append _ _, ?_⟩
  rw [List.isSuffixOf_iff_suffix]
  rw [List.drop_append_of_le_length (by simp)]
  simp only [List.drop_succ_cons, List.drop_nil, List.nil_append]
  exact ((List.suffix_append _ _).trans (List.suffix_cons _ _)).trans (List.suffix_append _ _)

theorem foldsOnDisk_perm {folds : List Fold} (hd : folds.Pairwise (fun f g => foldFileName sJson f.desc ≠
    foldFileName sJson g.desc)) {m : Dict Path Fold} (hm : m.keys.Nodup)
    (hstale : ∀ q ∈ m.keys, matchesFold sJson q = true → ∃ f ∈ folds, q = foldFileName sJson f.desc) :
    (foldsOnDisk (cacheFoldings folds m)).Perm folds := by
  obtain ⟨h1, h2⟩ := cacheFoldings_keys folds hm
  have hp : (sortNames ((cacheFoldings folds m).keys.filter (matchesFold sJson))).Perm
      (folds.map (fun f => foldFileName sJson f.desc)) := by
    refine (List.perm_insertionSort _ _).trans ?_
    rw [List.perm_ext_iff_of_nodup (h1.filter _) (List.pairwise_map.2 hd)]
    intro q
    rw [List.mem_filter, h2, List.mem_map]
    constructor
    · rintro ⟨h | ⟨f, hf, rfl⟩, hq⟩
      · obtain ⟨f, hf, rfl⟩ := hstale q h hq
        exact ⟨f, hf, rfl⟩
      · exact ⟨f, hf, rfl⟩
    · rintro ⟨f, hf, rfl⟩
      exact ⟨Or.inr ⟨f, hf, rfl⟩, matchesFold_name _⟩
  unfold foldsOnDisk
  refine (hp.filterMap _).trans ?_
  rw [List.filterMap_map]
  have hg : ∀ f ∈ folds, ((cacheFoldings folds m).get ∘ fun f : Fold => foldFileName sJson f.desc) f = some f :=
    fun f hf => cacheFoldings_get hd m hf
  generalize ((cacheFoldings folds m).get ∘ fun f : Fold => foldFileName sJson f.desc) = g at hg ⊢
  rw [List.filterMap_congr hg, List.filterMap_some]

/-- The jobs of the pool when none of them is late and all of them can be done. -/
theorem poolAll_spec {ob : Obs} (hlate : ∀ f o, ob.late f o = false) {js : List (Fold × OsArg)}
    (hj : ∀ j ∈ js, j.1 ∈ F ∧ j.2 ∈ O) (hc : ∀ j ∈ js, ∃ c, osCore B j.1 j.2 = .ok c) {s : Store}
    (hh : History B F O C s) :
    (B.poolAll ob js s).1 = js.map (fun j => (j, some (.file (osKey B j.1 j.2)))) ∧
      History B F O C (B.poolAll ob js s).2 ∧ Kept s (B.poolAll ob js s).2 ∧
      ∀ j ∈ js, ∃ r, (B.poolAll ob js s).2 (osKey B j.1 j.2) = some (.good r) := by
  induction js generalizing s with
  | nil => exact ⟨rfl, hh, Kept.refl _, fun _ h => by simp at h⟩
  | cons j js ih =>
    obtain ⟨c, hcj⟩ := hc j List.mem_cons_self
    have : ∃ p, (B.sampJob ob true j.1 j.2).doOversampling B.md5Os s = .ok p := by
      unfold SampJob.doOversampling SampJob.run
      split
      · exact ⟨_, rfl⟩
      · rw [samp_compute, hcj]
        exact ⟨_, rfl⟩
    obtain ⟨⟨r, s1⟩, hr⟩ := this
    have hpj : B.poolJob ob j s = (some r, s1) := by
      unfold Bench.poolJob
      rw [hlate]
      simp only [Bool.false_eq_true, if_false, hr]
    have hjm := hj j List.mem_cons_self
    obtain ⟨h1, h2, h3, h4⟩ := ih (fun q hq => hj q (List.mem_cons_of_mem _ hq))
      (fun q hq => hc q (List.mem_cons_of_mem _ hq)) (.samp hh hjm.1 hjm.2 hr)
    obtain ⟨e1, e2⟩ := samp_step hr
    unfold Bench.poolAll
    rw [hpj]
    refine ⟨?_, h2, (samp_kept hr).trans h3, ?_⟩
    · simp only [List.map_cons]
      rw [h1, e1]
    · intro q hq
      rcases List.mem_cons.1 hq with rfl | hq
      · rcases e2 with ⟨rfl, rec, hrec⟩ | ⟨-, c, -, rfl⟩
        · exact ⟨rec, h3 _ _ hrec⟩
        · exact ⟨_, h3 _ _ (Function.update_self ..)⟩
      · exact h4 q hq

/-- With several jobs, in whatever order they are shuffled and scheduled: when no job is late, every combination can be
evaluated, and the directory holds no folds of another cross-validation, the results are those of the same
combinations, in some order. -/
theorem C122_parallel (hs : Settled B F O C) {ob : Obs} (ob' : Obs) (hlate : ∀ f o, ob.late f o = false)
    {shuffle sched : List (Fold × OsArg) → List (Fold × OsArg)} (hshuffle : ∀ l, (shuffle l).Perm l)
    (hsched : ∀ l, (sched l).Perm l) {oss : List OsArg} {clfs : List ClfDesc} (opt : String) {folds : List Fold}
    {d : Dir} (hF : ∀ f ∈ folds, f ∈ F) (hO : ∀ o ∈ oss, o ∈ O) (hC : ∀ c ∈ clfs, c ∈ C)
    (hh : History B F O C d.store) (hplain : ∃ out, B.plain ob' oss clfs folds = .ok out)
    (hnodup : folds.Nodup) (hkeys : d.folds.keys.Nodup)
    (hstale : ∀ q ∈ d.folds.keys, matchesFold sJson q = true → ∃ f ∈ folds, q = foldFileName sJson f.desc) :
    ∃ out d' ts, B.cachedPar ob shuffle sched oss clfs opt folds d = .ok (out, d') ∧
      ts.Perm (combos folds oss clfs) ∧
      List.Forall₂ (fun (t : Fold × OsArg × ClfDesc) r => ∃ k rec, r = .file k ∧ d'.store k = some (.good rec) ∧
        Genuine B t.1 t.2.1 t.2.2 rec) ts out.flatten ∧ History B F O C d'.store := by
  rw [plain_exists] at hplain
  have hd : folds.Pairwise (fun f g => foldFileName sJson f.desc ≠ foldFileName sJson g.desc) := by
    refine hnodup.imp_of_mem (fun {f g} hf hg hfg he => hfg ?_)
    obtain ⟨h1, h2⟩ := foldFileName_inj he
    exact hs.folds f (hF f hf) g (hF g hg) h1 h2
  have hdisk := foldsOnDisk_perm hd hkeys hstale
  have hperm : (shuffle (jobsOf (foldsOnDisk (cacheFoldings folds d.folds)) oss)).Perm (jobsOf folds oss) :=
    (hshuffle _).trans (hdisk.flatMap_right _)
  generalize hjobs : shuffle (jobsOf (foldsOnDisk (cacheFoldings folds d.folds)) oss) = jobs at hperm
  have hmem : ∀ j ∈ jobs, j ∈ jobsOf folds oss := fun j hj => hperm.mem_iff.1 hj
  have hj : ∀ j ∈ jobs, j.1 ∈ F ∧ j.2 ∈ O := fun j hj =>
    ⟨hF _ (mem_jobsOf.1 (hmem j hj)).1, hO _ (mem_jobsOf.1 (hmem j hj)).2⟩
  have hw : ∀ j ∈ jobs, Works B clfs j := fun j hj => hplain j (hmem j hj)
  have hsm : ∀ j, j ∈ sched jobs ↔ j ∈ jobs := fun j => (hsched jobs).mem_iff
  obtain ⟨p1, p2, p3, p4⟩ := poolAll_spec (B := B) hlate (fun j h => hj j ((hsm j).1 h))
    (fun j h => by obtain ⟨c, cls, hc, -⟩ := hw j ((hsm j).1 h); exact ⟨c, hc⟩) hh
  have hres : jobs.map (fun j => (((B.poolAll ob (sched jobs) d.store).1.find? (fun e => decide (e.1 = j))).bind
      Prod.snd)) = jobs.map (fun j => some (.file (osKey B j.1 j.2))) := by
    apply List.map_congr_left
    intro j hjm
    rw [p1]
    have hin : (j, some (JobResult.file (osKey B j.1 j.2))) ∈ (sched jobs).map
      (fun j => (j, some (JobResult.file (osKey B j.1 j.2)))) := List.mem_map.2 ⟨j, (hsm j).2 hjm, rfl⟩
    cases hfind : ((sched jobs).map (fun j => (j, some (JobResult.file (osKey B j.1 j.2))))).find?
      (fun e => decide (e.1 = j)) with
    | none => exact absurd (List.find?_eq_none.1 hfind _ hin) (by simp)
    | some e =>
      have h1 := List.find?_some hfind
      have h2 := List.mem_of_find?_eq_some hfind
      obtain ⟨q, -, rfl⟩ := List.mem_map.1 h2
      simp only [decide_eq_true_eq] at h1
      subst h1
      rfl
  obtain ⟨⟨ev, s2⟩, hev⟩ := evalAll_ok (ob := ob) hs hC hj hw p2 (fun j h => p4 j ((hsm j).2 h))
  obtain ⟨hh2, -, hforall⟩ := evalAll_spec hs hC hj p2 hev
  refine ⟨ev, _, jobs.flatMap (fun j => clfs.map (fun c => (j.1, j.2, c))), ?_, ?_, ?_, cleanUp_history (opt := opt)
    (d := ⟨cacheFoldings folds d.folds, s2⟩) hh2⟩
  · unfold Bench.cachedPar
    simp only
    rw [hjobs, hres, hev, eok_bind]
    rfl
  · rw [combos_eq]
    exact hperm.flatMap_right _
  · refine forall₂_flatten hforall (fun j hjm l hl => ?_)
    refine (genuine_of_evalResults hs hC hh2 (hj j hjm) hl).imp ?_
    rintro t r ⟨k, rec, h1, hk, h2, h3⟩
    exact ⟨k, rec, h1, by rw [evaluation_kept _ _ hk]; exact h2, h3⟩

/-! ## The table -/

theorem meanSkip_perm {l l' : List (Option ℚ)} (h : l.Perm l') : meanSkip l = meanSkip l' := by
  have hp := h.filterMap id
  unfold meanSkip
  rw [hp.sum_eq, hp.length_eq]
  congr 1
  exact propext ⟨fun e => by rw [e] at hp; exact hp.nil_eq.symm, fun e => by rw [e] at hp; exact hp.eq_nil⟩

/-- The table of mean scores does not depend on the order of the results. So it is the same for one and for several
jobs. -/
theorem C122_table {α : Type} [LinearOrder α] {rows rows' : List (ResRow α)} (h : rows.Perm rows') :
    parseResults rows = parseResults rows' := by
  unfold parseResults
  have h1 : rows = [] ↔ rows' = [] :=
    ⟨fun e => by rw [e] at h; exact h.nil_eq.symm, fun e => by rw [e] at h; exact h.eq_nil⟩
  by_cases he : rows = []
  · rw [if_pos he, if_pos (h1.1 he)]
  · rw [if_neg he, if_neg (fun e => he (h1.2 e))]
    congr 1
    unfold groupBy
    have hu : npUnique (rows.map ResRow.key) = npUnique (rows'.map ResRow.key) := by
      refine List.Perm.eq_of_pairwise (le := (· < ·)) (fun a b _ _ hab hba => absurd hab (lt_asymm hba))
        (npUnique_sorted _) (npUnique_sorted _) ?_
      rw [List.perm_ext_iff_of_nodup (npUnique_nodup _) (npUnique_nodup _)]
      intro k
      rw [mem_npUnique, mem_npUnique]
      exact (h.map _).mem_iff
    rw [hu, List.filterMap_map, List.filterMap_map]
    apply List.filterMap_congr
    intro k _
    simp only [Function.comp_apply]
    have hp : (rows.filter (fun r => decide (r.key = k))).Perm (rows'.filter (fun r => decide (r.key = k))) := h.filter _
    have hk : ∀ r ∈ rows.filter (fun r => decide (r.key = k)), r.key = k := by
      intro r hr
      simpa using (List.mem_filter.1 hr).2
    have hk' : ∀ r ∈ rows'.filter (fun r => decide (r.key = k)), r.key = k := by
      intro r hr
      simpa using (List.mem_filter.1 hr).2
    generalize rows.filter (fun r => decide (r.key = k)) = g at hp hk
    generalize rows'.filter (fun r => decide (r.key = k)) = g' at hp hk'
    cases g with
    | nil => rw [← hp.nil_eq]
    | cons r rs =>
      cases g' with
      | nil => exact absurd hp.eq_nil (by simp)
      | cons r' rs' =>
        have hm := meanSkip_perm (hp.map (·.score))
        unfold avgRow
        simp only [Option.some.injEq]
        have e := (hk r List.mem_cons_self).trans (hk' r' List.mem_cons_self).symm
        unfold ResRow.key at e
        simp only [List.cons.injEq, and_true] at e
        obtain ⟨e1, e2, e3, e4, e5, e6, e7⟩ := e
        rw [hm, e1, e2, e3, e4, e5, e6, e7]

/-! ## Several data sets -/

/-- `evaluate_oversamplers` with a cache: every data set has its own directory, named after it, and each of these
directories has a history. The results of all combinations are returned, by data set, fold, oversampler and classifier,
and all of them can be read when the call returns. Data sets with the same name have to agree in their folds. -/
theorem C122_datasets {F : String → List Fold} (hs : ∀ n, Settled B (F n) O C) {ob : Obs} {oss : List OsArg}
    {clfs : List ClfDesc} {opt : String} {dss : List DataSet} {dirs dirs' : String → Dir} {out : List JobResult}
    (hF : ∀ ds ∈ dss, ∀ folds, ds.folds = .ok folds → ∀ f ∈ folds, f ∈ F ds.name) (hO : ∀ o ∈ oss, o ∈ O)
    (hC : ∀ c ∈ clfs, c ∈ C) (hh : ∀ n, History B (F n) O C (dirs n).store)
    (h : B.evaluate ob (some opt) oss clfs dss dirs = .ok (out, dirs')) :
    ∃ foldss, List.Forall₂ (fun (ds : DataSet) (p : String × List Fold) => p.1 = ds.name ∧ ds.folds = .ok p.2) dss foldss ∧
      List.Forall₂ (fun (t : String × Fold × OsArg × ClfDesc) r => ∃ k rec, r = .file k ∧
        (dirs' t.1).store k = some (.good rec) ∧ Genuine B t.2.1 t.2.2.1 t.2.2.2 rec)
        (foldss.flatMap (fun p => (combos p.2 oss clfs).map (fun t => (p.1, t)))) out := by
  suffices hmain : (∃ foldss, List.Forall₂ (fun (ds : DataSet) (p : String × List Fold) => p.1 = ds.name ∧
      ds.folds = .ok p.2) dss foldss ∧
      List.Forall₂ (fun (t : String × Fold × OsArg × ClfDesc) r => ∃ k rec, r = .file k ∧
        (dirs' t.1).store k = some (.good rec) ∧ Genuine B t.2.1 t.2.2.1 t.2.2.2 rec)
        (foldss.flatMap (fun p => (combos p.2 oss clfs).map (fun t => (p.1, t)))) out) ∧
      ∀ n k rec, k.kind = "evaluation" → (dirs n).store k = some (.good rec) → (dirs' n).store k = some (.good rec) from
    hmain.1
  induction dss generalizing dirs out with
  | nil =>
    injection h with h
    obtain ⟨rfl, rfl⟩ := Prod.mk.inj h
    exact ⟨⟨[], .nil, .nil⟩, fun _ _ _ _ h => h⟩
  | cons ds dss ih =>
    unfold Bench.evaluate at h
    rw [ebind_ok] at h
    obtain ⟨⟨r, d1⟩, h1, h⟩ := h
    rw [ebind_ok] at h
    obtain ⟨⟨q, d2⟩, h2, h⟩ := h
    injection h with h
    obtain ⟨rfl, rfl⟩ := Prod.mk.inj h
    unfold Bench.evaluateOn at h1
    rw [ebind_ok] at h1
    obtain ⟨folds, hfolds, h1⟩ := h1
    simp only at h1
    rw [ebind_ok] at h1
    obtain ⟨⟨r', e⟩, h3, h1⟩ := h1
    injection h1 with h1
    obtain ⟨rfl, rfl⟩ := Prod.mk.inj h1
    have hFd := hF ds List.mem_cons_self folds hfolds
    obtain ⟨hc1, hc2⟩ := C122_cached (hs ds.name) hFd hO hC (hh ds.name) h3
    obtain ⟨-, hk⟩ := cachedSeq_kept (hs ds.name) hFd hO hC (hh ds.name) h3
    have hh' : ∀ n, History B (F n) O C (Function.update dirs ds.name e n).store := by
      intro n
      by_cases hn : n = ds.name
      · subst hn
        rw [Function.update_self]
        exact hc2
      · rw [Function.update_of_ne hn]
        exact hh n
    obtain ⟨⟨fs, i1, i2⟩, i3⟩ := ih (fun x hx => hF x (List.mem_cons_of_mem _ hx)) hh' h2
    refine ⟨⟨(ds.name, folds) :: fs, .cons ⟨rfl, hfolds⟩ i1, ?_⟩, ?_⟩
    · rw [List.flatMap_cons]
      refine List.rel_append ?_ i2
      rw [List.forall₂_map_left_iff]
      refine hc1.imp ?_
      rintro t r ⟨k, rec, rfl, hkind, hst, hg⟩
      refine ⟨k, rec, rfl, i3 _ _ _ hkind ?_, hg⟩
      simp only [Function.update_self]
      exact hst
    · intro n k rec hkind hst
      refine i3 _ _ _ hkind ?_
      by_cases hn : n = ds.name
      · subst hn
        rw [Function.update_self]
        exact hk _ _ hkind hst
      · rw [Function.update_of_ne hn]
        exact hst

/-! ## The hypotheses can be met, and are needed -/

/-- A run with two folds, and what it returns. -/
example : Settled exBench [exFold, exFold2] [exSmote] [exTree] ∧
    History exBench [exFold, exFold2] [exSmote] [exTree] exDir.store ∧
    fieldOf "y_pred" (exBench.cachedSeq exObs [exSmote] [exTree] "all" [exFold, exFold2] exDir) =
      .ok [some (.vec [1 / 2]), some (.vec [1 / 2])] := ⟨exSettled, .empty, by decide +kernel⟩

/-- The same with several jobs. -/
example : fieldOf "fold_descriptor" (exBench.cachedPar exObs List.reverse id [exSmote] [exTree] "all" [exFold, exFold2] exDir) =
      .ok [some (.desc exFold2.desc), some (.desc exFold.desc)] := by decide +kernel

/-- A whole evaluation of a data set. -/
example : ∃ F, exData.folds = .ok F ∧ Settled exBench F [exSmote] [exTree] ∧
    (exBench.evaluate exObs (some "all") [exSmote] [exTree] [exData] (fun _ => exDir)).map Prod.fst =
      .ok [.file ⟨"evaluation", 0, 0, 24⟩, .file ⟨"evaluation", 0, 1, 24⟩] := by
  refine ⟨_, rfl, exSettledOf ?_, ?_⟩
  · decide +kernel
  · decide +kernel

/-- The same without a cache: both records show the second fold. -/
theorem C122_plain_last_fold : ((exBench.plain exObs [exSmote] [exTree] [exFold, exFold2]).map (fun l => l.flatten.map (fun
    | .record r => r.get "fold_descriptor"
    | .file _ => none))) = .ok [some (.desc exFold2.desc), some (.desc exFold2.desc)] ∧ exFold.desc ≠ exFold2.desc :=
  ⟨by decide +kernel, by decide⟩

/-- The results of two runs, the second with other folds in the same directory. -/
def twoRuns (folds folds' : List Fold) : Except Exc (List (List JobResult) × Dir) :=
  match exBench.cachedSeq exObs [exSmote] [exTree] "all" folds exDir with
  | .ok (_, d) => exBench.cachedSeq exObs [exSmote] [exTree] "all" folds' d
  | .error e => .error e

/-- A data set whose rows or labels change but not its name gets the results of the old data, even when everything is
cleaned up: here a result with the test labels of the first run is returned for the second. -/
theorem C122_changed_data_not : ∃ out d out' d' k rec,
    exBench.cachedSeq exObs [exSmote] [exTree] "all" [exFold] exDir = .ok (out, d) ∧
    exBench.cachedSeq exObs [exSmote] [exTree] "all" [exFold'] d = .ok (out', d') ∧ out'.flatten = [.file k] ∧
    d'.store k = some (.good rec) ∧ ¬ Genuine exBench exFold' exSmote exTree rec := by
  have h0 : fieldOf "y_test" (twoRuns [exFold] [exFold']) = .ok [some (.labels [0])] := by decide +kernel
  have hf : (twoRuns [exFold] [exFold']).map Prod.fst = .ok [[.file ⟨"evaluation", 1, 1, 24⟩]] := by decide +kernel
  unfold twoRuns at h0 hf
  cases h1 : exBench.cachedSeq exObs [exSmote] [exTree] "all" [exFold] exDir with
  | error e => rw [h1] at h0; cases h0
  | ok p =>
    obtain ⟨out, d⟩ := p
    rw [h1] at h0 hf
    simp only at h0 hf
    cases h2 : exBench.cachedSeq exObs [exSmote] [exTree] "all" [exFold'] d with
    | error e => rw [h2] at h0; cases h0
    | ok p =>
      obtain ⟨out', d'⟩ := p
      rw [h2] at h0 hf
      have hout : out' = [[.file ⟨"evaluation", 1, 1, 24⟩]] := by
        simp only [Except.map, Except.ok.injEq] at hf
        exact hf
      subst hout
      cases hk : d'.store ⟨"evaluation", 1, 1, 24⟩ with
      | none => simp [fieldOf, readBack, Except.map, hk] at h0
      | some c =>
        cases c with
        | torn => simp [fieldOf, readBack, Except.map, hk] at h0
        | good rec =>
          refine ⟨out, d, _, d', _, rec, rfl, h2, rfl, hk, fun hg => ?_⟩
          have := (C122_genuine_names hg).2.1
          simp [fieldOf, readBack, Except.map, hk, this, exFold'] at h0

/-- An exception of an oversampler ends the evaluation with one job, but not with several: the result then says
"TimeOutError", whatever the exception was. -/
theorem C122_parallel_hides_errors :
    (∃ msg, (exBench.cachedSeq exObs [exFaulty] [exTree] "" [exFold] exDir).map Prod.fst = .error (.typeError, msg)) ∧
    fieldOf "oversampling_error" (exBench.cachedPar exObs id id [exFaulty] [exTree] "" [exFold] exDir) =
      .ok [some (.text (some "TimeOutError"))] := by
  refine ⟨⟨"boom", ?_⟩, ?_⟩
  · decide +kernel
  · decide +kernel

/-- Folds of another cross-validation that are in the directory are evaluated by a run with several jobs, and not by a
run with one. -/
theorem C122_stale_folds :
    fieldOf "fold_descriptor" (exBench.cachedSeq exObs [exSmote] [exTree] "" [exFold]
      ⟨cacheFoldings [exFold2] [], fun _ => none⟩) = .ok [some (.desc exFold.desc)] ∧
    fieldOf "fold_descriptor" (exBench.cachedPar exObs id id [exSmote] [exTree] "" [exFold]
      ⟨cacheFoldings [exFold2] [], fun _ => none⟩) = .ok [some (.desc exFold.desc), some (.desc exFold2.desc)] :=
  ⟨by decide +kernel, by decide +kernel⟩

theorem evalAll_missing {B : Bench} (ob : Obs) {clfs : List ClfDesc} (hc : clfs ≠ []) :
    ∀ (rs : List (Option JobResult)) (s : Store), none ∈ rs → ∃ e, B.evalAll ob clfs rs s = .error e
  | [], _, h => by simp at h
  | none :: rs, s, _ => ⟨(.typeError, "'NoneType' object is not subscriptable"), by
      simp [Bench.evalAll, Bench.execute1Eval, hc, bind, Except.bind]⟩
  | some r :: rs, s, h => by
    have h' : none ∈ rs := by simpa using h
    cases he : B.execute1Eval ob clfs (some r) s with
    | error e => exact ⟨e, by simp [Bench.evalAll, he, bind, Except.bind]⟩
    | ok p =>
      obtain ⟨e, h2⟩ := evalAll_missing (B := B) ob hc rs p.2 h'
      exact ⟨e, by simp [Bench.evalAll, he, h2, bind, Except.bind]⟩

/-- With several jobs, a job without a result (neither the oversampling nor its replacement after a timeout succeeded) makes the whole
evaluation fail, whatever the other jobs have computed. -/
theorem C122_missing {B : Bench} (ob : Obs) (shuffle sched : List (Fold × OsArg) → List (Fold × OsArg)) (oss : List OsArg)
    {clfs : List ClfDesc} (hc : clfs ≠ []) (opt : String) (folds : List Fold) (d : Dir) {j : Fold × OsArg}
    (hj : j ∈ shuffle (jobsOf (foldsOnDisk (cacheFoldings folds d.folds)) oss))
    (hmiss : ∀ e ∈ (B.poolAll ob (sched (shuffle (jobsOf (foldsOnDisk (cacheFoldings folds d.folds)) oss))) d.store).1,
      e.1 = j → e.2 = none) :
    ∃ e, B.cachedPar ob shuffle sched oss clfs opt folds d = .error e := by
  unfold Bench.cachedPar
  dsimp only
  generalize shuffle (jobsOf (foldsOnDisk (cacheFoldings folds d.folds)) oss) = jobs at hj hmiss ⊢
  generalize B.poolAll ob (sched jobs) d.store = os at hmiss ⊢
  generalize hrs : jobs.map _ = rs
  have hnone : none ∈ rs := by
    rw [← hrs]
    refine List.mem_map.2 ⟨j, hj, ?_⟩
    cases hf : os.1.find? (fun e => decide (e.1 = j)) with
    | none => rfl
    | some e => exact hmiss e (List.mem_of_find?_eq_some hf) (by simpa using List.find?_some hf)
  obtain ⟨e, he⟩ := evalAll_missing (B := B) ob hc rs os.2 hnone
  exact ⟨e, by rw [he]; rfl⟩

/-- A class which cannot be instantiated has no result. -/
example : ({ exBench with instOs := fun _ _ => .error (.valueError, "") }.poolAll exObs [(exFold, exSmote)] exDir.store).1.map Prod.snd =
    [none] := by decide +kernel

end Verif

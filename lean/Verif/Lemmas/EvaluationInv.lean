import Verif.Lemmas.Evaluation

/-! The invariant of a cache directory. -/

namespace Verif

/-- The name of the file of a sampling job. -/
def osKey (B : Bench) (f : Fold) (o : OsArg) : FileKey := ⟨"oversampling", f.desc.repeatIdx, f.desc.foldIdx, B.md5Os o⟩

/-- The name of the file of an evaluation. -/
def evKey (B : Bench) (f : Fold) (p : Dict String String) (clf : ClfDesc) : FileKey :=
  ⟨"evaluation", f.desc.repeatIdx, f.desc.foldIdx, B.md5Clf (clf, p)⟩

/-- Every complete file holds what the jobs with its name compute. -/
structure StoreInv (B : Bench) (F : List Fold) (O : List OsArg) (C : List ClfDesc) (s : Store) : Prop where
  samp : ∀ f ∈ F, ∀ o ∈ O, ∀ r, s (osKey B f o) = some (.good r) → ∃ c t w, osCore B f o = .ok c ∧ r = osRec f c t w
  eval : ∀ f ∈ F, ∀ o ∈ O, ∀ clf ∈ C, ∀ c r, osCore B f o = .ok c → s (evKey B f c.params clf) = some (.good r) →
    Outcome B f o clf r

/-- Complete files stay as they are. -/
def Kept (s s' : Store) : Prop := ∀ k r, s k = some (.good r) → s' k = some (.good r)

theorem Kept.refl (s : Store) : Kept s s := fun _ _ h => h

theorem Kept.trans {s s' s'' : Store} (h : Kept s s') (h' : Kept s' s'') : Kept s s'' :=
  fun k r hk => h' k r (h k r hk)

theorem osCore_params {B : Bench} {f : Fold} {o : OsArg} {c : OsCore} (h : osCore B f o = .ok c) :
    ∃ a, B.instOs o.1 o.2 = .ok a ∧ c.params = coalesceDict (some a.getParams) o.2 := by
  unfold osCore at h
  cases hi : B.instOs o.1 o.2 with
  | error e => rw [hi] at h; cases h
  | ok a =>
    refine ⟨a, rfl, ?_⟩
    rw [hi] at h
    simp only at h
    split at h
    · injection h with h; rw [← h]
    · split at h
      · injection h with h; rw [← h]
      · cases h

/-- Combinations with the same file have the same outcome. -/
theorem osCore_coherent {B : Bench} {F : List Fold} {O : List OsArg} {C : List ClfDesc} (hs : Settled B F O C) {f : Fold}
    {o o' : OsArg} (ho : o ∈ O) (ho' : o' ∈ O) {c c' : OsCore} (hc : osCore B f o = .ok c)
    (hc' : osCore B f o' = .ok c') (hp : c.params = c'.params) : c = c' := by
  obtain ⟨a, ha, hpa⟩ := osCore_params hc
  obtain ⟨a', ha', hpa'⟩ := osCore_params hc'
  have hco : coalesceDict (some a.getParams) o.2 = coalesceDict (some a'.getParams) o'.2 := by rw [← hpa, ← hpa', hp]
  obtain ⟨h1, h2⟩ := hs.alike o ho o' ho' a a' ha ha' hco
  have hatt : (B.sampJob obs0 true f o).attempt a = (B.sampJob obs0 true f o').attempt a' := by
    unfold SampJob.attempt
    rw [h1, h2]
    rfl
  have : osCore B f o = osCore B f o' := by
    unfold osCore
    rw [ha, ha']
    simp only
    rw [hatt, hco]
    rfl
  rw [this, hc'] at hc
  injection hc with hc
  exact hc.symm

theorem evKey_coherent {B : Bench} {F : List Fold} {O : List OsArg} {C : List ClfDesc} (hs : Settled B F O C) {f f' : Fold} (hf : f ∈ F)
    (hf' : f' ∈ F) {o o' : OsArg} (ho : o ∈ O) (ho' : o' ∈ O) {c c' : OsCore} {clf clf' : ClfDesc}
    (hl : clf ∈ C) (hl' : clf' ∈ C)
    (hc : osCore B f o = .ok c) (hc' : osCore B f' o' = .ok c') (hk : evKey B f c.params clf = evKey B f' c'.params clf') :
    f = f' ∧ clf = clf' ∧ c = c' := by
  unfold evKey at hk
  simp only [FileKey.mk.injEq, true_and] at hk
  obtain ⟨h1, h2, h3⟩ := hk
  have hff := hs.folds f hf f' hf' h1 h2
  subst hff
  obtain ⟨a, ha, hpa⟩ := osCore_params hc
  obtain ⟨a', ha', hpa'⟩ := osCore_params hc'
  rw [hpa, hpa'] at h3
  obtain ⟨h4, h5⟩ := hs.hashClf o ho o' ho' clf hl clf' hl' a a' ha ha' h3
  exact ⟨rfl, h4, osCore_coherent hs ho ho' hc hc' (by rw [hpa, hpa', h5])⟩

theorem outcome_congr {B : Bench} {f : Fold} {o o' : OsArg} {clf : ClfDesc} {c : OsCore} {r : Record}
    (hc : osCore B f o = .ok c) (hc' : osCore B f o' = .ok c) (h : Outcome B f o clf r) : Outcome B f o' clf r := by
  obtain ⟨c1, cls, v, ob, t, w, fn, h1, h2, h3, h4⟩ := h
  rw [hc] at h1
  injection h1 with h1
  subst h1
  exact ⟨c, cls, v, ob, t, w, fn, hc', h2, h3, h4⟩

/-- What a sampling job does to the store. -/
theorem samp_step {B : Bench} {ob : Obs} {f : Fold} {o : OsArg} {s s' : Store} {r : JobResult}
    (h : (B.sampJob ob true f o).doOversampling B.md5Os s = .ok (r, s')) :
    r = .file (osKey B f o) ∧ ((s' = s ∧ ∃ rec, s (osKey B f o) = some (.good rec)) ∨
      (s.damaged (osKey B f o) = true ∧ ∃ c, osCore B f o = .ok c ∧
        s' = Function.update s (osKey B f o) (some (.good (osRec f c (ob.osElapsed f o) (ob.osWarnings f o)))))) := by
  unfold SampJob.doOversampling SampJob.run at h
  have hkey : (B.sampJob ob true f o).key B.md5Os = osKey B f o := rfl
  rw [hkey] at h
  split at h
  · rename_i hc
    injection h with h
    obtain ⟨rfl, rfl⟩ := Prod.mk.inj h
    refine ⟨rfl, Or.inl ⟨rfl, ?_⟩⟩
    have := hc.2.1
    unfold Store.damaged at this
    split at this
    · rename_i rec hg; exact ⟨rec, hg⟩
    · simp at this
  · rename_i hc
    rw [samp_compute, ebind_ok] at h
    obtain ⟨rec, hrec, h⟩ := h
    rw [emap_ok] at hrec
    obtain ⟨c, hcore, rfl⟩ := hrec
    rw [if_pos (show (B.sampJob ob true f o).cached = true from rfl)] at h
    injection h with h
    obtain ⟨rfl, rfl⟩ := Prod.mk.inj h
    refine ⟨rfl, Or.inr ⟨?_, c, hcore, rfl⟩⟩
    by_contra hd
    exact hc ⟨rfl, by simpa using hd, rfl⟩

theorem kept_of_damaged {s : Store} {k : FileKey} (hd : s.damaged k = true) (c : Option Cell) :
    Kept s (Function.update s k c) := by
  intro q r hq
  by_cases e : q = k
  · subst e
    unfold Store.damaged at hd
    rw [hq] at hd
    simp at hd
  · rw [Function.update_of_ne e]; exact hq

theorem samp_kept {B : Bench} {ob : Obs} {f : Fold} {o : OsArg} {s s' : Store} {r : JobResult}
    (h : (B.sampJob ob true f o).doOversampling B.md5Os s = .ok (r, s')) : Kept s s' := by
  rcases (samp_step h).2 with ⟨rfl, -⟩ | ⟨hd, c, -, rfl⟩
  · exact Kept.refl _
  · exact kept_of_damaged hd _

/-- What a round of an evaluation does to the store. -/
theorem eval_step {B : Bench} {ob : Obs} {f : Fold} {c : OsCore} {cls : String} {t : ℚ} {w : String}
    {fn : Option String} {clf : ClfDesc} {s s' : Store} {r : JobResult}
    (h : (B.evalJob ob true (osSeen f c cls t w fn)).step B.md5Clf clf s = .ok (r, s')) :
    r = .file (evKey B f c.params clf) ∧ ((s' = s ∧ ∃ rec, s (evKey B f c.params clf) = some (.good rec)) ∨
      (s.damaged (evKey B f c.params clf) = true ∧ ∃ v, evCore B f c clf = .ok v ∧
        s' = Function.update s (evKey B f c.params clf) (some (.good (evRec B ob (osSeen f c cls t w fn) clf v))))) := by
  unfold EvalJob.step at h
  have hkey : (B.evalJob ob true (osSeen f c cls t w fn)).key B.md5Clf clf = evKey B f c.params clf := rfl
  rw [hkey] at h
  split at h
  · rename_i hc
    injection h with h
    obtain ⟨rfl, rfl⟩ := Prod.mk.inj h
    refine ⟨rfl, Or.inl ⟨rfl, ?_⟩⟩
    have := hc.2.1
    unfold Store.damaged at this
    split at this
    · rename_i rec hg; exact ⟨rec, hg⟩
    · simp at this
  · rename_i hc
    rw [eval_compute, ebind_ok] at h
    obtain ⟨rec, hrec, h⟩ := h
    rw [emap_ok] at hrec
    obtain ⟨v, hv, rfl⟩ := hrec
    rw [if_pos (show (B.evalJob ob true (osSeen f c cls t w fn)).cached = true from rfl)] at h
    injection h with h
    obtain ⟨rfl, rfl⟩ := Prod.mk.inj h
    refine ⟨rfl, Or.inr ⟨?_, v, hv, rfl⟩⟩
    by_contra hd
    exact hc ⟨rfl, by simpa using hd, rfl⟩

/-- Loading a file that a sampling job has written. -/
theorem osOf_inv {B : Bench} {F : List Fold} {O : List OsArg} {C : List ClfDesc} {s : Store} (hi : StoreInv B F O C s) {f : Fold} (hf : f ∈ F)
    {o : OsArg} (ho : o ∈ O) {os : OsRecord} (h : B.osOf s (.file (osKey B f o)) = .ok os) :
    ∃ c cls t w, osCore B f o = .ok c ∧ c.params.get "class_name" = some cls ∧
      os = osSeen f c cls t w (some (B.path (osKey B f o))) := by
  unfold Bench.osOf at h
  simp only at h
  split at h
  · rename_i r hr
    obtain ⟨c, t, w, hc, rfl⟩ := hi.samp f hf o ho r hr
    rw [readOs_osRec] at h
    split at h
    · rename_i cls hcls
      injection h with h
      exact ⟨c, cls, t, w, hc, hcls, h.symm⟩
    · cases h
  · cases h
  · cases h

theorem StoreInv.samp_step {B : Bench} {F : List Fold} {O : List OsArg} {C : List ClfDesc} (hs : Settled B F O C) {s s' : Store}
    (hi : StoreInv B F O C s) {ob : Obs} {f : Fold} (hf : f ∈ F) {o : OsArg} (ho : o ∈ O) {r : JobResult}
    (h : (B.sampJob ob true f o).doOversampling B.md5Os s = .ok (r, s')) : StoreInv B F O C s' := by
  rcases (Verif.samp_step h).2 with ⟨rfl, -⟩ | ⟨-, c, hc, rfl⟩
  · exact hi
  · constructor
    · intro g hg p hp q hq
      by_cases e : osKey B g p = osKey B f o
      · rw [e, Function.update_self] at hq
        unfold osKey at e
        simp only [FileKey.mk.injEq, true_and] at e
        have h1 := hs.folds g hg f hf e.1 e.2.1
        have h2 := hs.hashOs p hp o ho e.2.2
        subst h1 h2
        simp only [Option.some.injEq, Cell.good.injEq] at hq
        exact ⟨c, _, _, hc, hq.symm⟩
      · rw [Function.update_of_ne e] at hq
        exact hi.samp g hg p hp q hq
    · intro g hg p hp clf hclf c' q hc' hq
      rw [Function.update_of_ne (by simp [evKey, osKey])] at hq
      exact hi.eval g hg p hp clf hclf c' q hc' hq

theorem StoreInv.eval_step {B : Bench} {F : List Fold} {O : List OsArg} {C : List ClfDesc} (hs : Settled B F O C) {s s' : Store}
    (hi : StoreInv B F O C s) {ob : Obs} {f : Fold} (hf : f ∈ F) {o : OsArg} (ho : o ∈ O) {c : OsCore} {cls : String}
    {t : ℚ} {w : String} {fn : Option String} (hc : osCore B f o = .ok c) (hcls : c.params.get "class_name" = some cls)
    {clf : ClfDesc} (hl : clf ∈ C) {r : JobResult}
    (h : (B.evalJob ob true (osSeen f c cls t w fn)).step B.md5Clf clf s = .ok (r, s')) : StoreInv B F O C s' := by
  rcases (Verif.eval_step h).2 with ⟨rfl, -⟩ | ⟨-, v, hv, rfl⟩
  · exact hi
  · constructor
    · intro g hg p hp q hq
      rw [Function.update_of_ne (by simp [evKey, osKey])] at hq
      exact hi.samp g hg p hp q hq
    · intro g hg p hp clf' hclf' c' q hc' hq
      by_cases e : evKey B g c'.params clf' = evKey B f c.params clf
      · rw [e, Function.update_self] at hq
        obtain ⟨rfl, rfl, rfl⟩ := evKey_coherent hs hg hf hp ho hclf' hl hc' hc e
        simp only [Option.some.injEq, Cell.good.injEq] at hq
        exact ⟨c', cls, v, ob, t, w, fn, hc', hcls, hv, hq.symm⟩
      · rw [Function.update_of_ne e] at hq
        exact hi.eval g hg p hp clf' hclf' c' q hc' hq

theorem StoreInv.torn {B : Bench} {F : List Fold} {O : List OsArg} {C : List ClfDesc} {s : Store} (hi : StoreInv B F O C s) (k : FileKey) :
    StoreInv B F O C (Function.update s k (some .torn)) := by
  have key : ∀ q r, Function.update s k (some .torn) q = some (.good r) → s q = some (.good r) := by
    intro q r hq
    by_cases e : q = k
    · subst e; rw [Function.update_self] at hq; simp at hq
    · rwa [Function.update_of_ne e] at hq
  exact ⟨fun f hf o ho r h => hi.samp f hf o ho r (key _ _ h),
    fun f hf o ho clf hl c r hc h => hi.eval f hf o ho clf hl c r hc (key _ _ h)⟩

theorem StoreInv.removed {B : Bench} {F : List Fold} {O : List OsArg} {C : List ClfDesc} {s : Store} (hi : StoreInv B F O C s)
    (p : FileKey → Bool) : StoreInv B F O C (fun k => if p k then none else s k) := by
  have key : ∀ q r, (if p q then none else s q) = some (Cell.good r) → s q = some (.good r) := by
    intro q r hq
    split at hq
    · simp at hq
    · exact hq
  exact ⟨fun f hf o ho r h => hi.samp f hf o ho r (key _ _ h),
    fun f hf o ho clf hl c r hc h => hi.eval f hf o ho clf hl c r hc (key _ _ h)⟩

/-- The invariant holds throughout a history. -/
theorem History.inv {B : Bench} {F : List Fold} {O : List OsArg} {C : List ClfDesc} (hs : Settled B F O C) {s : Store}
    (h : History B F O C s) : StoreInv B F O C s := by
  induction h with
  | empty => exact ⟨fun _ _ _ _ _ h => by simp at h, fun _ _ _ _ _ _ _ _ _ h => by simp at h⟩
  | samp _ hf ho h ih => exact ih.samp_step hs hf ho h
  | eval _ hf ho hl hos h ih =>
    obtain ⟨c, cls, t, w, hc, hcls, rfl⟩ := osOf_inv ih hf ho hos
    exact ih.eval_step hs hf ho hc hcls hl h
  | torn k _ ih => exact ih.torn k
  | removed p _ ih => exact ih.removed p

end Verif

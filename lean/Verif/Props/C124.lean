import Verif.Spec.Reuse
import Verif.Lemmas.Interp
import Verif.Props.C82
import Verif.Props.C99
import Verif.Props.C102

/-!
# C124: an oversampler that is used again

For every history of calls, with exceptions among them.
-/

namespace Verif

/-! ## The object and the function -/

theorem setStatistics_ok {y : List Int} {s : Stats} (h : classLabelStatistics y = .ok s) (c : ClassAttrs) :
    setStatistics y c = (.ok (), ⟨some s.classStats, some s.minLabel, some s.majLabel⟩) := by
  unfold classLabelStatistics at h
  unfold setStatistics
  split at h
  · rename_i u0 c0 u1 c1 rest hu
    rw [hu]
    injection h with h
    subst h
    rfl
  · cases h

theorem setStatistics_error {y : List Int} {e : PyErr} (h : classLabelStatistics y = .error e) (c : ClassAttrs) :
    setStatistics y c = (.error e, { c with classStats := some (npUniqueCounts y) }) := by
  unfold classLabelStatistics at h
  unfold setStatistics
  split at h
  · cases h
  · rename_i hne
    injection h with h
    subst h
    split
    · rename_i u0 c0 u1 c1 rest hu
      exact absurd hu (hne u0 c0 u1 c1 rest)
    · rfl

theorem sampleOn_out {P : Type} (checks : List Check) (c : SampleCall P) (o : SamplerObj P) :
    (sampleOn checks c o).1 = sample checks c.d (fun s X y => (c.alg o.fields s X y).1) c.X c.y := by
  unfold sampleOn sample
  cases h : classLabelStatistics c.y with
  | error e => rw [setStatistics_error h]; rfl
  | ok s =>
    rw [setStatistics_ok h]
    simp only [ClassAttrs.read, ok_bind]
    split <;> rfl

theorem sampleOn_fields {P : Type} (checks : List Check) (c : SampleCall P) (o : SamplerObj P) :
    (∃ e, classLabelStatistics c.y = .error e ∧ (sampleOn checks c o).2.fields = o.fields) ∨
    ∃ s, classLabelStatistics c.y = .ok s ∧ (sampleOn checks c o).2.fields =
      if checksFire (s.count s.minLabel) c.d checks then o.fields else (c.alg o.fields s c.X c.y).2 := by
  unfold sampleOn
  cases h : classLabelStatistics c.y with
  | error e => left; exact ⟨e, rfl, by rw [setStatistics_error h]⟩
  | ok s =>
    right
    refine ⟨s, rfl, ?_⟩
    rw [setStatistics_ok h]
    simp only [ClassAttrs.read]
    split <;> rfl

theorem sampleOn_attrs {P : Type} (checks : List Check) (c : SampleCall P) (o : SamplerObj P) :
    (sampleOn checks c o).2.attrs = (setStatistics c.y o.attrs).2 := by
  unfold sampleOn
  cases h : classLabelStatistics c.y with
  | error e => rw [setStatistics_error h]
  | ok s =>
    rw [setStatistics_ok h]
    simp only [ClassAttrs.read]
    split <;> rfl

theorem afterCalls_append {P : Type} (checks : List Check) (l l' : List (SampleCall P)) (o : SamplerObj P) :
    afterCalls checks (l ++ l') o = afterCalls checks l' (afterCalls checks l o) := by
  induction l generalizing o with
  | nil => rfl
  | cons c l ih => exact ih _

/-- A property of the fields that every call keeps holds after any calls. -/
theorem afterCalls_inv {P : Type} {checks : List Check} {Inv : P → Prop} {hist : List (SampleCall P)}
    (hk : ∀ c ∈ hist, ∀ f s, Inv f → Inv (c.alg f s c.X c.y).2) {o : SamplerObj P} (h : Inv o.fields) : Inv (afterCalls checks hist o).fields := by
  induction hist generalizing o with
  | nil => exact h
  | cons c hist ih =>
    refine ih (fun c' hc' => hk c' (List.mem_cons_of_mem _ hc')) ?_
    rcases sampleOn_fields checks c o with ⟨e, _, h1⟩ | ⟨s, _, h1⟩
    · rw [h1]; exact h
    · rw [h1]
      split
      · exact h
      · exact hk c List.mem_cons_self _ _ h

/-- **The statistics of earlier calls do not matter.** An object whose algorithm leaves its fields alone gives, after any calls, what a new one
gives: the value of the function `sample` of the other properties. -/
theorem C124_plain {P : Type} {checks : List Check} {hist : List (SampleCall P)} (hk : ∀ c ∈ hist, ∀ f s, (c.alg f s c.X c.y).2 = f)
    (c : SampleCall P) (f : P) : LikeFresh checks hist c f f ∧
      (sampleOn checks c (afterCalls checks hist { fields := f })).1 = sample checks c.d (fun s X y => (c.alg f s X y).1) c.X c.y := by
  have h : (afterCalls checks hist ({ fields := f } : SamplerObj P)).fields = f :=
    afterCalls_inv (Inv := fun g => g = f) (fun c' hc' g s hg => by rw [hk c' hc' g s, hg]) rfl
  unfold LikeFresh
  rw [sampleOn_out, sampleOn_out, h]
  exact ⟨rfl, rfl⟩

/-- **Fields that are only written.** If the outcome of a call does not depend on the fields, the history does not matter, whatever the calls leave
behind. -/
theorem likeFresh_of_ignored {P : Type} {checks : List Check} {hist : List (SampleCall P)} {c : SampleCall P}
    (hc : ∀ f g s, (c.alg f s c.X c.y).1 = (c.alg g s c.X c.y).1) (f g : P) : LikeFresh checks hist c f g := by
  unfold LikeFresh
  rw [sampleOn_out, sampleOn_out]
  unfold sample
  cases classLabelStatistics c.y with
  | error e => rfl
  | ok s =>
    simp only [ok_bind]
    rw [hc _ g s]

/-- **The attributes are those of the last call.** Whatever was called before, after a call with two classes `min_label`, `maj_label` and
`class_stats` are the labels and the sizes of the classes of that call. -/
theorem C124_attributes {P : Type} (checks : List Check) (hist : List (SampleCall P)) (c : SampleCall P) {a b : Int} (hmin : IsMinority c.y a b)
    (o : SamplerObj P) : ∃ cs, (afterCalls checks (hist ++ [c]) o).attrs = ⟨some cs, some a, some b⟩ ∧
      cs.lookup a = some (c.y.count a) ∧ cs.lookup b = some (c.y.count b) := by
  obtain ⟨s, hs, rfl, rfl⟩ := stats_of_isMinority hmin
  obtain ⟨hm, hM, _⟩ := stats_min_mem hs
  rw [afterCalls_append]
  show ∃ cs, (sampleOn checks c _).2.attrs = _ ∧ _
  rw [sampleOn_attrs, setStatistics_ok hs]
  obtain ⟨_, _, _, _, hc, _, _⟩ := stats_shape hs
  refine ⟨s.classStats, rfl, ?_, ?_⟩
  · rw [hc]; exact lookup_counts (mem_npUnique.2 hm)
  · rw [hc]; exact lookup_counts (mem_npUnique.2 hM)

/-- **A failed call mixes the attributes.** A call with one class only ends with an `IndexError`; it has replaced `class_stats` but the labels are
those of the call before, and the size of the minority class can no longer be looked up. -/
theorem C124_one_class {P : Type} (checks : List Check) (c c' : SampleCall P) {a b l : Int} (hmin : IsMinority c.y a b) (hne : c'.y ≠ [])
    (h1 : ∀ v ∈ c'.y, v = l) (hl : l ≠ a) (o : SamplerObj P) :
    (sampleOn checks c' (sampleOn checks c o).2).1 = .error .indexError ∧
    ∃ cs, (afterCalls checks [c, c'] o).attrs = ⟨some cs, some a, some b⟩ ∧ cs.lookup a = none ∧ cs.lookup l = some c'.y.length := by
  obtain ⟨s, hs, rfl, rfl⟩ := stats_of_isMinority hmin
  have hu : npUniqueCounts c'.y = [(l, c'.y.length)] := by
    have h2 : npUnique c'.y = [l] := by
      have hmem : ∀ v, v ∈ npUnique c'.y ↔ v = l := by
        intro v
        rw [mem_npUnique]
        refine ⟨h1 v, ?_⟩
        rintro rfl
        obtain ⟨w, hw⟩ := List.exists_mem_of_ne_nil _ hne
        rw [← h1 w hw]; exact hw
      have hnd := npUnique_nodup c'.y
      match hq : npUnique c'.y with
      | [] => rw [hq] at hmem; exact absurd ((hmem l).2 rfl) (by simp)
      | [v] => rw [hq] at hmem; rw [(hmem v).1 (by simp)]
      | v :: w :: r =>
        rw [hq] at hmem hnd
        have hv := (hmem v).1 (by simp)
        have hw := (hmem w).1 (by simp)
        rw [hv, hw] at hnd
        simp at hnd
    unfold npUniqueCounts
    rw [h2]
    simp only [List.map_cons, List.map_nil]
    have : c'.y.count l = c'.y.length := by
      rw [List.count_eq_length]
      exact fun v hv => (h1 v hv).symm
    rw [this]
  have herr : classLabelStatistics c'.y = .error .indexError := by
    unfold classLabelStatistics
    rw [hu]
  refine ⟨?_, ?_⟩
  · rw [sampleOn_out]
    unfold sample
    rw [herr]; rfl
  · refine ⟨npUniqueCounts c'.y, ?_, ?_, ?_⟩
    · show (sampleOn checks c' (sampleOn checks c o).2).2.attrs = _
      rw [sampleOn_attrs, sampleOn_attrs, setStatistics_ok hs, setStatistics_error herr]
    · rw [hu]
      have : (s.minLabel == l) = false := by simpa using Ne.symm hl
      simp [List.lookup, this]
    · rw [hu]
      simp [List.lookup]

/-! ## Fields that shrink -/

theorem LeastOf.step {start m x : Nat} {S : Nat → Prop} (h : LeastOf (min start x) S m) : LeastOf start (fun n => n = x ∨ S n) m := by
  obtain ⟨h1, h2, h3⟩ := h
  refine ⟨h1.trans (min_le_left _ _), ?_, ?_⟩
  · intro n hn
    rcases hn with rfl | hn
    · exact h1.trans (min_le_right _ _)
    · exact h2 n hn
  · rcases h3 with h3 | h3
    · rcases min_choice start x with h | h
      · left; rw [h3, h]
      · right; left; rw [h3, h]
    · right; right; exact h3

theorem LeastOf.congr {start m : Nat} {S T : Nat → Prop} (h : LeastOf start S m) (hST : ∀ n, S n ↔ T n) : LeastOf start T m :=
  ⟨h.1, fun n hn => h.2.1 n ((hST n).2 hn), h.2.2.imp id (hST m).1⟩

theorem LeastOf.unique {start m m' : Nat} {S : Nat → Prop} (h : LeastOf start S m) (h' : LeastOf start S m') : m = m' := by
  obtain ⟨h1, h2, h3⟩ := h
  obtain ⟨h1', h2', h3'⟩ := h'
  refine le_antisymm ?_ ?_
  · rcases h3' with e | e
    · rw [e]; exact h1
    · exact h2 _ e
  · rcases h3 with e | e
    · rw [e]; exact h1'
    · exact h2' _ e

/-- A call of MOT2LD with the numbers drawn in it. -/
structure MotCall where
  d : Nat
  X : List Row
  y : List Int
  env : MotEnv
  tsne : Nat → List Row → List Row
  vol : List Row → ℚ
  cu : Nat → ℚ
  drs : Nat → Draws

def MotCall.call (par : MotParams) (c : MotCall) : SampleCall Nat :=
  ⟨c.d, c.X, c.y, motObjAlg par c.env c.tsne c.vol c.cu c.drs c.d⟩

/-- What the first call of a MOT2LD object with `n_components = nc` gives. -/
def MotCall.first (par : MotParams) (nc : Nat) (c : MotCall) : Res (List Row × List Int) :=
  (sampleOn defaultChecks (c.call par) { fields := nc }).1

/-- The call gets to the sampling: more than two minority rows and some rows requested. -/
def MotCall.Samples (par : MotParams) (c : MotCall) : Prop :=
  ∃ a b, IsMinority c.y a b ∧ 2 < c.y.count a ∧ 0 < requested par.proportion (c.y.count b) (c.y.count a)

theorem motObjAlg_keep {par : MotParams} {c : MotCall} {s : Stats} {nc : Nat}
    (h : detNToSample (.num par.proportion) (s.count s.majLabel) (s.count s.minLabel) = .ok 0) :
    ((c.call par).alg nc s c.X c.y).2 = nc := by
  show (motObjAlg par c.env c.tsne c.vol c.cu c.drs c.d nc s c.X c.y).2 = nc
  unfold motObjAlg
  rw [h]

theorem motObjAlg_shrink {par : MotParams} {c : MotCall} {s : Stats} {nc n : Nat}
    (h : detNToSample (.num par.proportion) (s.count s.majLabel) (s.count s.minLabel) = .ok n) (hn : 0 < n) :
    ((c.call par).alg nc s c.X c.y).2 = min nc c.d := by
  show (motObjAlg par c.env c.tsne c.vol c.cu c.drs c.d nc s c.X c.y).2 = min nc c.d
  unfold motObjAlg
  rw [h]
  obtain ⟨k, rfl⟩ : ∃ k, n = k + 1 := ⟨n - 1, by omega⟩
  simp only
  split
  · rfl
  · rw [min_eq_left (by omega)]

/-- What a call leaves in `n_components`. -/
theorem mot_fields {par : MotParams} {c : MotCall} {a b : Int} (hmin : IsMinority c.y a b) (o : SamplerObj Nat) :
    (c.Samples par ∧ (sampleOn defaultChecks (c.call par) o).2.fields = min o.fields c.d) ∨
    (¬ c.Samples par ∧ (sampleOn defaultChecks (c.call par) o).2.fields = o.fields) := by
  obtain ⟨s, hs, ha, hb⟩ := stats_of_isMinority hmin
  obtain ⟨hm, hM, _⟩ := stats_min_mem hs
  have hdet : detNToSample (.num par.proportion) (c.y.count s.majLabel) (c.y.count s.minLabel) =
      .ok (requested par.proportion (c.y.count s.majLabel) (c.y.count s.minLabel)) := detN_eq_requested
  have hiff : c.Samples par ↔ 2 < c.y.count s.minLabel ∧ 0 < requested par.proportion (c.y.count s.majLabel) (c.y.count s.minLabel) := by
    constructor
    · rintro ⟨a', b', hmin', h1, h2⟩
      obtain ⟨s', hs', rfl, rfl⟩ := stats_of_isMinority hmin'
      rw [hs] at hs'
      injection hs' with hs'
      subst hs'
      exact ⟨h1, h2⟩
    · rintro ⟨h1, h2⟩
      subst ha hb
      exact ⟨_, _, hmin, h1, h2⟩
  rcases sampleOn_fields defaultChecks (c.call par) o with ⟨e, he, _⟩ | ⟨s', hs', hf⟩
  · exact absurd (hs.symm.trans he) (by simp)
  · have : s' = s := by
      have := hs'.symm.trans hs
      injection this
    subst this
    rw [hf, hiff, stats_count hs hm, checksFire_default]
    by_cases h2 : c.y.count s'.minLabel ≤ 2
    · right
      rw [if_pos (by simpa using h2)]
      exact ⟨by omega, rfl⟩
    · rw [if_neg (by simpa using h2)]
      rcases Nat.eq_zero_or_pos (requested par.proportion (c.y.count s'.majLabel) (c.y.count s'.minLabel)) with h0 | h0
      · right
        refine ⟨by omega, ?_⟩
        refine motObjAlg_keep ?_
        rw [stats_count hs hm, stats_count hs hM, hdet, h0]
      · left
        refine ⟨⟨by omega, h0⟩, ?_⟩
        refine motObjAlg_shrink (n := requested par.proportion (c.y.count s'.majLabel) (c.y.count s'.minLabel)) ?_ h0
        rw [stats_count hs hm, stats_count hs hM, hdet]

/-- **MOT2LD remembers the smallest number of features.** After any calls the object, and `get_params()`, has as `n_components` the least of the
number it was made with and the numbers of features of the data sets it has sampled; from then on it gives what a new object with this number
gives. -/
theorem C124_mot2ld {par : MotParams} {hist : List MotCall} (h2 : ∀ c ∈ hist, ∃ a b, IsMinority c.y a b) (nc : Nat) :
    ∃ m, LeastOf nc (fun n => ∃ c ∈ hist, c.Samples par ∧ c.d = n) m ∧
      (afterCalls defaultChecks (hist.map (MotCall.call par)) { fields := nc }).fields = m ∧
      ∀ c : MotCall, (sampleOn defaultChecks (c.call par) (afterCalls defaultChecks (hist.map (MotCall.call par)) { fields := nc })).1 = c.first par m := by
  have key : ∀ (hist : List MotCall), (∀ c ∈ hist, ∃ a b, IsMinority c.y a b) → ∀ o : SamplerObj Nat,
      LeastOf o.fields (fun n => ∃ c ∈ hist, c.Samples par ∧ c.d = n) (afterCalls defaultChecks (hist.map (MotCall.call par)) o).fields := by
    intro hist
    induction hist with
    | nil => intro _ o; exact ⟨le_rfl, by simp, Or.inl rfl⟩
    | cons c hist ih =>
      intro h2 o
      obtain ⟨a, b, hmin⟩ := h2 c List.mem_cons_self
      have h := ih (fun c hc => h2 c (List.mem_cons_of_mem _ hc)) (sampleOn defaultChecks (c.call par) o).2
      show LeastOf o.fields _ (afterCalls defaultChecks (hist.map (MotCall.call par)) (sampleOn defaultChecks (c.call par) o).2).fields
      rcases mot_fields (par := par) hmin o with ⟨h3, h4⟩ | ⟨h3, h4⟩
      · rw [h4] at h
        refine h.step.congr (fun n => ?_)
        constructor
        · rintro (rfl | ⟨c', hc', h5, h6⟩)
          · exact ⟨c, List.mem_cons_self, h3, rfl⟩
          · exact ⟨c', List.mem_cons_of_mem _ hc', h5, h6⟩
        · rintro ⟨c', hc', h5, h6⟩
          rcases List.mem_cons.1 hc' with rfl | hc'
          · exact Or.inl h6.symm
          · exact Or.inr ⟨c', hc', h5, h6⟩
      · rw [h4] at h
        refine h.congr (fun n => ?_)
        constructor
        · rintro ⟨c', hc', h5, h6⟩
          exact ⟨c', List.mem_cons_of_mem _ hc', h5, h6⟩
        · rintro ⟨c', hc', h5, h6⟩
          rcases List.mem_cons.1 hc' with rfl | hc'
          · exact absurd h5 h3
          · exact ⟨c', hc', h5, h6⟩
  refine ⟨_, key hist h2 _, rfl, fun c => ?_⟩
  unfold MotCall.first
  rw [sampleOn_out, sampleOn_out]

theorem motObjAlg_min (par : MotParams) (env : MotEnv) (tsne : Nat → List Row → List Row) (vol : List Row → ℚ) (cu : Nat → ℚ) (drs : Nat → Draws)
    {d nc m : Nat} (h : min nc d = min m d) (s : Stats) (X : List Row) (y : List Int) :
    (motObjAlg par env tsne vol cu drs d nc s X y).1 = (motObjAlg par env tsne vol cu drs d m s X y).1 := by
  have h1 : ∀ k : Nat, (if d < k then min k d else k) = min k d := by
    intro k
    split
    · rfl
    · rw [min_eq_left (by omega)]
  unfold motObjAlg
  cases detNToSample (.num par.proportion) (s.count s.majLabel) (s.count s.minLabel) with
  | error e => rfl
  | ok n =>
    cases n with
    | zero => rfl
    | succ n =>
      simp only [h1]
      rw [h]

/-- **When MOT2LD behaves like new.** If no data set sampled before has fewer features than the call needs components, the history does not
matter. -/
theorem C124_mot2ld_same {par : MotParams} {hist : List MotCall} (h2 : ∀ c ∈ hist, ∃ a b, IsMinority c.y a b) {nc : Nat} {c : MotCall}
    (hd : ∀ c' ∈ hist, c'.Samples par → min nc c.d ≤ c'.d) :
    LikeFresh defaultChecks (hist.map (MotCall.call par)) (c.call par) nc nc := by
  obtain ⟨m, ⟨h3, h4, h5⟩, _, h6⟩ := C124_mot2ld (par := par) h2 nc
  unfold LikeFresh
  rw [h6 c]
  unfold MotCall.first
  rw [sampleOn_out, sampleOn_out]
  have hmn : min m c.d = min nc c.d := by
    rcases h5 with rfl | ⟨c', hc', h7, rfl⟩
    · rfl
    · have := hd c' hc' h7
      omega
  have : (fun s X y => ((c.call par).alg m s X y).1) = fun s X y => ((c.call par).alg nc s X y).1 := by
    funext s X y
    exact motObjAlg_min par c.env c.tsne c.vol c.cu c.drs hmn s X y
  show sample defaultChecks (c.call par).d (fun s X y => ((c.call par).alg m s X y).1) _ _ = _
  rw [this]

/-- A call of SMOTE_PSOBAT with the numbers drawn in it. -/
structure PbCall where
  d : Nat
  X : List Row
  y : List Int
  env : PbEnv
  vol : List Row → ℚ
  dr : Draws
  knn : Nat → List Row → List (List Nat)

def PbCall.call (par : PbParams) (ss : SSParams) (c : PbCall) : SampleCall Nat :=
  ⟨c.d, c.X, c.y, psobatObjAlg c.env par ss c.vol c.dr c.d c.knn⟩

/-- The call gets to the search. -/
def PbCall.Searches (c : PbCall) (n : Nat) : Prop := ∃ a b, IsMinority c.y a b ∧ c.y.count a = n ∧ 2 < n

theorem pb_fields {par : PbParams} {ss : SSParams} {c : PbCall} {a b : Int} (hmin : IsMinority c.y a b) (o : SamplerObj Nat) :
    (2 < c.y.count a ∧ (sampleOn defaultChecks (c.call par ss) o).2.fields = min o.fields (c.y.count a)) ∨
    (c.y.count a ≤ 2 ∧ (sampleOn defaultChecks (c.call par ss) o).2.fields = o.fields) := by
  obtain ⟨s, hs, rfl, rfl⟩ := stats_of_isMinority hmin
  obtain ⟨hm, _, _⟩ := stats_min_mem hs
  rcases sampleOn_fields defaultChecks (c.call par ss) o with ⟨e, he, _⟩ | ⟨s', hs', hf⟩
  · exact absurd (hs.symm.trans he) (by simp)
  · have : s' = s := by
      have := hs'.symm.trans hs
      injection this
    subst this
    rw [hf, stats_count hs hm, checksFire_default]
    by_cases h2 : c.y.count s'.minLabel ≤ 2
    · right
      rw [if_pos (by simpa using h2)]
      exact ⟨h2, rfl⟩
    · left
      rw [if_neg (by simpa using h2)]
      refine ⟨by omega, ?_⟩
      show pbRange o.fields (s'.count s'.minLabel) = _
      rw [stats_count hs hm]
      exact min_comm _ _

/-- **SMOTE_PSOBAT remembers the smallest minority class.** After any calls the object searches up to the least of 10 (the range it was made with)
and the sizes of the minority classes it has seen, and gives what an object with this range gives. The range is not among the parameters. -/
theorem C124_psobat {par : PbParams} {ss : SSParams} {hist : List PbCall} (h2 : ∀ c ∈ hist, ∃ a b, IsMinority c.y a b) (hi : Nat) :
    ∃ m, LeastOf hi (fun n => ∃ c ∈ hist, c.Searches n) m ∧
      ∀ c : PbCall, LikeFresh defaultChecks (hist.map (PbCall.call par ss)) (c.call par ss) hi m := by
  have key : ∀ (hist : List PbCall), (∀ c ∈ hist, ∃ a b, IsMinority c.y a b) → ∀ o : SamplerObj Nat,
      LeastOf o.fields (fun n => ∃ c ∈ hist, c.Searches n) (afterCalls defaultChecks (hist.map (PbCall.call par ss)) o).fields := by
    intro hist
    induction hist with
    | nil => intro _ o; exact ⟨le_rfl, by simp, Or.inl rfl⟩
    | cons c hist ih =>
      intro h2 o
      obtain ⟨a, b, hmin⟩ := h2 c List.mem_cons_self
      have hun : ∀ n, c.Searches n → n = c.y.count a ∧ 2 < c.y.count a := by
        rintro n ⟨a', b', hmin', rfl, h⟩
        obtain ⟨s, hs, rfl, rfl⟩ := stats_of_isMinority hmin
        obtain ⟨s', hs', rfl, rfl⟩ := stats_of_isMinority hmin'
        rw [hs] at hs'
        injection hs' with hs'
        subst hs'
        exact ⟨rfl, h⟩
      have h := ih (fun c hc => h2 c (List.mem_cons_of_mem _ hc)) (sampleOn defaultChecks (c.call par ss) o).2
      show LeastOf o.fields _ (afterCalls defaultChecks (hist.map (PbCall.call par ss)) (sampleOn defaultChecks (c.call par ss) o).2).fields
      rcases pb_fields (par := par) (ss := ss) hmin o with ⟨h3, h4⟩ | ⟨h3, h4⟩
      · rw [h4] at h
        refine h.step.congr (fun n => ?_)
        constructor
        · rintro (rfl | ⟨c', hc', h5⟩)
          · exact ⟨c, List.mem_cons_self, a, b, hmin, rfl, h3⟩
          · exact ⟨c', List.mem_cons_of_mem _ hc', h5⟩
        · rintro ⟨c', hc', h5⟩
          rcases List.mem_cons.1 hc' with rfl | hc'
          · exact Or.inl (hun n h5).1
          · exact Or.inr ⟨c', hc', h5⟩
      · rw [h4] at h
        refine h.congr (fun n => ?_)
        constructor
        · rintro ⟨c', hc', h5⟩
          exact ⟨c', List.mem_cons_of_mem _ hc', h5⟩
        · rintro ⟨c', hc', h5⟩
          rcases List.mem_cons.1 hc' with rfl | hc'
          · have := (hun n h5).2; omega
          · exact ⟨c', hc', h5⟩
  refine ⟨_, key hist h2 { fields := hi }, fun c => ?_⟩
  unfold LikeFresh
  rw [sampleOn_out, sampleOn_out]

/-- **When SMOTE_PSOBAT behaves like new.** If no minority class seen before is smaller than 10 (the range) or than that of the call, the history
does not matter. -/
theorem C124_psobat_same {par : PbParams} {ss : SSParams} {hist : List PbCall} (h2 : ∀ c ∈ hist, ∃ a b, IsMinority c.y a b) {hi : Nat} {c : PbCall}
    {a b : Int} (hmin : IsMinority c.y a b) (hn : ∀ c' ∈ hist, ∀ n, c'.Searches n → min hi (c.y.count a) ≤ n) :
    LikeFresh defaultChecks (hist.map (PbCall.call par ss)) (c.call par ss) hi hi := by
  obtain ⟨m, ⟨h3, h4, h5⟩, h6⟩ := C124_psobat (par := par) (ss := ss) h2 hi
  have h7 := h6 c
  unfold LikeFresh at h7 ⊢
  rw [h7, sampleOn_out, sampleOn_out]
  obtain ⟨s, hs, rfl, rfl⟩ := stats_of_isMinority hmin
  obtain ⟨hm, _, _⟩ := stats_min_mem hs
  have hr : pbRange m (s.count s.minLabel) = pbRange hi (s.count s.minLabel) := by
    rw [stats_count hs hm]
    show min _ m = min _ hi
    rcases h5 with rfl | ⟨c', hc', h7⟩
    · rfl
    · have := hn c' hc' m h7
      omega
  show sample defaultChecks c.d (psobatAlg c.env par m ss c.vol c.dr c.d c.knn) c.X c.y =
    sample defaultChecks c.d (psobatAlg c.env par hi ss c.vol c.dr c.d c.knn) c.X c.y
  rw [sample_default hs, sample_default hs]
  unfold psobatAlg
  rw [hr]

/-! ## Fields that are written and not read -/

/-- **SOI_CJ.** The gaussian component a call leaves behind, whatever it is, changes no later result; `get_params()` shows it. -/
theorem C124_soi_cj (checks : List Check) (par : NbParams) (method : SoiMethod) (env : SoiEnv) (vol : List Row → ℚ) (fuel d : Nat)
    (left : Gaussian → Stats → List Row → List Int → Gaussian) (hist : List (SampleCall Gaussian)) (X : List Row) (y : List Int) (g g' : Gaussian) :
    LikeFresh checks hist ⟨d, X, y, soiObjAlg par method env vol fuel d left⟩ g g' := by
  refine likeFresh_of_ignored (fun g g' s => ?_) g g'
  show soiAlg _ _ _ _ _ _ _ _ _ = soiAlg _ _ _ _ _ _ _ _ _
  cases method <;> rfl

/-- **E_SMOTE.** The mask of an earlier call changes no later result. -/
theorem C124_e_smote (checks : List Check) (env : EsEnv) (minFeatures : Nat) (par : SmoteParams) (vol : List Row → ℚ) (dr : Draws)
    (knn : Nat → List Row → List (List Nat)) (d : Nat) (hist : List (SampleCall (Option (List Bool)))) (X : List Row) (y : List Int)
    (m m' : Option (List Bool)) : LikeFresh checks hist ⟨d, X, y, esObjAlg env minFeatures par vol dr knn d⟩ m m' :=
  likeFresh_of_ignored (fun _ _ _ => rfl) m m'

/-- **E_SMOTE, the mask left behind.** A call that has something to sample and ends its search leaves the mask it has found, whatever was there
before. A call that returns early, or whose search or labels fail, leaves the old mask: `preprocessing_transform` then uses the features of an
earlier data set. -/
theorem C124_e_smote_mask (env : EsEnv) (minFeatures : Nat) (par : SmoteParams) (vol : List Row → ℚ) (dr : Draws)
    (knn : Nat → List Row → List (List Nat)) (d : Nat) {X : List Row} {y : List Int} {a b : Int} (hmin : IsMinority y a b)
    (o : SamplerObj (Option (List Bool))) :
    (sampleOn defaultChecks ⟨d, X, y, esObjAlg env minFeatures par vol dr knn d⟩ o).2.fields =
      if y.count a ≤ 2 ∨ requested par.proportion (y.count b) (y.count a) = 0 then o.fields
      else match esSearch env minFeatures d X y with
        | .ok m => some m
        | .error _ => o.fields := by
  obtain ⟨s, hs, rfl, rfl⟩ := stats_of_isMinority hmin
  obtain ⟨hm, hM, -⟩ := stats_min_mem hs
  rcases sampleOn_fields defaultChecks ⟨d, X, y, esObjAlg env minFeatures par vol dr knn d⟩ o with ⟨e, he, -⟩ | ⟨s', hs', h⟩
  · rw [show (⟨d, X, y, esObjAlg env minFeatures par vol dr knn d⟩ : SampleCall (Option (List Bool))).y = y from rfl, hs] at he
    cases he
  · rw [show (⟨d, X, y, esObjAlg env minFeatures par vol dr knn d⟩ : SampleCall (Option (List Bool))).y = y from rfl, hs] at hs'
    injection hs' with hs'
    subst hs'
    rw [h, stats_count hs hm, checksFire_default]
    by_cases h2 : y.count s.minLabel ≤ 2
    · simp [h2]
    · simp only [h2, decide_false, Bool.false_eq_true, if_false, false_or]
      show (match esMaskAfter env minFeatures par d o.fields s X y with
        | .ok m => m
        | .error _ => o.fields) = _
      unfold esMaskAfter
      rw [stats_count hs hm, stats_count hs hM, detN_eq_requested, ok_bind]
      by_cases h0 : requested par.proportion (y.count s.majLabel) (y.count s.minLabel) = 0
      · rw [if_pos h0, if_pos h0]
        rfl
      · rw [if_neg h0, if_neg h0]
        cases esSearch env minFeatures d X y <;> rfl

/-! ## SOMO: a field that is put back -/

theorem somoInterLoop_spec (ss : SSParams) (vol : List Row → ℚ) (drs : Nat → Draws) (d : Nat) (task : Nat → Res ClusterTask) (nd : Nat)
    (l : List ((Nat × Nat) × Nat)) :
    (somoInterLoop ss vol drs d task nd l).1 = l.mapM (fun p => do
      let t ← task p.1.1
      sampleSimplex { ss with nDim := 2 } vol (drs p.2) d t.rows t.indices t.k p.1.2 t.args) ∧
    ((somoInterLoop ss vol drs d task nd l).2 = nd ∨
      ((somoInterLoop ss vol drs d task nd l).2 = 2 ∧ ∃ e, (somoInterLoop ss vol drs d task nd l).1 = .error e)) := by
  induction l with
  | nil => exact ⟨rfl, Or.inl rfl⟩
  | cons p l ih =>
    rw [List.mapM_cons]
    unfold somoInterLoop
    cases ht : task p.1.1 with
    | error e => exact ⟨rfl, Or.inl rfl⟩
    | ok t =>
      simp only [ok_bind]
      cases hr : sampleSimplex { ss with nDim := 2 } vol (drs p.2) d t.rows t.indices t.k p.1.2 t.args with
      | error e => exact ⟨rfl, Or.inr ⟨rfl, e, rfl⟩⟩
      | ok r =>
        simp only [ok_bind]
        obtain ⟨h1, h2⟩ := ih
        rw [← h1]
        refine ⟨?_, ?_⟩
        · cases (somoInterLoop ss vol drs d task nd l).1 <;> rfl
        · rcases h2 with h2 | ⟨h2, e, h3⟩
          · exact Or.inl h2
          · right
            refine ⟨h2, e, ?_⟩
            rw [h3]; rfl

theorem somoInterObj_spec (ss : SSParams) (vol : List Row → ℚ) (cu : Nat → ℚ) (drs : Nat → Draws) (d : Nat) (cells : List MapCell)
    (X : List Row) (y : List Int) (a : Int) (ps : List ((MapCell × MapCell) × ℚ)) (n nd : Nat) :
    (somoInterObj ss vol cu drs d cells X y a ps n nd).1 = somoGenInter { ss with nDim := nd } vol cu drs d cells X y a ps n ∧
    ((somoInterObj ss vol cu drs d cells X y a ps n nd).2 = nd ∨
      ((somoInterObj ss vol cu drs d cells X y a ps n nd).2 = 2 ∧ ∃ e, (somoInterObj ss vol cu drs d cells X y a ps n nd).1 = .error e)) := by
  unfold somoInterObj somoGenInter
  by_cases h0 : ps.length = 0
  · rw [if_pos h0, if_pos h0]
    exact ⟨rfl, Or.inl rfl⟩
  · rw [if_neg h0, if_neg h0]
    cases hc : npChoice ps.length n (somoProbs (ps.map Prod.snd)) cu with
    | error e => exact ⟨rfl, Or.inl rfl⟩
    | ok selected =>
      simp only [ok_bind]
      unfold somoCalls
      by_cases hs : selected.length = 0
      · rw [if_pos hs, if_pos hs]
        exact ⟨rfl, Or.inl rfl⟩
      · rw [if_neg hs, if_neg hs]
        obtain ⟨h1, h2⟩ := somoInterLoop_spec ss vol drs d (somoInter cells X y a (ps.map Prod.fst)) nd (npUniqueCounts selected).zipIdx
        refine ⟨?_, ?_⟩
        · unfold sampleInClusters
          rw [← h1]
          cases hp : (somoInterLoop ss vol drs d (somoInter cells X y a (ps.map Prod.fst)) nd (npUniqueCounts selected).zipIdx).1 with
          | error e => rfl
          | ok parts =>
            have hlen : parts.length ≠ 0 := by
              rw [h1] at hp
              have h3 := (mapM_ok_length hp)
              rw [h3, List.length_zipIdx]
              unfold npUniqueCounts
              rw [List.length_map]
              obtain ⟨v, hv⟩ := List.exists_mem_of_ne_nil selected (by rintro rfl; exact hs rfl)
              exact (List.length_pos_of_mem (mem_npUnique.2 hv)).ne'
            simp only [ok_bind, if_neg hlen]
            rfl
        · rcases h2 with h2 | ⟨h2, e, h3⟩
          · exact Or.inl h2
          · right
            refine ⟨h2, e, ?_⟩
            rw [h3]; rfl

theorem somoObjAlg_spec (par : NbParams) (som : List Row → Row → MapCell) (pdist : Row → Row → ℚ) (vol : List Row → ℚ) (cu cu' : Nat → ℚ)
    (drs drs' : Nat → Draws) (d nd : Nat) (s : Stats) (X : List Row) (y : List Int) :
    (somoObjAlg par som pdist vol cu cu' drs drs' d nd s X y).1 =
      somoAlg { par with ss := { par.ss with nDim := nd } } som pdist vol cu cu' drs drs' d s X y ∧
    ((somoObjAlg par som pdist vol cu cu' drs drs' d nd s X y).2 = nd ∨
      ((somoObjAlg par som pdist vol cu cu' drs drs' d nd s X y).2 = 2 ∧
        ∃ e, (somoObjAlg par som pdist vol cu cu' drs drs' d nd s X y).1 = .error e)) := by
  unfold somoObjAlg somoAlg
  cases hn : detNToSample (.num par.proportion) (s.count s.majLabel) (s.count s.minLabel) with
  | error e => exact ⟨rfl, Or.inl rfl⟩
  | ok n =>
    simp only [ok_bind]
    by_cases h0 : n = 0
    · rw [if_pos h0, if_pos h0]
      exact ⟨rfl, Or.inl rfl⟩
    · rw [if_neg h0, if_neg h0]
      cases hd : somoDensities pdist (X.map (som X)) X y s.minLabel with
      | error e => exact ⟨rfl, Or.inl rfl⟩
      | ok ds =>
        simp only [ok_bind]
        by_cases h1 : ds.length = 0
        · rw [if_pos h1, if_pos h1]
          exact ⟨rfl, Or.inl rfl⟩
        · rw [if_neg h1, if_neg h1]
          cases hi : somoGenIntra { par.ss with nDim := nd } vol cu drs d (X.map (som X)) X y s.minLabel ds
              (if 0 < (somoPairs ds).length then n / 2 else n) with
          | error e => exact ⟨rfl, Or.inl rfl⟩
          | ok intra =>
            simp only [ok_bind]
            obtain ⟨h2, h3⟩ := somoInterObj_spec par.ss vol cu' drs' d (X.map (som X)) X y s.minLabel (somoPairs ds)
              (n - if 0 < (somoPairs ds).length then n / 2 else n) nd
            rw [← h2]
            refine ⟨?_, ?_⟩
            · cases (somoInterObj par.ss vol cu' drs' d (X.map (som X)) X y s.minLabel (somoPairs ds)
                (n - if 0 < (somoPairs ds).length then n / 2 else n) nd).1 <;> rfl
            · rcases h3 with h3 | ⟨h3, e, h4⟩
              · exact Or.inl h3
              · right
                refine ⟨h3, e, ?_⟩
                rw [h4]; rfl

/-- A call of SOMO with the numbers drawn in it. -/
structure SomoCall where
  d : Nat
  X : List Row
  y : List Int
  som : List Row → Row → MapCell
  pdist : Row → Row → ℚ
  vol : List Row → ℚ
  cu : Nat → ℚ
  cu' : Nat → ℚ
  drs : Nat → Draws
  drs' : Nat → Draws

def SomoCall.call (par : NbParams) (c : SomoCall) : SampleCall Nat :=
  ⟨c.d, c.X, c.y, somoObjAlg par c.som c.pdist c.vol c.cu c.cu' c.drs c.drs' c.d⟩

/-- **SOMO puts `n_dim` back.** A call that returns leaves `n_dim` as it was; a call that raises leaves it as it was or leaves it at 2. So if no
call raised, the object behaves like a new one, and in any case like a new one with its `n_dim` or with 2. -/
theorem C124_somo (par : NbParams) (hist : List SomoCall) (c : SomoCall) :
    (∀ o : SamplerObj Nat, ((sampleOn defaultChecks (c.call par) o).1.isOk = true → (sampleOn defaultChecks (c.call par) o).2.fields = o.fields) ∧
      ((sampleOn defaultChecks (c.call par) o).2.fields = o.fields ∨ (sampleOn defaultChecks (c.call par) o).2.fields = 2)) ∧
    ((∀ pre c' post, hist = pre ++ c' :: post → (sampleOn defaultChecks (c'.call par)
        (afterCalls defaultChecks (pre.map (SomoCall.call par)) { fields := par.ss.nDim })).1.isOk = true) →
      LikeFresh defaultChecks (hist.map (SomoCall.call par)) (c.call par) par.ss.nDim par.ss.nDim) ∧
    (LikeFresh defaultChecks (hist.map (SomoCall.call par)) (c.call par) par.ss.nDim par.ss.nDim ∨
      LikeFresh defaultChecks (hist.map (SomoCall.call par)) (c.call par) par.ss.nDim 2) := by
  have one : ∀ (c : SomoCall) (o : SamplerObj Nat),
      ((sampleOn defaultChecks (c.call par) o).1.isOk = true → (sampleOn defaultChecks (c.call par) o).2.fields = o.fields) ∧
      ((sampleOn defaultChecks (c.call par) o).2.fields = o.fields ∨ (sampleOn defaultChecks (c.call par) o).2.fields = 2) := by
    intro c o
    rcases sampleOn_fields defaultChecks (c.call par) o with ⟨e, he, h1⟩ | ⟨s, hs, h1⟩
    · exact ⟨fun _ => h1, Or.inl h1⟩
    · rw [h1, sampleOn_out]
      unfold sample
      rw [hs, ok_bind]
      split
      · exact ⟨fun _ => rfl, Or.inl rfl⟩
      · obtain ⟨_, h3⟩ := somoObjAlg_spec par c.som c.pdist c.vol c.cu c.cu' c.drs c.drs' c.d o.fields s c.X c.y
        rcases h3 with h3 | ⟨h3, e, h4⟩
        · exact ⟨fun _ => h3, Or.inl h3⟩
        · refine ⟨fun hok => ?_, Or.inr h3⟩
          have h5 : ((c.call par).alg o.fields s (c.call par).X (c.call par).y).1 = .error e := h4
          simp only [h5] at hok
          cases hok
  refine ⟨one c, fun hall => ?_, ?_⟩
  · have key : ∀ (suf pre : List SomoCall), hist = pre ++ suf →
        (afterCalls defaultChecks (pre.map (SomoCall.call par)) ({ fields := par.ss.nDim } : SamplerObj Nat)).fields = par.ss.nDim →
        (afterCalls defaultChecks (hist.map (SomoCall.call par)) ({ fields := par.ss.nDim } : SamplerObj Nat)).fields = par.ss.nDim := by
      intro suf
      induction suf with
      | nil => intro pre h1 h2; rw [h1, List.append_nil]; exact h2
      | cons c' suf ih =>
        intro pre h1 h2
        refine ih (pre ++ [c']) (by rw [h1]; simp) ?_
        rw [List.map_append, afterCalls_append]
        show (sampleOn defaultChecks (c'.call par) _).2.fields = _
        rw [(one c' _).1 (hall pre c' suf h1), h2]
    unfold LikeFresh
    rw [sampleOn_out, sampleOn_out, key hist [] rfl rfl]
  · have h := afterCalls_inv (checks := defaultChecks) (Inv := fun f => f = par.ss.nDim ∨ f = 2) (hist := hist.map (SomoCall.call par)) (by
      intro c' hc' f s hf
      obtain ⟨c'', _, rfl⟩ := List.mem_map.1 hc'
      rcases (somoObjAlg_spec par c''.som c''.pdist c''.vol c''.cu c''.cu' c''.drs c''.drs' c''.d f s c''.X c''.y).2 with h | ⟨h, _⟩
      · rcases hf with hf | hf
        · left; exact h.trans hf
        · right; exact h.trans hf
      · right; exact h) (o := { fields := par.ss.nDim }) (Or.inl rfl)
    unfold LikeFresh
    rw [sampleOn_out, sampleOn_out, sampleOn_out]
    rcases h with h | h
    · left; rw [h]
    · right; rw [h]

/-- The first call of each kind of object is the function of the other properties. -/
theorem C124_first (nc hi nd : Nat) (mpar : MotParams) (mc : MotCall) (ppar : PbParams) (ss : SSParams) (pc : PbCall) (spar : NbParams) (sc : SomoCall) :
    mc.first mpar nc = sample defaultChecks mc.d (motAlg mpar { mc.env with tsne := mc.tsne (min nc mc.d) } mc.vol mc.cu mc.drs mc.d) mc.X mc.y ∧
    (sampleOn defaultChecks (pc.call ppar ss) { fields := hi }).1 =
      sample defaultChecks pc.d (psobatAlg pc.env ppar hi ss pc.vol pc.dr pc.d pc.knn) pc.X pc.y ∧
    (sampleOn defaultChecks (sc.call spar) { fields := nd }).1 = sample defaultChecks sc.d
      (somoAlg { spar with ss := { spar.ss with nDim := nd } } sc.som sc.pdist sc.vol sc.cu sc.cu' sc.drs sc.drs' sc.d) sc.X sc.y := by
  refine ⟨?_, ?_, ?_⟩
  · unfold MotCall.first
    rw [sampleOn_out]
    refine congrArg (fun f => sample defaultChecks mc.d f mc.X mc.y) ?_
    funext s X y
    show (motObjAlg mpar mc.env mc.tsne mc.vol mc.cu mc.drs mc.d nc s X y).1 = _
    rw [motObjAlg_min mpar mc.env mc.tsne mc.vol mc.cu mc.drs (d := mc.d) (nc := nc) (m := min nc mc.d) (by omega) s X y]
    unfold motObjAlg
    cases hn : detNToSample (.num mpar.proportion) (s.count s.majLabel) (s.count s.minLabel) with
    | error e => unfold motAlg; rw [hn]; rfl
    | ok n =>
      cases n with
      | zero => unfold motAlg; rw [hn]; rfl
      | succ n =>
        simp only
        rw [if_neg (by omega)]
  · rw [sampleOn_out]; rfl
  · rw [sampleOn_out]
    refine congrArg (fun f => sample defaultChecks sc.d f sc.X sc.y) ?_
    funext s X y
    exact (somoObjAlg_spec spar sc.som sc.pdist sc.vol sc.cu sc.cu' sc.drs sc.drs' sc.d nd s X y).1

/-! ## Examples -/

/-- One feature, then two: the embedding keeps the first features. -/
def reMot (d : Nat) (X : List Row) : MotCall :=
  ⟨d, X, mtY, mtEnv, fun nc X => X.map (List.take nc), fun _ => 1, fun _ => 1/2, fun _ => exDraws⟩

def reX : List Row := [[0, 0], [1, 0], [2, 0], [3, 0], [4, 0], [989/10, 0], [99, 500], [100, 500], [101, 500], [102, 500]]

/-- **MOT2LD is not like new** after a data set with one feature: `n_components = 2` has become 1, and in the two-dimensional data set of the next
call a row is taken for noise that a new object does not take for noise. -/
theorem C124_mot2ld_not : IsMinority mtY 1 0 ∧ (reMot 1 mtX).Samples mtPar ∧ WF 2 reX mtY ∧
    ¬ LikeFresh defaultChecks [(reMot 1 mtX).call mtPar] ((reMot 2 reX).call mtPar) 2 2 := by
  refine ⟨⟨by decide, by decide, by decide, Or.inl (by decide)⟩, ⟨1, 0, ⟨by decide, by decide, by decide, Or.inl (by decide)⟩, by decide, by decide +kernel⟩,
    ⟨by decide, by decide +kernel⟩, ?_⟩
  intro h
  have h1 : (match (sampleOn defaultChecks ((reMot 2 reX).call mtPar)
        (afterCalls defaultChecks [(reMot 1 mtX).call mtPar] { fields := 2 })).1 with | .ok r => r.1.length | .error _ => 0) =
      (match (sampleOn defaultChecks ((reMot 2 reX).call mtPar) { fields := 2 }).1 with | .ok r => r.1.length | .error _ => 0) := by
    unfold LikeFresh at h
    rw [h]
  revert h1
  decide +kernel

/-- The swarm starts with the largest number of neighbours there is. -/
def rePb (X : List Row) (y : List Int) : PbCall :=
  ⟨1, X, y, { pbEx (fun _ _ => (some 0, 0)) with k0 := fun hi _ => hi - 1, u0 := fun _ => 1/2 }, fun _ => 1, { exDraws with choiceU := fun _ => 9/10 }, bruteKnn⟩

def reP : PbParams := ⟨1, 0, 0, 0, .pso, 2, 5⟩

def reX1 : List Row := [[0], [1], [3], [7], [8], [9], [10], [11]]
def reY1 : List Int := [1, 1, 1, 0, 0, 0, 0, 0]
def reX2 : List Row := [[0], [1], [3], [7], [15], [31], [8], [9], [10], [11], [12], [13], [14], [16]]
def reY2 : List Int := [1, 1, 1, 1, 1, 1, 0, 0, 0, 0, 0, 0, 0, 0]

/-- **SMOTE_PSOBAT is not like new** after a data set with three minority rows: the next search stops at three neighbours, and with the same draws other
rows are generated. -/
theorem C124_psobat_not : (rePb reX1 reY1).Searches 3 ∧ IsMinority reY2 1 0 ∧ WF 1 reX2 reY2 ∧ (rePb reX2 reY2).env.OK ∧
    ¬ LikeFresh defaultChecks [(rePb reX1 reY1).call reP exPar.ss] ((rePb reX2 reY2).call reP exPar.ss) 10 10 := by
  refine ⟨⟨1, 0, ⟨by decide, by decide, by decide, Or.inl (by decide)⟩, by decide, by decide⟩, ⟨by decide, by decide, by decide, Or.inl (by decide)⟩,
    ⟨by decide, by decide +kernel⟩, ?_, ?_⟩
  · have h := pbEx_ok (fun _ _ => (some 0, 0))
    exact ⟨fun hi p h => ⟨by simp only [rePb]; omega, by simp only [rePb]; omega⟩, fun p => by simp only [rePb]; norm_num, h.slot, h.sort_perm, h.sort_first⟩
  · unfold LikeFresh
    decide +kernel

/-- The hypotheses of `C124_mot2ld_same` and `C124_psobat_same` hold for a history with more features and larger classes. -/
example : (∀ c ∈ [reMot 2 reX], ∃ a b, IsMinority c.y a b) ∧ (∀ c' ∈ [reMot 2 reX], c'.Samples mtPar → min 2 (reMot 1 mtX).d ≤ c'.d) ∧
    (∀ c ∈ [rePb reX2 reY2], ∃ a b, IsMinority c.y a b) ∧ IsMinority reY1 1 0 ∧ (∀ c' ∈ [rePb reX2 reY2], ∀ n, c'.Searches n → min 10 (reY1.count 1) ≤ n) := by
  refine ⟨?_, ?_, ?_, ⟨by decide, by decide, by decide, Or.inl (by decide)⟩, ?_⟩
  · intro c hc
    rw [List.mem_singleton] at hc
    subst hc
    exact ⟨1, 0, by decide, by decide, by decide, Or.inl (by decide)⟩
  · intro c hc _
    rw [List.mem_singleton] at hc
    subst hc
    show min 2 1 ≤ 2
    decide
  · intro c hc
    rw [List.mem_singleton] at hc
    subst hc
    exact ⟨1, 0, by decide, by decide, by decide, Or.inl (by decide)⟩
  · rintro c hc n ⟨a, b, hm, hn, h2⟩
    have : min 10 (reY1.count 1) = 3 := by decide
    omega

/-- A call of SOMO for one row, which lies between two cells. -/
def reSomo : SomoCall :=
  ⟨1, [[0], [1], [10], [11], [20], [21], [22], [23], [24]], [1, 1, 1, 1, 0, 0, 0, 0, 0], fun _ r => if r.getD 0 0 < 5 then (0, 0) else if r.getD 0 0 < 15 then (1, 0) else (5, 5),
    fun p q => sqDist p q, fun _ => 1, fun _ => 1/2, fun _ => 1/2, fun _ => exDraws, fun _ => exDraws⟩

/-- **An exception leaves SOMO changed.** A misspelt `within_simplex_sampling` is noticed when a row between two cells is to be made; `n_dim = 3` has
become 2 then. -/
theorem C124_somo_left : ∃ par : NbParams, par.ss.nDim = 3 ∧ (sampleOn defaultChecks (reSomo.call par) { fields := 3 }).1 = .error .valueError ∧
    (sampleOn defaultChecks (reSomo.call par) { fields := 3 }).2.fields = 2 := by
  refine ⟨⟨1, 3, ⟨3, .random, .unknown, .none⟩⟩, rfl, ?_, ?_⟩
  · decide +kernel
  · decide +kernel

/-- The hypotheses of `C124_plain`, `C124_attributes` and `C124_one_class`. -/
example : let c : SampleCall Unit := ⟨1, reX1, reY1, fun f s X y => (smoteAlg exPar (fun _ => 1) exDraws 1 bruteKnn s X y, f)⟩
    let c' : SampleCall Unit := { c with X := [[0]], y := [7] }
    (∀ c ∈ [c, c'], ∀ f s, (c.alg f s c.X c.y).2 = f) ∧ IsMinority c.y 1 0 ∧ c'.y ≠ [] ∧ (∀ v ∈ c'.y, v = 7) ∧ (7 : Int) ≠ 1 := by
  refine ⟨?_, ⟨by decide, by decide, by decide, Or.inl (by decide)⟩, by decide, by decide, by decide⟩
  intro c _ f s
  rfl

/-- An E_SMOTE object which has sampled other data before: the balanced data come back with both features, and `preprocessing_transform` keeps one of
them for the test rows. -/
theorem C124_e_smote_stale : ∃ c c' : SampleCall (Option (List Bool)),
    c.alg = esObjAlg esEnv0 1 exPar (fun _ => 1) exDraws bruteKnn 2 ∧ c'.alg = c.alg ∧
    (sampleOn defaultChecks c' (afterCalls defaultChecks [c] { fields := none })).1 = .ok ([[0, 1], [2, 3]] ++ exX.take 6, [0, 0, 0, 1, 1, 1, 0, 1]) ∧
    esTransform (sampleOn defaultChecks c' (afterCalls defaultChecks [c] { fields := none })).2.fields [[8, 9]] = some [[9]] := by
  refine ⟨⟨2, exX, exY, _⟩, ⟨2, [[0, 1], [2, 3]] ++ exX.take 6, [0, 0, 0, 1, 1, 1, 0, 1], _⟩, rfl, rfl, ?_, ?_⟩
  · decide +kernel
  · decide +kernel

end Verif

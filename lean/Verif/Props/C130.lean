import Verif.Spec.Memory
import Verif.Spec.Sampling
import Verif.Lemmas.Relations
import Verif.Lemmas.SmoteExample

/-!
# C130: the arrays of the caller

A call neither changes the arrays it is given nor hands them out again, so that in-place changes of the result never reach the data, and in-place
changes of the data never reach an earlier result. SMOTE_AMSR, the base class and the loaders of sample data break this.
-/

namespace Verif

/-! ## Reasoning about programs -/

/-- Relative to the first `n` arrays: they are kept, and the results are other arrays. -/
def SepFrom (n : Nat) (h : Heap) (p : Mem (Nat × Nat)) (r : Res (List Row × List Int)) : Prop :=
  SameArrays n h (p h).2 ∧
    match (p h).1 with
    | .error e => r = .error e
    | .ok (x', y') => ∃ X' Y', r = .ok (X', Y') ∧ n ≤ x' ∧ n ≤ y' ∧ x' ≠ y' ∧
        (p h).2[x']? = some (.rows X') ∧ (p h).2[y']? = some (.labels Y')

theorem mem_bind_ok {α β : Type} {p : Mem α} {f : α → Mem β} {a : α} {h h' : Heap} (hp : p h = (.ok a, h')) : (p >>= f) h = f a h' := by
  simp only [bind, hp]

theorem mem_bind_error {α β : Type} {p : Mem α} {f : α → Mem β} {e : PyErr} {h h' : Heap} (hp : p h = (.error e, h')) :
    (p >>= f) h = (.error e, h') := by
  simp only [bind, hp]

theorem sepFrom_lift {α : Type} {n : Nat} {h : Heap} {e : Res α} {f : α → Mem (Nat × Nat)} {g : α → Res (List Row × List Int)}
    (hf : ∀ a, e = .ok a → SepFrom n h (f a) (g a)) : SepFrom n h (Mem.lift e >>= f) (e >>= g) := by
  cases e with
  | error err => exact ⟨fun a _ => rfl, rfl⟩
  | ok a => exact hf a rfl

theorem sepFrom_rows {n x : Nat} {h : Heap} {X : List Row} {f : List Row → Mem (Nat × Nat)} {r : Res (List Row × List Int)}
    (hx : h[x]? = some (.rows X)) (hf : SepFrom n h (f X) r) : SepFrom n h (Mem.readRows x >>= f) r := by
  have : (Mem.readRows x >>= f) h = f X h := mem_bind_ok (by unfold Mem.readRows; rw [hx])
  unfold SepFrom
  rw [this]
  exact hf

theorem sepFrom_labels {n y : Nat} {h : Heap} {Y : List Int} {f : List Int → Mem (Nat × Nat)} {r : Res (List Row × List Int)}
    (hy : h[y]? = some (.labels Y)) (hf : SepFrom n h (f Y) r) : SepFrom n h (Mem.readLabels y >>= f) r := by
  have : (Mem.readLabels y >>= f) h = f Y h := mem_bind_ok (by unfold Mem.readLabels; rw [hy])
  unfold SepFrom
  rw [this]
  exact hf

theorem sepFrom_new {n : Nat} {h : Heap} {c : Arr} {f : Nat → Mem (Nat × Nat)} {r : Res (List Row × List Int)} (hn : n ≤ h.length)
    (hf : SepFrom n (h ++ [c]) (f h.length) r) : SepFrom n h (Mem.new c >>= f) r := by
  refine ⟨fun a ha => ?_, hf.2⟩
  have h1 := hf.1 a ha
  rw [List.getElem?_append_left (by omega)] at h1
  exact h1

theorem sepFrom_write {n a : Nat} {h : Heap} {c : Arr} {f : Unit → Mem (Nat × Nat)} {r : Res (List Row × List Int)} (ha : n ≤ a)
    (hf : SepFrom n (h.set a c) (f ()) r) : SepFrom n h (Mem.write a c >>= f) r := by
  refine ⟨fun b hb => ?_, hf.2⟩
  have h1 := hf.1 b hb
  rw [List.getElem?_set_ne (by omega)] at h1
  exact h1

theorem sepFrom_returnNew {n : Nat} {h : Heap} {X' : List Row} {Y' : List Int} (hn : n ≤ h.length) :
    SepFrom n h (returnNew (X', Y')) (.ok (X', Y')) := by
  unfold returnNew
  refine sepFrom_new hn (sepFrom_new (by rw [List.length_append]; omega) ⟨fun a _ => rfl, ?_⟩)
  refine ⟨X', Y', rfl, hn, by rw [List.length_append]; omega, by rw [List.length_append, List.length_singleton]; omega, ?_, ?_⟩
  · show (h ++ [Arr.rows X'] ++ [Arr.labels Y'])[h.length]? = _
    rw [List.getElem?_append_left (by simp), List.getElem?_append_right (le_refl _), Nat.sub_self]
    rfl
  · show (h ++ [Arr.rows X'] ++ [Arr.labels Y'])[(h ++ [Arr.rows X']).length]? = _
    rw [List.getElem?_append_right (le_refl _), Nat.sub_self]
    rfl

theorem sepFrom_returnCopies {n x y : Nat} {h : Heap} {X : List Row} {Y : List Int} (hn : n ≤ h.length) (hx : h[x]? = some (.rows X))
    (hy : h[y]? = some (.labels Y)) : SepFrom n h (returnCopies x y) (.ok (X, Y)) := by
  unfold returnCopies
  refine sepFrom_rows hx (sepFrom_labels hy ?_)
  exact sepFrom_returnNew hn

theorem get_append {h : Heap} {a : Nat} {c v : Arr} (ha : h[a]? = some v) : (h ++ [c])[a]? = some v := by
  rw [List.getElem?_append_left (List.getElem?_eq_some_iff.1 ha).1]
  exact ha

theorem get_last (h : Heap) (c : Arr) : (h ++ [c])[h.length]? = some c := by
  rw [List.getElem?_append_right (le_refl _), Nat.sub_self]
  rfl

theorem get_set_last (h : Heap) (c c' : Arr) : ((h ++ [c]).set h.length c')[h.length]? = some c' := by
  rw [List.getElem?_set_self (by simp)]

theorem get_set_other {h : Heap} {a : Nat} {c c' v : Arr} (ha : h[a]? = some v) : ((h ++ [c]).set h.length c')[a]? = some v := by
  have hl := (List.getElem?_eq_some_iff.1 ha).1
  rw [List.getElem?_set_ne (by omega)]
  exact get_append ha

theorem sepFrom_onValueError {α : Type} {n : Nat} {h h1 : Heap} {p : Mem α} {out : Res α} {handler : Mem (Nat × Nat)}
    {f : α → Mem (Nat × Nat)} {r : Res (List Row × List Int)} (hp : p h = (out, h1)) (hk : SameArrays n h h1)
    (hr : match (generalizing := false) out with
      | .ok a => SepFrom n h1 (f a) r
      | .error .valueError => SepFrom n h1 handler r
      | .error e => r = .error e) : SepFrom n h (Mem.onValueError p handler f) r := by
  have trans : ∀ q : Mem (Nat × Nat), SepFrom n h1 q r → SameArrays n h (q h1).2 := fun q hq a ha => (hq.1 a ha).trans (hk a ha)
  unfold SepFrom Mem.onValueError
  rw [hp]
  cases out with
  | ok a => exact ⟨trans _ hr, hr.2⟩
  | error e => cases e <;> first | exact ⟨trans _ hr, hr.2⟩ | exact ⟨hk, hr⟩

/-- What `sample` does around the algorithm. -/
theorem sepFrom_sample {checks : List Check} {d n x y : Nat} {h : Heap} {X : List Row} {Y : List Int}
    {algH : Stats → Nat → Nat → Mem (Nat × Nat)} {alg : Stats → List Row → List Int → Res (List Row × List Int)} (hn : n ≤ h.length)
    (hx : h[x]? = some (.rows X)) (hy : h[y]? = some (.labels Y)) (ha : ∀ s, classLabelStatistics Y = .ok s → SepFrom n h (algH s x y) (alg s X Y)) :
    SepFrom n h (sampleH checks d algH x y) (sample checks d alg X Y) := by
  unfold sampleH sample
  refine sepFrom_labels hy (sepFrom_lift (fun s hs => ?_))
  split
  · exact sepFrom_returnCopies hn hx hy
  · exact ha s hs

variable {d x y : Nat} {h : Heap} {X : List Row} {Y : List Int}

/-! ## The calls -/

/-- **SMOTE** -/
theorem C130_smote {par : SmoteParams} {vol : List Row → ℚ} {dr : Draws} {knn : Nat → List Row → List (List Nat)}
    (hx : h[x]? = some (.rows X)) (hy : h[y]? = some (.labels Y)) :
    Separate h (sampleH defaultChecks d (smoteH par vol dr d knn) x y) (sample defaultChecks d (smoteAlg par vol dr d knn) X Y) := by
  refine sepFrom_sample (le_refl _) hx hy (fun s _ => ?_)
  unfold smoteH smoteAlg
  refine sepFrom_lift (fun n _ => ?_)
  dsimp only
  split
  · exact sepFrom_returnCopies (le_refl _) hx hy
  · refine sepFrom_rows hx (sepFrom_labels hy (sepFrom_lift (fun samples _ => ?_)))
    exact sepFrom_returnNew (le_refl _)

/-- **NoSMOTE** -/
theorem C130_nosmote {rv rr : Bool} (hx : h[x]? = some (.rows X)) (hy : h[y]? = some (.labels Y)) :
    Separate h (sampleH defaultChecks d (noSmoteH rv rr) x y) (sample defaultChecks d (noSmoteAlg rv rr) X Y) := by
  refine sepFrom_sample (le_refl _) hx hy (fun s _ => ?_)
  unfold noSmoteH noSmoteAlg
  split
  · exact ⟨fun a _ => rfl, rfl⟩
  split
  · exact ⟨fun a _ => rfl, rfl⟩
  · exact sepFrom_returnCopies (le_refl _) hx hy

/-- **SPY**, which changes labels. -/
theorem C130_spy {threshold : ℚ} {nNeighbors : Nat} {knn : Nat → List Row → List Row → List (List Nat)}
    (hx : h[x]? = some (.rows X)) (hy : h[y]? = some (.labels Y)) :
    Separate h (sampleH defaultChecks d (spyH threshold nNeighbors knn) x y)
      (sample defaultChecks d (spyAlg threshold nNeighbors knn) X Y) := by
  refine sepFrom_sample (le_refl _) hx hy (fun s _ => ?_)
  unfold spyH spyAlg
  refine sepFrom_rows hx (sepFrom_labels hy (sepFrom_new (le_refl _) (sepFrom_lift (fun flips _ => ?_))))
  refine sepFrom_labels (get_last h _) (sepFrom_write (le_refl _) (sepFrom_new (by simp) ⟨fun a _ => rfl, ?_⟩))
  refine ⟨X, _, rfl, by simp, le_refl _, by simp, get_last _ _, ?_⟩
  exact get_append (get_set_last h _ _)

/-- **Stefanowski**, which changes labels and removes rows. -/
theorem C130_stefanowski {strategy : StefStrategy} {knn : Nat → List Row → List (List Nat)} (hx : h[x]? = some (.rows X))
    (hy : h[y]? = some (.labels Y)) :
    Separate h (sampleH stefanowskiChecks d (stefanowskiH strategy knn) x y) (sample stefanowskiChecks d (stefanowskiAlg strategy knn) X Y) := by
  refine sepFrom_sample (le_refl _) hx hy (fun s _ => ?_)
  unfold stefanowskiH stefanowskiAlg
  refine sepFrom_rows hx (sepFrom_labels hy (sepFrom_new (le_refl _) (sepFrom_lift (fun ind _ => sepFrom_lift (fun ind5 _ => ?_)))))
  refine sepFrom_labels (get_last h _) (sepFrom_lift (fun safe _ => sepFrom_lift (fun samples _ => sepFrom_lift (fun flips _ => ?_))))
  refine sepFrom_write (le_refl _) (sepFrom_labels (get_set_last h _ _) ?_)
  dsimp only
  split
  · exact sepFrom_returnCopies (by simp) (get_set_other hx) (get_set_other hy)
  · exact sepFrom_returnNew (by simp)

theorem visSteps_eq (par : NbParams) (nb : Nat → List Row → Row → List Nat) (vol : List Row → ℚ) (pick : Nat → Nat → Nat → List Nat)
    (drs : Nat → Draws) (d n : Nat) (X : List Row) (y : List Int) (minL majL : Int) :
    visSteps par nb vol pick drs d n X y minL majL =
      visRelabel nb (min X.length (par.nNeighbors + 1)) X y minL majL >>= visRest par nb vol pick drs d n X minL majL := rfl

theorem visRest_labels {par : NbParams} {nb : Nat → List Row → Row → List Nat} {vol : List Row → ℚ} {pick : Nat → Nat → Nat → List Nat}
    {drs : Nat → Draws} {d n : Nat} {X : List Row} {minL majL : Int} {L : List Int} {r : List Row × List Int}
    (h : visRest par nb vol pick drs d n X minL majL L = .ok r) : r.2 = L := by
  unfold visRest at h
  dsimp only at h
  split at h
  · cases h
  obtain ⟨labels, _, h⟩ := bind_ok.1 h
  split at h
  · cases h
  obtain ⟨samples, _, h⟩ := bind_ok.1 h
  obtain ⟨kept, _, h⟩ := bind_ok.1 h
  split at h
  · cases h
  · injection h with h
    rw [← h]

/-- **VIS_RST**, which changes labels, also before it gives up and returns copies. -/
theorem C130_vis {par : NbParams} {fitScaler : List Row → Row × Row} {nb : Nat → List Row → Row → List Nat} {vol : List Row → ℚ}
    {pick : Nat → Nat → Nat → List Nat} {drs : Nat → Draws} (hx : h[x]? = some (.rows X)) (hy : h[y]? = some (.labels Y)) :
    Separate h (sampleH defaultChecks d (visH par fitScaler nb vol pick drs d) x y)
      (sample defaultChecks d (visAlg par fitScaler nb vol pick drs d) X Y) := by
  refine sepFrom_sample (le_refl _) hx hy (fun s _ => ?_)
  unfold visH visAlg
  refine sepFrom_lift (fun n _ => ?_)
  dsimp only
  split
  · exact sepFrom_returnCopies (le_refl _) hx hy
  refine sepFrom_rows hx (sepFrom_labels hy (sepFrom_new (le_refl _) ?_))
  rw [visSteps_eq]
  generalize hXs : X.map (scaleRow (fitScaler X).1 (fitScaler X).2) = Xs
  have hlast : (h ++ [Arr.labels Y])[h.length]? = some (Arr.labels Y) := get_last h _
  cases hL : visRelabel nb (min Xs.length (par.nNeighbors + 1)) Xs Y s.minLabel s.majLabel with
  | error e =>
    have h1 : visStepsH par nb vol pick drs d n Xs s.minLabel s.majLabel h.length (h ++ [Arr.labels Y]) =
        (.error e, h ++ [Arr.labels Y]) := by
      unfold visStepsH
      rw [mem_bind_ok (a := Y) (h' := h ++ [Arr.labels Y]) (by unfold Mem.readLabels; rw [hlast]),
        mem_bind_error (e := e) (h' := h ++ [Arr.labels Y]) (by unfold Mem.lift; rw [hL])]
    refine sepFrom_onValueError h1 (fun a _ => rfl) ?_
    cases e <;> first | exact sepFrom_returnCopies (by simp) (get_append hx) (get_append hy) | rfl
  | ok L =>
    have hlast' := get_set_last h (Arr.labels Y) (Arr.labels L)
    have hx' : ((h ++ [Arr.labels Y]).set h.length (Arr.labels L))[x]? = _ := get_set_other hx
    have hy' : ((h ++ [Arr.labels Y]).set h.length (Arr.labels L))[y]? = _ := get_set_other hy
    have hk : SameArrays h.length (h ++ [Arr.labels Y]) ((h ++ [Arr.labels Y]).set h.length (Arr.labels L)) := fun a ha => by
      rw [List.getElem?_set_ne (by omega)]
    have h1 : visStepsH par nb vol pick drs d n Xs s.minLabel s.majLabel h.length (h ++ [Arr.labels Y]) =
        ((visRest par nb vol pick drs d n Xs s.minLabel s.majLabel L).map Prod.fst, (h ++ [Arr.labels Y]).set h.length (Arr.labels L)) := by
      unfold visStepsH
      rw [mem_bind_ok (a := Y) (h' := h ++ [Arr.labels Y]) (by unfold Mem.readLabels; rw [hlast]),
        mem_bind_ok (a := L) (h' := h ++ [Arr.labels Y]) (by unfold Mem.lift; rw [hL]),
        mem_bind_ok (p := Mem.write h.length (Arr.labels L)) (h := h ++ [Arr.labels Y]) (a := ()) (h' := (h ++ [Arr.labels Y]).set h.length (Arr.labels L)) rfl,
        mem_bind_ok (a := L) (h' := (h ++ [Arr.labels Y]).set h.length (Arr.labels L)) (by unfold Mem.readLabels; rw [hlast'])]
      cases hr : visRest par nb vol pick drs d n Xs s.minLabel s.majLabel L with
      | error e => rw [mem_bind_error (e := e) (h' := (h ++ [Arr.labels Y]).set h.length (Arr.labels L)) (by unfold Mem.lift; rfl)]; rfl
      | ok r => rw [mem_bind_ok (a := r) (h' := (h ++ [Arr.labels Y]).set h.length (Arr.labels L)) (by unfold Mem.lift; rfl)]; rfl
    refine sepFrom_onValueError h1 hk ?_
    rw [ok_bind]
    cases hr : visRest par nb vol pick drs d n Xs s.minLabel s.majLabel L with
    | error e => cases e <;> first | exact sepFrom_returnCopies (by simp) hx' hy' | rfl
    | ok r =>
      rw [← visRest_labels hr] at hlast' ⊢
      exact sepFrom_labels hlast' (sepFrom_returnNew (by simp))

/-- **SMOTE_AMSR**, as long as there is something to sample. -/
theorem C130_amsr {env : AmsrEnv} {p : ℚ} {top : AmsrTopology} {a b : Int} (hmin : IsMinority Y a b)
    (hn : 0 < requested p (Y.count b) (Y.count a)) (hx : h[x]? = some (.rows X)) (hy : h[y]? = some (.labels Y)) :
    Separate h (sampleH defaultChecks d (amsrH env p top d) x y) (sample defaultChecks d (amsrAlg env p top d) X Y) := by
  obtain ⟨s, hs, rfl, rfl⟩ := stats_of_isMinority hmin
  refine sepFrom_sample (le_refl _) hx hy (fun s' hs' => ?_)
  rw [hs] at hs'
  injection hs' with hs'
  subst hs'
  unfold amsrH amsrAlg
  refine sepFrom_rows hx (sepFrom_labels hy (sepFrom_lift (fun n h2 => ?_)))
  rw [stats_count hs (stats_min_mem hs).1, stats_count hs (stats_min_mem hs).2.1, detN_eq_requested] at h2
  injection h2 with h2
  dsimp only
  rw [if_neg (by omega), if_neg (by omega)]
  cases top <;> exact sepFrom_lift (fun new _ => sepFrom_returnNew (le_refl _))

/-- The helper which shuffles training data, if there is a random state. -/
theorem C130_shuffle {p : List Nat} (hx : h[x]? = some (.rows X)) (hy : h[y]? = some (.labels Y)) :
    Separate h (shuffleH (some p) x y) (do let X' ← takeRows X p; let Y' ← takeRows Y p; pure (X', Y')) := by
  unfold shuffleH
  refine sepFrom_rows hx (sepFrom_labels hy (sepFrom_lift (fun X' _ => sepFrom_lift (fun Y' _ => ?_))))
  exact sepFrom_returnNew (le_refl _)

/-! ## What this means -/

theorem writes_other {ws : List (Nat × Arr)} {a : Nat} (hw : ∀ w ∈ ws, w.1 ≠ a) (h : Heap) : (writes ws h)[a]? = h[a]? := by
  unfold writes
  induction ws generalizing h with
  | nil => rfl
  | cons w ws ih =>
    rw [List.foldl_cons, ih (fun v hv => hw v (List.mem_cons_of_mem _ hv)), List.getElem?_set_ne (hw w List.mem_cons_self)]

/-- Whatever is written into the results afterwards, the arrays of the caller stay as they were. -/
theorem C130_results_are_own {p : Mem (Nat × Nat)} {r : Res (List Row × List Int)} (hp : Separate h p r) {x' y' : Nat} {h' : Heap}
    (hr : p h = (.ok (x', y'), h')) (ws : List (Nat × Arr)) (hw : ∀ w ∈ ws, w.1 = x' ∨ w.1 = y') : SameArrays h.length h (writes ws h') := by
  unfold Separate at hp
  rw [hr] at hp
  obtain ⟨h1, X', Y', _, h2, h3, _⟩ := hp
  intro a ha
  rw [writes_other (fun w hv => by rcases hw w hv with e | e <;> rw [e] <;> omega)]
  exact h1 a ha

/-- Whatever is written into the arrays of the caller afterwards, the results stay as they were. -/
theorem C130_data_are_own {p : Mem (Nat × Nat)} {r : Res (List Row × List Int)} (hp : Separate h p r) {x' y' : Nat} {h' : Heap}
    (hr : p h = (.ok (x', y'), h')) (ws : List (Nat × Arr)) (hw : ∀ w ∈ ws, w.1 < h.length) :
    (writes ws h')[x']? = h'[x']? ∧ (writes ws h')[y']? = h'[y']? := by
  unfold Separate at hp
  rw [hr] at hp
  obtain ⟨h1, X', Y', _, h2, h3, _⟩ := hp
  exact ⟨writes_other (fun w hv => by have := hw w hv; omega) _, writes_other (fun w hv => by have := hw w hv; omega) _⟩

/-! ## A session: many calls with the same data -/

/-- What happens in a session: calls (`r` is what the call should return), and changes of arrays by the caller. -/
inductive Step
  | call (p : Mem (Nat × Nat)) (r : Res (List Row × List Int))
  | change (a : Nat) (c : Arr)

/-- The contents of the arrays a call returned. -/
def contents (h : Heap) : Res (Nat × Nat) → Res (Option Arr × Option Arr)
  | .ok (x, y) => .ok (h[x]?, h[y]?)
  | .error e => .error e

/-- What the calls of a session return (the contents at the time of their return). -/
def session : List Step → Heap → List (Res (Option Arr × Option Arr))
  | [], _ => []
  | .call p _ :: ss, h => contents (p h).2 (p h).1 :: session ss (p h).2
  | .change a c :: ss, h => session ss (h.set a c)

/-- What the calls of a session should return. -/
def expected : List Step → List (Res (Option Arr × Option Arr))
  | [] => []
  | .call _ (.ok (X', Y')) :: ss => .ok (some (.rows X'), some (.labels Y')) :: expected ss
  | .call _ (.error e) :: ss => .error e :: expected ss
  | .change _ _ :: ss => expected ss

theorem session_expected {n : Nat} {h0 : Heap} (ss : List Step)
    (hc : ∀ p r, Step.call p r ∈ ss → ∀ h : Heap, n ≤ h.length → SameArrays n h0 h → Separate h p r)
    (hw : ∀ a c, Step.change a c ∈ ss → n ≤ a) (hn : n ≤ h0.length) :
    ∀ h : Heap, n ≤ h.length → SameArrays n h0 h → session ss h = expected ss := by
  induction ss with
  | nil => intro h _ _; rfl
  | cons s ss ih =>
    have ih := ih (fun p r hp => hc p r (List.mem_cons_of_mem _ hp)) (fun a c h => hw a c (List.mem_cons_of_mem _ h))
    intro h hl hs
    cases s with
    | change a c =>
      unfold session expected
      refine ih _ (by rw [List.length_set]; exact hl) (fun b hb => ?_)
      have ha := hw a c List.mem_cons_self
      rw [List.getElem?_set_ne (by omega)]
      exact hs b hb
    | call p r =>
      have h1 := hc p r List.mem_cons_self h hl hs
      have h2 : SameArrays n h0 (p h).2 := fun b hb => (h1.1 b (by omega)).trans (hs b hb)
      have h3 : n ≤ (p h).2.length := by
        by_contra hlt
        have h4 := h2 (n - 1) (by omega)
        rw [List.getElem?_eq_none (l := (p h).2) (by omega)] at h4
        have h5 := List.getElem?_eq_none_iff.1 h4.symm
        omega
      have h5 := ih _ h3 h2
      obtain ⟨_, h4⟩ := h1
      unfold session
      rw [h5]
      cases hp : (p h).1 with
      | error e =>
        rw [hp] at h4
        rw [show r = _ from h4]
        rfl
      | ok q =>
        rw [hp] at h4
        obtain ⟨X', Y', e, _, _, _, e1, e2⟩ := h4
        rw [e]
        show Except.ok _ :: _ = Except.ok _ :: _
        rw [e1, e2]

/-- The calls of this file, with the data at `x` and `y`. -/
inductive CallOn (x y : Nat) (X : List Row) (Y : List Int) : Mem (Nat × Nat) → Res (List Row × List Int) → Prop
  | smote (d par vol dr knn) : CallOn x y X Y (sampleH defaultChecks d (smoteH par vol dr d knn) x y)
      (sample defaultChecks d (smoteAlg par vol dr d knn) X Y)
  | nosmote (d rv rr) : CallOn x y X Y (sampleH defaultChecks d (noSmoteH rv rr) x y) (sample defaultChecks d (noSmoteAlg rv rr) X Y)
  | spy (d th k knn) : CallOn x y X Y (sampleH defaultChecks d (spyH th k knn) x y) (sample defaultChecks d (spyAlg th k knn) X Y)
  | stefanowski (d st knn) : CallOn x y X Y (sampleH stefanowskiChecks d (stefanowskiH st knn) x y)
      (sample stefanowskiChecks d (stefanowskiAlg st knn) X Y)
  | vis (d par fit nb vol pick drs) : CallOn x y X Y (sampleH defaultChecks d (visH par fit nb vol pick drs d) x y)
      (sample defaultChecks d (visAlg par fit nb vol pick drs d) X Y)

/-- **History.** The data are the arrays at `x` and `y`. In every session of such calls, in which the caller changes whatever they like
except the arrays which existed at the beginning (in particular results of earlier calls), every call returns what it would return as
the first one. -/
theorem C130_session {h0 : Heap} (hx : h0[x]? = some (.rows X)) (hy : h0[y]? = some (.labels Y)) (ss : List Step)
    (hc : ∀ p r, Step.call p r ∈ ss → CallOn x y X Y p r) (hw : ∀ a c, Step.change a c ∈ ss → h0.length ≤ a) :
    session ss h0 = expected ss := by
  refine session_expected (n := h0.length) (h0 := h0) ss (fun p r hp h hl hs => ?_) hw (le_refl _) h0 (le_refl _) (fun a _ => rfl)
  have hx' : h[x]? = some (.rows X) := (hs x (List.getElem?_eq_some_iff.1 hx).1).trans hx
  have hy' : h[y]? = some (.labels Y) := (hs y (List.getElem?_eq_some_iff.1 hy).1).trans hy
  cases hc p r hp with
  | smote => exact C130_smote hx' hy'
  | nosmote => exact C130_nosmote hx' hy'
  | spy => exact C130_spy hx' hy'
  | stefanowski => exact C130_stefanowski hx' hy'
  | vis => exact C130_vis hx' hy'

/-! ## Shared arrays -/

/-- **SMOTE_AMSR** returns the arrays of the caller if nothing has to be sampled. -/
theorem C130_amsr_shared {env : AmsrEnv} {p : ℚ} {top : AmsrTopology} {a b : Int} (hmin : IsMinority Y a b) (h2 : 2 < Y.count a)
    (hn : requested p (Y.count b) (Y.count a) = 0) (hx : h[x]? = some (.rows X)) (hy : h[y]? = some (.labels Y)) :
    sampleH defaultChecks d (amsrH env p top d) x y h = (.ok (x, y), h) := by
  obtain ⟨s, hs, rfl, rfl⟩ := stats_of_isMinority hmin
  unfold sampleH
  rw [mem_bind_ok (a := Y) (h' := h) (by unfold Mem.readLabels; rw [hy]), mem_bind_ok (a := s) (h' := h) (by unfold Mem.lift; rw [hs]),
    stats_count hs (stats_min_mem hs).1, checksFire_default, if_neg (by simp only [decide_eq_true_eq]; omega)]
  unfold amsrH
  rw [mem_bind_ok (a := X) (h' := h) (by unfold Mem.readRows; rw [hx]), mem_bind_ok (a := Y) (h' := h) (by unfold Mem.readLabels; rw [hy])]
  rw [mem_bind_ok (a := 0) (h' := h) (by
    unfold Mem.lift
    rw [stats_count hs (stats_min_mem hs).1, stats_count hs (stats_min_mem hs).2.1, detN_eq_requested, hn]), if_pos rfl]
  rfl

/-- The balanced data of the examples, at the addresses 0 and 1. -/
def memX : List Row := [[0], [1], [2], [10], [11], [12]]
def memY : List Int := [1, 1, 1, 0, 0, 0]
def memH : Heap := [.rows memX, .labels memY]

/-- So a change of the result is a change of the data: a session which standardises the result in place and calls again. -/
theorem C130_amsr_session (env : AmsrEnv) (top : AmsrTopology) :
    ∃ (p : Mem (Nat × Nat)) (r : Res (List Row × List Int)) (a : Nat), p = sampleH defaultChecks 1 (amsrH env 1 top 1) 0 1 ∧
      r = sample defaultChecks 1 (amsrAlg env 1 top 1) memX memY ∧ (p memH).1.map Prod.fst = .ok a ∧
      session [.call p r, .change a (.rows (memX.map (fun _ => [0]))), .call p r] memH ≠
        expected [.call p r, .change a (.rows (memX.map (fun _ => [0]))), .call p r] := by
  have hmin : IsMinority memY 1 0 := ⟨by decide, by decide, by decide, Or.inr ⟨by decide, by decide⟩⟩
  have h1 : sampleH defaultChecks 1 (amsrH env 1 top 1) 0 1 memH = (.ok (0, 1), memH) :=
    C130_amsr_shared (X := memX) hmin (by decide) (by decide +kernel) rfl rfl
  have h2 : sampleH defaultChecks 1 (amsrH env 1 top 1) 0 1 (memH.set 0 (.rows (memX.map (fun _ => [0])))) =
      (.ok (0, 1), memH.set 0 (.rows (memX.map (fun _ => [0])))) :=
    C130_amsr_shared (X := memX.map (fun _ => [0])) hmin (by decide) (by decide +kernel) rfl rfl
  refine ⟨_, _, 0, rfl, rfl, by rw [h1]; rfl, fun he => ?_⟩
  simp only [session, h1, h2] at he
  cases hr : sample defaultChecks 1 (amsrAlg env 1 top 1) memX memY with
  | error e =>
    rw [hr] at he
    simp only [expected, contents] at he
    cases he
  | ok r =>
    rw [hr] at he
    simp only [expected, contents] at he
    injection he with e1 e2
    injection e2 with e2 _
    rw [← e1] at e2
    exact absurd e2 (by decide +kernel)

/-- **The base class** and the shuffling helper without a random state return the arrays they are given. -/
theorem C130_shared : sampleH [] d baseH 0 1 memH = (.ok (0, 1), memH) ∧ shuffleH none 0 1 memH = (.ok (0, 1), memH) := ⟨rfl, rfl⟩

/-- **Sample data.** What a loader returns depends on what was done with the arrays an earlier call returned. -/
theorem C130_loader : ∃ (c : Arr) (a : Nat), (loadH 0 1 memH).1.map Prod.fst = .ok a ∧
    session [.call (loadH 0 1) (.ok (memX, memY)), .change a c, .call (loadH 0 1) (.ok (memX, memY))] memH =
      [.ok (some (.rows memX), some (.labels memY)), .ok (some c, some (.labels memY))] ∧ c ≠ .rows memX :=
  ⟨.rows [], 0, rfl, rfl, by decide⟩

/-! ## Non-vacuity -/

def memX2 : List Row := [[0], [1], [2], [3], [10], [11], [12], [13], [14]]
def memY2 : List Int := [1, 1, 1, 0, 0, 0, 0, 0, 0]

/-- SPY changes a label, in its own array only. -/
example : sampleH defaultChecks 1 (spyH (1 / 2) 3 bruteQuery) 0 1 [.rows memX2, .labels memY2] =
    (.ok (3, 2), [.rows memX2, .labels memY2, .labels [1, 1, 1, 1, 0, 0, 0, 0, 0], .rows memX2]) := by decide +kernel

/-- A session: SPY, then the caller overwrites both arrays of its result, then SPY again. -/
example : ∃ ss : List Step, ss.length = 4 ∧ (∀ p r, Step.call p r ∈ ss → CallOn 0 1 memX2 memY2 p r) ∧
    (∀ a c, Step.change a c ∈ ss → 2 ≤ a) ∧
    session ss [.rows memX2, .labels memY2] = List.replicate 2 (.ok (some (.rows memX2), some (.labels [1, 1, 1, 1, 0, 0, 0, 0, 0]))) := by
  refine ⟨[.call (sampleH defaultChecks 1 (spyH (1 / 2) 3 bruteQuery) 0 1) (sample defaultChecks 1 (spyAlg (1 / 2) 3 bruteQuery) memX2 memY2),
    .change 3 (.rows []), .change 2 (.labels []),
    .call (sampleH defaultChecks 1 (spyH (1 / 2) 3 bruteQuery) 0 1) (sample defaultChecks 1 (spyAlg (1 / 2) 3 bruteQuery) memX2 memY2)],
    rfl, ?_, ?_, ?_⟩
  · intro p r hp
    simp only [List.mem_cons, List.not_mem_nil, or_false, Step.call.injEq, reduceCtorEq, false_or, or_self] at hp
    obtain ⟨rfl, rfl⟩ := hp
    exact .spy 1 (1 / 2) 3 bruteQuery
  · intro a c hp
    simp only [List.mem_cons, List.not_mem_nil, or_false, Step.change.injEq, reduceCtorEq, false_or] at hp
    omega
  · decide +kernel

end Verif

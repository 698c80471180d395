import Verif.Spec.Leak
import Verif.Props.C122

/-!
# C125: the test rows do not influence the training

The results are the genuine ones of C122: those of an evaluation without a cache, and those that an evaluation with a cache returns.
-/

namespace Verif

variable {B : Bench}

/-- What a genuine result says, in the terms of the jobs. -/
theorem genuine_parts {f : Fold} {o : OsArg} {c : ClfDesc} {r : Record} (h : Genuine B f o c r) :
    ∃ k v, osCore B f o = .ok k ∧ evCore B f k c = .ok v ∧ r.get "y_pred" = some (.vec v.1) ∧ r.get "scores" = some v.2.1 ∧
      r.get "error" = some (.text v.2.2) ∧ r.get "oversampling_error" = some (.text k.err) := by
  have : ∃ r', Outcome B f o c r' := by
    obtain ⟨ob, r0, h1, h2⟩ := h
    unfold Bench.execute1Job at h1
    rw [ebind_ok] at h1
    obtain ⟨l, hl, -⟩ := h1
    obtain ⟨k, cls, h3, h4, h5⟩ := plainOne_exists.1 (emapM_exists.1 ⟨l, hl⟩ o List.mem_cons_self)
    obtain ⟨v, hv⟩ := h5 c List.mem_cons_self
    exact ⟨_, k, cls, v, ob, 0, "", none, h3, h4, hv, rfl⟩
  obtain ⟨r', ho⟩ := this
  have hs := C122_determined h (genuine_of_outcome ho)
  obtain ⟨k, cls, v, ob, t, w, fn, h3, -, hv, rfl⟩ := ho
  refine ⟨k, v, h3, hv, ?_, ?_, ?_, ?_⟩ <;>
  · rw [hs.2 _ (by simp [volatileFields])]
    simp [evRec, EvalJob.record, Dict.get, osSeen, Bench.evalJob]

/-- The sampling part: what it hands on is determined by the training rows, and the test rows are mapped one by one. -/
theorem osCore_rowByRow (hB : B.RowByRow) (X : List Row) (y : List Int) (o : OsArg) :
    (∃ e, ∀ f : Fold, f.item.xTrain = X → f.item.yTrain = y → osCore B f o = .error e) ∨
    ∃ (p : Dict String String) (Xs : List Row) (ys : List Int) (g : Row → Row) (err : Option String),
      ∀ f : Fold, f.item.xTrain = X → f.item.yTrain = y → osCore B f o = .ok ⟨p, Xs, ys, f.item.xTest.map g, err⟩ := by
  obtain ⟨gs, hgs⟩ : ∃ gs : Row → Row, ∀ f : Fold, f.item.xTrain = X → f.item.yTrain = y →
      (B.sampJob obs0 true f o).scaled.2 = f.item.xTest.map gs := by
    cases hs : B.scaler with
    | none =>
      refine ⟨id, fun f _ _ => ?_⟩
      unfold SampJob.scaled
      rw [show (B.sampJob obs0 true f o).scaler = none from hs]
      simp [Bench.sampJob]
    | some fit =>
      obtain ⟨g, hg⟩ := hB.scaler fit hs X y
      refine ⟨g, fun f h1 h2 => ?_⟩
      unfold SampJob.scaled
      rw [show (B.sampJob obs0 true f o).scaler = some fit from hs]
      subst h1 h2
      exact hg _
  obtain ⟨Xs, hXs⟩ : ∃ Xs : List Row, ∀ f : Fold, f.item.xTrain = X → f.item.yTrain = y → (B.sampJob obs0 true f o).scaled.1 = Xs := by
    cases hs : B.scaler with
    | none =>
      refine ⟨X, fun f h _ => ?_⟩
      unfold SampJob.scaled
      rw [show (B.sampJob obs0 true f o).scaler = none from hs]
      exact h
    | some fit =>
      refine ⟨fit X y X, fun f h1 h2 => ?_⟩
      unfold SampJob.scaled
      rw [show (B.sampJob obs0 true f o).scaler = some fit from hs]
      subst h1 h2
      rfl
  cases hi : B.instOs o.1 o.2 with
  | error e => left; exact ⟨e, fun f _ _ => by unfold osCore; rw [hi]⟩
  | ok a =>
    obtain ⟨g, hg⟩ := hB.osr _ _ a hi Xs y
    have hatt : ∀ f : Fold, f.item.xTrain = X → f.item.yTrain = y → (B.sampJob obs0 true f o).attempt a =
        (a.sample Xs y).map (fun s => (s, f.item.xTest.map g)) := by
      intro f h1 h2
      unfold SampJob.attempt
      rw [hXs f h1 h2]
      show (a.sample Xs f.item.yTrain >>= fun s => a.transform Xs f.item.yTrain f.item.xTest >>= _) = _
      rw [h2]
      cases a.sample Xs y with
      | error e => rfl
      | ok s =>
        rw [eok_bind, hg]
        rfl
    cases hsam : a.sample Xs y with
    | ok s =>
      right
      refine ⟨coalesceDict (some a.getParams) o.2, s.1, s.2, g, none, fun f h1 h2 => ?_⟩
      unfold osCore
      rw [hi]
      simp only
      rw [hatt f h1 h2, hsam]
      rfl
    | error e =>
      by_cases he : e.1 = .valueError ∨ e.1 = .runtimeError
      · right
        refine ⟨coalesceDict (some a.getParams) o.2, Xs, y, gs, some e.2, fun f h1 h2 => ?_⟩
        unfold osCore
        rw [hi]
        simp only
        rw [hatt f h1 h2, hsam]
        show (if e.1 = .valueError ∨ e.1 = .runtimeError then _ else _) = _
        rw [if_pos he, hXs f h1 h2, hgs f h1 h2, h2]
      · left
        refine ⟨e, fun f h1 h2 => ?_⟩
        unfold osCore
        rw [hi]
        simp only
        rw [hatt f h1 h2, hsam]
        show (if e.1 = .valueError ∨ e.1 = .runtimeError then _ else _) = _
        rw [if_neg he]

theorem secondColumn_map {T : List Row} {p : Row → List ℚ} {y1 : List ℚ} (h : secondColumn (T.map p) = .ok y1) :
    y1 = T.map (fun r => (p r).getD 1 0) := by
  unfold secondColumn at h
  induction T generalizing y1 with
  | nil => cases h; rfl
  | cons r T ih =>
    rw [List.map_cons, List.mapM_cons, ebind_ok] at h
    obtain ⟨v, hv, h⟩ := h
    rw [ebind_ok] at h
    obtain ⟨vs, hvs, h⟩ := h
    cases h
    rw [List.map_cons, ← ih hvs]
    congr 1
    unfold secondProb at hv
    rw [List.getD_eq_getElem?_getD]
    cases hq : (p r)[1]? with
    | none => rw [hq] at hv; cases hv
    | some q => rw [hq] at hv; cases hv; rfl

/-- **The prediction for a test row.** If the parts work row by row, there is one function, given by the training rows and their labels (and by the
oversampler, the classifier and the scaler), and every genuine result has as predictions the values of this function at the test rows: neither
the labels of the test rows nor the other test rows have any influence. -/
theorem C125_predictions (hB : B.RowByRow) (X : List Row) (y : List Int) (o : OsArg) (c : ClfDesc) :
    ∃ (h : Row → ℚ), ∀ (f : Fold) (r : Record), f.item.xTrain = X → f.item.yTrain = y → f.item.xTest.length = f.item.yTest.length →
      Genuine B f o c r → r.get "y_pred" = some (.vec (f.item.xTest.map h)) := by
  rcases osCore_rowByRow hB X y o with ⟨e, he⟩ | ⟨p, Xs, ys, g, err, hk⟩
  · refine ⟨fun _ => 0, fun f r h1 h2 _ hr => ?_⟩
    obtain ⟨k, v, h3, _⟩ := genuine_parts hr
    rw [he f h1 h2] at h3
    cases h3
  · cases hc : B.instClf c with
    | error e =>
      refine ⟨fun _ => 0, fun f r h1 h2 _ hr => ?_⟩
      obtain ⟨k, v, h3, h4, _⟩ := genuine_parts hr
      unfold evCore at h4
      rw [hc] at h4
      cases h4
    | ok kl =>
      rcases hB.clf c kl hc Xs ys with ⟨e, he⟩ | ⟨q, hq⟩
      · refine ⟨fun _ => 0, fun f r h1 h2 hlen hr => ?_⟩
        obtain ⟨k, v, h3, h4, h5, _⟩ := genuine_parts hr
        rw [hk f h1 h2] at h3
        injection h3 with h3
        subst h3
        unfold evCore at h4
        rw [hc, eok_bind] at h4
        rw [h5]
        have hpred : (B.evalJob obs0 true (osSeen f ⟨p, Xs, ys, f.item.xTest.map g, err⟩ "" 0 "" none)).predict kl =
            (if e.1 = .valueError ∨ e.1 = .runtimeError then .ok (List.replicate f.item.yTest.length [0, 0], some e.2) else .error e) := by
          unfold EvalJob.predict
          show (match kl Xs ys (f.item.xTest.map g) with | .ok p => _ | .error (.valueError, msg) => _ | .error (.runtimeError, msg) => _ | .error e => _) = _
          rw [he]
          obtain ⟨e1, e2⟩ := e
          cases e1 <;> rfl
        rw [hpred] at h4
        by_cases hcatch : e.1 = .valueError ∨ e.1 = .runtimeError
        · rw [if_pos hcatch, eok_bind] at h4
          rw [ebind_ok] at h4
          obtain ⟨y1, hy1, h4⟩ := h4
          rw [ebind_ok] at h4
          obtain ⟨sc, _, h4⟩ := h4
          cases h4
          have : List.replicate f.item.yTest.length ([0, 0] : List ℚ) = f.item.xTest.map (fun _ => [0, 0]) := by
            rw [List.map_const', hlen]
          rw [show (List.replicate f.item.yTest.length [0, 0], some e.2).1 = List.replicate f.item.yTest.length ([0, 0] : List ℚ) from rfl, this] at hy1
          rw [secondColumn_map hy1]
          rfl
        · rw [if_neg hcatch] at h4
          cases h4
      · refine ⟨fun row => (q (g row)).getD 1 0, fun f r h1 h2 hlen hr => ?_⟩
        obtain ⟨k, v, h3, h4, h5, _⟩ := genuine_parts hr
        rw [hk f h1 h2] at h3
        injection h3 with h3
        subst h3
        unfold evCore at h4
        rw [hc, eok_bind] at h4
        rw [h5]
        have hpred : (B.evalJob obs0 true (osSeen f ⟨p, Xs, ys, f.item.xTest.map g, err⟩ "" 0 "" none)).predict kl =
            .ok ((f.item.xTest.map g).map q, none) := by
          unfold EvalJob.predict
          show (match kl Xs ys (f.item.xTest.map g) with | .ok p => _ | .error (.valueError, msg) => _ | .error (.runtimeError, msg) => _ | .error e => _) = _
          rw [hq]
          rfl
        rw [hpred, eok_bind, ebind_ok] at h4
        obtain ⟨y1, hy1, h4⟩ := h4
        rw [ebind_ok] at h4
        obtain ⟨sc, _, h4⟩ := h4
        cases h4
        rw [secondColumn_map hy1, List.map_map]
        rfl

/-- **The training set.** If the parts work row by row, the resampled training set, and whether the oversampling has failed, depend on the training
part of the fold only. -/
theorem C125_training (hB : B.RowByRow) {f f' : Fold} (hx : f.item.xTrain = f'.item.xTrain) (hy : f.item.yTrain = f'.item.yTrain)
    {o : OsArg} {ob ob' : Obs} {cc cc' : Bool} {r r' : Record} (h : (B.sampJob ob cc f o).compute = .ok r)
    (h' : (B.sampJob ob' cc' f' o).compute = .ok r') :
    r.get "X_train" = r'.get "X_train" ∧ r.get "y_train" = r'.get "y_train" ∧ r.get "error" = r'.get "error" := by
  rw [samp_compute] at h h'
  rcases osCore_rowByRow hB f'.item.xTrain f'.item.yTrain o with ⟨e, he⟩ | ⟨p, Xs, ys, g, err, hk⟩
  · rw [he f hx hy] at h
    cases h
  · rw [hk f hx hy] at h
    rw [hk f' rfl rfl] at h'
    cases h
    cases h'
    refine ⟨?_, ?_, ?_⟩ <;> simp [osRec, sampRecord, Dict.get]

/-- **The labels of the test rows.** Whatever the parts do: results for folds that differ in the labels of the test rows only have the same
predictions and the same errors. -/
theorem C125_labels {f f' : Fold} (hx : f.item.xTrain = f'.item.xTrain) (hy : f.item.yTrain = f'.item.yTrain)
    (ht : f.item.xTest = f'.item.xTest) (hl : f.item.yTest.length = f'.item.yTest.length) {o : OsArg} {c : ClfDesc} {r r' : Record}
    (h : Genuine B f o c r) (h' : Genuine B f' o c r') :
    r.get "y_pred" = r'.get "y_pred" ∧ r.get "error" = r'.get "error" ∧ r.get "oversampling_error" = r'.get "oversampling_error" := by
  obtain ⟨k, v, h1, h2, h3, -, h5, h6⟩ := genuine_parts h
  obtain ⟨k', v', h1', h2', h3', -, h5', h6'⟩ := genuine_parts h'
  have hsc : (B.sampJob obs0 true f o).scaled = (B.sampJob obs0 true f' o).scaled := by
    unfold SampJob.scaled Bench.sampJob
    rw [hx, hy, ht]
  have hatt : ∀ a, (B.sampJob obs0 true f o).attempt a = (B.sampJob obs0 true f' o).attempt a := by
    intro a
    unfold SampJob.attempt
    rw [hsc]
    show (a.sample _ f.item.yTrain >>= fun s => a.transform _ f.item.yTrain f.item.xTest >>= _) = _
    rw [hy, ht]
    rfl
  have hk : osCore B f o = osCore B f' o := by
    unfold osCore
    simp only [hatt, hsc, hy]
  rw [hk, h1'] at h1
  injection h1 with h1
  subst h1
  have hp : ∀ kl, (B.evalJob obs0 true (osSeen f k' "" 0 "" none)).predict kl = (B.evalJob obs0 true (osSeen f' k' "" 0 "" none)).predict kl := by
    intro kl
    unfold EvalJob.predict
    simp only [Bench.evalJob, osSeen, hl]
  unfold evCore at h2 h2'
  cases hc : B.instClf c with
  | error e => rw [hc] at h2; cases h2
  | ok kl =>
    rw [hc, eok_bind] at h2 h2'
    rw [hp, ebind_ok] at h2
    rw [ebind_ok] at h2'
    obtain ⟨pe, hpe, h2⟩ := h2
    obtain ⟨pe', hpe', h2'⟩ := h2'
    rw [hpe] at hpe'
    injection hpe' with hpe'
    subst hpe'
    rw [ebind_ok] at h2 h2'
    obtain ⟨y1, hy1, h2⟩ := h2
    obtain ⟨y1', hy1', h2'⟩ := h2'
    rw [hy1] at hy1'
    injection hy1' with hy1'
    subst hy1'
    rw [ebind_ok] at h2 h2'
    obtain ⟨sc, _, h2⟩ := h2
    obtain ⟨sc', _, h2'⟩ := h2'
    cases h2
    cases h2'
    exact ⟨h3.trans h3'.symm, h5.trans h5'.symm, h6.trans h6'.symm⟩

/-- **The scores** are those of the predictions in the record, against the labels of the test rows. -/
theorem C125_scores {f : Fold} {o : OsArg} {c : ClfDesc} {r : Record} (h : Genuine B f o c r) :
    ∃ p sc, r.get "y_pred" = some (.vec p) ∧ r.get "scores" = some sc ∧ B.scores f.item.yTest p = .ok sc := by
  obtain ⟨k, v, h1, h2, h3, h4, -, -⟩ := genuine_parts h
  refine ⟨v.1, v.2.1, h3, h4, ?_⟩
  unfold evCore at h2
  rw [ebind_ok] at h2
  obtain ⟨kl, _, h2⟩ := h2
  rw [ebind_ok] at h2
  obtain ⟨pe, _, h2⟩ := h2
  rw [ebind_ok] at h2
  obtain ⟨y1, _, h2⟩ := h2
  rw [ebind_ok] at h2
  obtain ⟨sc, hsc, h2⟩ := h2
  cases h2
  exact hsc

theorem takeRows_agree {α : Type} {a a' : List α} {pos : List Nat} (h : ∀ i ∈ pos, a[i]? = a'[i]?) : takeRows a pos = takeRows a' pos := by
  unfold takeRows
  induction pos with
  | nil => rfl
  | cons i pos ih =>
    rw [List.mapM_cons, List.mapM_cons, ih (fun j hj => h j (List.mem_cons_of_mem _ hj))]
    unfold getRow
    rw [h i List.mem_cons_self]

theorem takeRows_at {α : Type} {a R : List α} {pos : List Nat} (h : takeRows a pos = .ok R) {j i : Nat} (hj : pos[j]? = some i) : R[j]? = a[i]? := by
  unfold takeRows at h
  induction pos generalizing R j with
  | nil => simp at hj
  | cons k pos ih =>
    rw [List.mapM_cons, bind_ok] at h
    obtain ⟨v, hv, h⟩ := h
    rw [bind_ok] at h
    obtain ⟨vs, hvs, h⟩ := h
    cases h
    cases j with
    | zero =>
      simp only [List.getElem?_cons_zero, Option.some.injEq] at hj
      subst hj
      unfold getRow at hv
      cases hk : a[k]? with
      | none => rw [hk] at hv; cases hv
      | some w => rw [hk] at hv; cases hv; rfl
    | succ j => exact ih hvs hj

theorem foldItem_parts {data : List Row} {target : List Int} {sp : List Nat × List Nat} {it : FoldItem} (h : foldItem data target sp = .ok it) :
    takeRows data sp.1 = .ok it.xTrain ∧ takeRows target sp.1 = .ok it.yTrain ∧ takeRows data sp.2 = .ok it.xTest ∧
      takeRows target sp.2 = .ok it.yTest := by
  unfold foldItem at h
  rw [bind_ok] at h
  obtain ⟨a, ha, h⟩ := h
  rw [bind_ok] at h
  obtain ⟨b, hb, h⟩ := h
  rw [bind_ok] at h
  obtain ⟨c, hc, h⟩ := h
  rw [bind_ok] at h
  obtain ⟨d, hd, h⟩ := h
  cases h
  exact ⟨ha, hb, hc, hd⟩

/-- **In terms of the data set.** Two data sets that agree at the training positions of a split may differ in all other rows, and in all labels
of the test rows, and even the test positions may be others: a row that is tested in both gets the same prediction. -/
theorem C125_data (hB : B.RowByRow) {data data' : List Row} {target target' : List Int} {tr te te' : List Nat}
    (hag : AgreeAt tr data data' target target') {it it' : FoldItem} (hit : foldItem data target (tr, te) = .ok it)
    (hit' : foldItem data' target' (tr, te') = .ok it') {d d' : Desc} {o : OsArg} {c : ClfDesc} {r r' : Record}
    (hr : Genuine B ⟨it, d⟩ o c r) (hr' : Genuine B ⟨it', d'⟩ o c r') :
    ∃ v v' : List ℚ, r.get "y_pred" = some (.vec v) ∧ r'.get "y_pred" = some (.vec v') ∧ v.length = te.length ∧ v'.length = te'.length ∧
      ∀ a b i j : Nat, te[a]? = some i → te'[b]? = some j → data[i]? = data'[j]? → v[a]? = v'[b]? := by
  obtain ⟨h1, h2, h3, h4⟩ := foldItem_parts hit
  obtain ⟨h1', h2', h3', h4'⟩ := foldItem_parts hit'
  have hx : it.xTrain = it'.xTrain := by
    have := takeRows_agree (fun i hi => (hag i hi).1)
    rw [h1, h1'] at this
    injection this
  have hy : it.yTrain = it'.yTrain := by
    have := takeRows_agree (fun i hi => (hag i hi).2)
    rw [h2, h2'] at this
    injection this
  have l3 := mapM_ok_length h3
  have l4 := mapM_ok_length h4
  have l3' := mapM_ok_length h3'
  have l4' := mapM_ok_length h4'
  obtain ⟨h, hh⟩ := C125_predictions hB it'.xTrain it'.yTrain o c
  refine ⟨_, _, hh ⟨it, d⟩ r hx hy (l3.trans l4.symm) hr, hh ⟨it', d'⟩ r' rfl rfl (l3'.trans l4'.symm) hr', ?_, ?_, ?_⟩
  · rw [List.length_map]; exact l3
  · rw [List.length_map]; exact l3'
  · intro a b i j ha hb he
    rw [List.getElem?_map, List.getElem?_map]
    show Option.map h it.xTest[a]? = Option.map h it'.xTest[b]?
    rw [takeRows_at h3 ha, takeRows_at h3' hb, he]

/-! ## Examples, and what happens when a part does not work row by row -/

/-- An oversampler that adds one row; its transformation raises `ValueError` when a row exceeds the limit. The classifier multiplies the first
feature by the number of training rows; with `strict` it raises `ValueError` when a row exceeds the limit. -/
def leakBench (limit : Option ℚ) (strict : Bool) : Bench where
  instOs := fun _ _ => .ok ⟨[("class_name", "SMOTE")], fun X y => .ok (X ++ [[9]], y ++ [1]), fun _ _ T =>
    match limit with
    | none => .ok T
    | some l => if T.any (fun r => decide (l < r.headD 0)) then .error (.valueError, "too large") else .ok T⟩
  scaler := none
  instClf := fun _ => .ok (fun X _ T =>
    if strict && T.any (fun r => decide (100 < r.headD 0)) then .error (.valueError, "too large")
    else .ok (T.map (fun r => [0, r.headD 0 * X.length])))
  scores := fun _ p => .ok (.vec p)
  md5Os := fun _ => 0
  md5Clf := fun _ => 0
  path := fun _ => ""

theorem leakBench_rowByRow : (leakBench none false).RowByRow where
  scaler := by intro fit h; cases h
  osr := by
    intro o p a h
    cases h
    exact fun _ _ => ⟨id, fun T => by simp⟩
  clf := by
    intro c k h
    cases h
    exact fun X _ => .inr ⟨fun r => [0, r.headD 0 * X.length], fun T => by simp⟩

/-- A fold with two test rows, the second of which is given. -/
def leakFold (x : ℚ) (l : Int) : Fold := ⟨⟨[[2], [4]], [0, 1], [[1], [x]], [0, l]⟩, ⟨0, 0, 0⟩⟩

/-- The predictions of an evaluation. -/
def leakPred (B : Bench) (f : Fold) : Option RV :=
  match B.execute1Job exObs [exSmote] [exTree] f with
  | .ok [.record r] => r.get "y_pred"
  | _ => none

theorem leakPred_genuine {f : Fold} {v : RV} (h : leakPred B f = some v) : ∃ r, Genuine B f exSmote exTree r ∧ r.get "y_pred" = some v := by
  unfold leakPred at h
  split at h
  · next r hr => exact ⟨r, ⟨exObs, r, hr, rfl, fun _ _ => rfl⟩, h⟩
  · cases h

/-- The hypotheses of the theorems are met; the first test row gets the same prediction, whatever the second is. -/
example : (leakBench none false).RowByRow ∧
    (∃ r, Genuine (leakBench none false) (leakFold 5 0) exSmote exTree r ∧ r.get "y_pred" = some (.vec [3, 15])) ∧
    (∃ r, Genuine (leakBench none false) (leakFold 500 1) exSmote exTree r ∧ r.get "y_pred" = some (.vec [3, 1500])) :=
  ⟨leakBench_rowByRow, leakPred_genuine (by decide +kernel), leakPred_genuine (by decide +kernel)⟩

example : AgreeAt [0, 1] [[2], [4], [1], [5]] [[2], [4], [1], [500]] [0, 1, 0, 0] [0, 1, 0, 1] ∧
    foldItem [[2], [4], [1], [5]] [0, 1, 0, 0] ([0, 1], [2, 3]) = .ok (leakFold 5 0).item ∧
    foldItem [[2], [4], [1], [500]] [0, 1, 0, 1] ([0, 1], [2, 3]) = .ok (leakFold 500 1).item :=
  ⟨by unfold AgreeAt; decide +kernel, rfl, rfl⟩

example : ((leakBench none false).sampJob exObs false (leakFold 5 0) exSmote).compute.toBool = true ∧
    ((leakBench none false).sampJob exObs false (leakFold 500 1) exSmote).compute.toBool = true := by decide +kernel

/-- **A transformation that raises** for one of the test rows makes the job train on the unsampled rows: the prediction of another test row
changes. -/
theorem C125_transform_not : ∃ r r', Genuine (leakBench (some 100) false) (leakFold 5 0) exSmote exTree r ∧
    Genuine (leakBench (some 100) false) (leakFold 500 0) exSmote exTree r' ∧ r.get "y_pred" = some (.vec [3, 15]) ∧
    r'.get "y_pred" = some (.vec [2, 1000]) := by
  obtain ⟨r, h1, h2⟩ := leakPred_genuine (B := leakBench (some 100) false) (f := leakFold 5 0) (v := .vec [3, 15]) (by decide +kernel)
  obtain ⟨r', h1', h2'⟩ := leakPred_genuine (B := leakBench (some 100) false) (f := leakFold 500 0) (v := .vec [2, 1000]) (by decide +kernel)
  exact ⟨r, r', h1, h1', h2, h2'⟩

/-- **A classifier that raises** for one of the test rows gives all of them the probability 0. -/
theorem C125_classifier_not : ∃ r r', Genuine (leakBench none true) (leakFold 5 0) exSmote exTree r ∧
    Genuine (leakBench none true) (leakFold 500 0) exSmote exTree r' ∧ r.get "y_pred" = some (.vec [3, 15]) ∧
    r'.get "y_pred" = some (.vec [0, 0]) := by
  obtain ⟨r, h1, h2⟩ := leakPred_genuine (B := leakBench none true) (f := leakFold 5 0) (v := .vec [3, 15]) (by decide +kernel)
  obtain ⟨r', h1', h2'⟩ := leakPred_genuine (B := leakBench none true) (f := leakFold 500 0) (v := .vec [0, 0]) (by decide +kernel)
  exact ⟨r, r', h1, h1', h2, h2'⟩

end Verif

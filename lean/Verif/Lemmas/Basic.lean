import Verif.Model.Smote
import Mathlib.Data.List.Forall2
import Mathlib.Tactic.Linarith
import Mathlib.Tactic.Ring
import Mathlib.Tactic.FieldSimp
import Mathlib.Algebra.Order.BigOperators.Group.List

/-! # Helper lemmas on the Python/numpy vocabulary -/

namespace Verif

theorem bind_ok {α β : Type} {x : Res α} {f : α → Res β} {b : β} :
    (x >>= f) = .ok b ↔ ∃ a, x = .ok a ∧ f a = .ok b := by
  cases x with
  | ok a => simp [bind, Except.bind]
  | error e => simp [bind, Except.bind]

@[simp] theorem pure_ok {α : Type} {a b : α} : (pure a : Res α) = .ok b ↔ a = b := by
  simp [pure, Except.pure]

@[simp] theorem ok_bind {α β : Type} (a : α) (f : α → Res β) : ((.ok a : Res α) >>= f) = f a := rfl

@[simp] theorem error_bind {α β : Type} (e : PyErr) (f : α → Res β) :
    ((.error e : Res α) >>= f) = .error e := rfl

theorem mapM_ok_iff {α β : Type} {f : α → Res β} {l : List α} {r : List β} :
    l.mapM f = .ok r ↔ List.Forall₂ (fun a b => f a = .ok b) l r := by
  induction l generalizing r with
  | nil => simp [pure, Except.pure, eq_comm]
  | cons a l ih =>
    rw [List.mapM_cons, bind_ok]
    constructor
    · rintro ⟨b, hb, h⟩
      rw [bind_ok] at h
      obtain ⟨bs, hbs, h⟩ := h
      simp only [pure_ok] at h
      subst h
      exact List.Forall₂.cons hb (ih.1 hbs)
    · intro h
      cases h with
      | cons hb hbs => exact ⟨_, hb, by rw [bind_ok]; exact ⟨_, ih.2 hbs, rfl⟩⟩

theorem mapM_ok_of {α β : Type} {f : α → Res β} {g : α → β} {l : List α}
    (h : ∀ a ∈ l, f a = .ok (g a)) : l.mapM f = .ok (l.map g) := by
  rw [mapM_ok_iff]
  induction l with
  | nil => simp
  | cons a l ih =>
    simp only [List.map_cons]
    exact List.Forall₂.cons (h a (by simp)) (ih (fun b hb => h b (by simp [hb])))

theorem mapM_ok_length {α β : Type} {f : α → Res β} {l : List α} {r : List β}
    (h : l.mapM f = .ok r) : r.length = l.length := (mapM_ok_iff.1 h).length_eq.symm

theorem mapM_ok_mem {α β : Type} {f : α → Res β} {l : List α} {r : List β}
    (h : l.mapM f = .ok r) {b : β} (hb : b ∈ r) : ∃ a ∈ l, f a = .ok b := by
  rw [mapM_ok_iff] at h
  induction h with
  | nil => simp at hb
  | cons h1 _ ih =>
    rcases List.mem_cons.1 hb with rfl | hb
    · exact ⟨_, by simp, h1⟩
    · obtain ⟨a, ha, h⟩ := ih hb
      exact ⟨a, by simp [ha], h⟩

theorem mapM_ok_get {α β : Type} {f : α → Res β} {l : List α} {r : List β}
    (h : l.mapM f = .ok r) {i : Nat} {a : α} (ha : l[i]? = some a) :
    ∃ b, r[i]? = some b ∧ f a = .ok b := by
  rw [mapM_ok_iff] at h
  induction h generalizing i with
  | nil => simp at ha
  | cons h1 _ ih =>
    cases i with
    | zero => simp at ha; subst ha; exact ⟨_, by simp, h1⟩
    | succ i => simp at ha; simpa using ih ha

theorem mapM_exists_ok {α β : Type} {f : α → Res β} {l : List α}
    (h : ∀ a ∈ l, ∃ b, f a = .ok b) : ∃ r, l.mapM f = .ok r := by
  induction l with
  | nil => exact ⟨[], rfl⟩
  | cons a l ih =>
    obtain ⟨b, hb⟩ := h a (by simp)
    obtain ⟨r, hr⟩ := ih (fun c hc => h c (by simp [hc]))
    exact ⟨b :: r, by rw [List.mapM_cons, hb]; simp [hr, pure, Except.pure]⟩

theorem getRow_ok {α : Type} {X : List α} {i : Nat} {r : α} :
    getRow X i = .ok r ↔ X[i]? = some r := by
  unfold getRow
  cases h : X[i]? <;> simp

theorem getRow_mem {α : Type} {X : List α} {i : Nat} {r : α} (h : getRow X i = .ok r) : r ∈ X :=
  List.mem_of_getElem? (getRow_ok.1 h)

theorem getRow_lt {α : Type} {X : List α} {i : Nat} (h : i < X.length) :
    getRow X i = .ok X[i] := getRow_ok.2 (List.getElem?_eq_getElem h)

theorem takeRows_ok_of_lt {α : Type} {X : List α} {idx : List Nat} (h : ∀ i ∈ idx, i < X.length) :
    ∃ r, takeRows X idx = .ok r :=
  mapM_exists_ok (fun i hi => ⟨_, getRow_lt (h i hi)⟩)

theorem takeRows_length {α : Type} {X : List α} {idx : List Nat} {r : List α}
    (h : takeRows X idx = .ok r) : r.length = idx.length := mapM_ok_length h

theorem takeRows_mem {α : Type} {X : List α} {idx : List Nat} {r : List α}
    (h : takeRows X idx = .ok r) {a : α} (ha : a ∈ r) : a ∈ X := by
  obtain ⟨i, _, hi⟩ := mapM_ok_mem h ha
  exact getRow_mem hi

theorem takeRows_forall {α : Type} {X : List α} {idx : List Nat} {r : List α}
    (h : takeRows X idx = .ok r) : List.Forall₂ (fun i a => X[i]? = some a) idx r := by
  have := mapM_ok_iff.1 h
  exact this.imp (fun i a hi => getRow_ok.1 hi)

theorem selectLabel_mem {α : Type} {X : List α} {y : List Int} {l : Int} {a : α}
    (h : a ∈ selectLabel X y l) : a ∈ X := by
  unfold selectLabel maskRows at h
  rw [List.mem_filterMap] at h
  obtain ⟨p, hp, h⟩ := h
  split at h
  · simp at h; subst h; exact (List.of_mem_zip hp).1
  · simp at h

theorem selectLabel_length {α : Type} {X : List α} {y : List Int} (h : X.length = y.length)
    (l : Int) : (selectLabel X y l).length = y.count l := by
  unfold selectLabel maskRows
  induction X generalizing y with
  | nil => cases y with
    | nil => simp
    | cons _ _ => simp at h
  | cons a X ih =>
    cases y with
    | nil => simp at h
    | cons b y =>
      simp only [List.length_cons, Nat.add_right_cancel_iff] at h
      have := ih h
      by_cases hb : b = l
      · subst hb; simp [this]
      · simp [hb, this]

/-- Membership in `selectLabel`: exactly the rows whose label is `l`. -/
theorem mem_selectLabel_iff {α : Type} {X : List α} {y : List Int} {l : Int} {a : α} :
    a ∈ selectLabel X y l ↔ (a, l) ∈ X.zip y := by
  unfold selectLabel maskRows
  induction X generalizing y with
  | nil => simp
  | cons b X ih =>
    cases y with
    | nil => simp
    | cons c y =>
      by_cases hc : c = l
      · subst hc; simp [ih]
      · have : ¬ (l = c) := fun h => hc h.symm
        simp [hc, ih, this]

theorem forall₂_mem_right {α β : Type} {R : α → β → Prop} {l : List α} {r : List β}
    (h : List.Forall₂ R l r) {b : β} (hb : b ∈ r) : ∃ a ∈ l, R a b := by
  induction h with
  | nil => simp at hb
  | cons h _ ih =>
    rcases List.mem_cons.1 hb with rfl | hb
    · exact ⟨_, by simp, h⟩
    · obtain ⟨a, ha, hR⟩ := ih hb
      exact ⟨a, by simp [ha], hR⟩

theorem forall₂_mem_left {α β : Type} {R : α → β → Prop} {l : List α} {r : List β}
    (h : List.Forall₂ R l r) {a : α} (ha : a ∈ l) : ∃ b ∈ r, R a b := by
  induction h with
  | nil => simp at ha
  | cons h _ ih =>
    rcases List.mem_cons.1 ha with rfl | ha
    · exact ⟨_, by simp, h⟩
    · obtain ⟨b, hb, hR⟩ := ih ha
      exact ⟨b, by simp [hb], hR⟩

end Verif

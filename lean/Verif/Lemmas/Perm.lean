import Mathlib.Data.List.Perm.Basic
import Mathlib.Data.List.Nodup
import Mathlib.Data.List.Count

/-! # Permutation lemmas for nested loops -/

namespace Verif

variable {α β γ : Type}

theorem flatMap_append_perm (l : List α) (f g : α → List β) :
    (l.flatMap (fun a => f a ++ g a)).Perm (l.flatMap f ++ l.flatMap g) := by
  induction l with
  | nil => simp
  | cons a l ih =>
    simp only [List.flatMap_cons]
    have h1 := (List.Perm.append_left (f a ++ g a) ih)
    refine h1.trans ?_
    simp only [List.append_assoc]
    apply List.Perm.append_left
    rw [← List.append_assoc, ← List.append_assoc]
    exact List.Perm.append_right _ List.perm_append_comm

theorem flatMap_swap_perm (l : List α) (m : List β) (f : α → β → γ) :
    (l.flatMap (fun a => m.map (f a))).Perm (m.flatMap (fun b => l.map (fun a => f a b))) := by
  induction l with
  | nil => simp
  | cons a l ih =>
    rw [List.flatMap_cons]
    have : (m.flatMap (fun b => (a :: l).map (fun a => f a b))).Perm
        (m.flatMap (fun b => [f a b]) ++ m.flatMap (fun b => l.map (fun a => f a b))) := by
      simpa using flatMap_append_perm m (fun b => [f a b]) (fun b => l.map (fun a => f a b))
    refine List.Perm.trans ?_ this.symm
    have h2 : m.flatMap (fun b => [f a b]) = m.map (f a) := by
      clear this ih
      induction m with
      | nil => rfl
      | cons b m ih => simp [List.flatMap_cons, ih]
    rw [h2]
    exact List.Perm.append_left _ ih

theorem flatMap_congr_perm {l : List α} {f g : α → List β} (h : ∀ a ∈ l, (f a).Perm (g a)) :
    (l.flatMap f).Perm (l.flatMap g) := by
  induction l with
  | nil => simp
  | cons a l ih =>
    simp only [List.flatMap_cons]
    exact List.Perm.append (h a (by simp)) (ih (fun b hb => h b (by simp [hb])))

theorem flatMap_group_perm [DecidableEq γ] (D : List γ) (L : List α) (key : α → γ) (g : α → List β)
    (hnd : D.Nodup) (hmem : ∀ a ∈ L, key a ∈ D) :
    (D.flatMap (fun c => (L.filter (fun a => key a == c)).flatMap g)).Perm (L.flatMap g) := by
  induction L with
  | nil => simp
  | cons a L ih =>
    have ih := ih (fun b hb => hmem b (by simp [hb]))
    have h1 : ∀ c, ((a :: L).filter (fun a => key a == c)).flatMap g =
        (if key a = c then g a else []) ++ (L.filter (fun a => key a == c)).flatMap g := by
      intro c
      by_cases h : key a = c
      · simp [h]
      · simp [h]
    simp only [h1]
    refine (flatMap_append_perm _ _ _).trans ?_
    rw [List.flatMap_cons]
    refine List.Perm.append ?_ ih
    have : ∀ D : List γ, D.Nodup → key a ∈ D →
        D.flatMap (fun c => if key a = c then g a else []) = g a := by
      intro D hD hm
      induction D with
      | nil => simp at hm
      | cons c D ihD =>
        rw [List.nodup_cons] at hD
        rw [List.flatMap_cons]
        by_cases h : key a = c
        · have hz : D.flatMap (fun c => if key a = c then g a else []) = [] := by
            rw [List.flatMap_eq_nil_iff]
            intro x hx
            rw [if_neg]
            rintro rfl
            exact hD.1 (h ▸ hx)
          simp [h] at hz ⊢
          exact hz
        · rw [if_neg h, List.nil_append]
          exact ihD hD.2 (by simpa [h] using hm)
    rw [this D hnd (hmem a (by simp))]

end Verif

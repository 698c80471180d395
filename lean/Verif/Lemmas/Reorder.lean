import Verif.Spec.Reorder
import Verif.Lemmas.Stats

/-! # Lemmas about reordered data -/

namespace Verif

section
variable {α : Type} {σ : List Nat} {xs xs' : List α}

theorem Reordered.length_eq (h : Reordered σ xs xs') : xs'.length = xs.length := by
  rw [← h.get.length_eq, h.perm.length_eq, List.length_range]

theorem Reordered.length_pos (h : Reordered σ xs xs') : σ.length = xs.length := by
  rw [h.perm.length_eq, List.length_range]

theorem Reordered.nodup (h : Reordered σ xs xs') : σ.Nodup := h.perm.nodup_iff.2 List.nodup_range

theorem forall₂_get? {β : Type} {R : α → β → Prop} : ∀ {l : List α} {l' : List β}, List.Forall₂ R l l' → ∀ {p : Nat} {a : α},
    l[p]? = some a → ∃ b, l'[p]? = some b ∧ R a b := by
  intro l l' h
  induction h with
  | nil => intro p a hp; simp at hp
  | cons hr _ ih =>
    intro p a hp
    cases p with
    | zero =>
      simp only [List.getElem?_cons_zero, Option.some.injEq] at hp
      exact ⟨_, by simp, hp ▸ hr⟩
    | succ p =>
      simp only [List.getElem?_cons_succ] at hp ⊢
      exact ih hp

theorem Reordered.get? (h : Reordered σ xs xs') {p i : Nat} (hp : σ[p]? = some i) : xs'[p]? = xs[i]? := by
  obtain ⟨x, h1, h2⟩ := forall₂_get? h.get hp
  rw [h1, h2]

theorem Reordered.lt (h : Reordered σ xs xs') {p i : Nat} (hp : σ[p]? = some i) : i < xs.length :=
  List.mem_range.1 (h.perm.mem_iff.1 (List.mem_of_getElem? hp))

theorem Reordered.onto (h : Reordered σ xs xs') {i : Nat} (hi : i < xs.length) : ∃ p : Nat, σ[p]? = some i :=
  List.mem_iff_getElem?.1 (h.perm.mem_iff.2 (List.mem_range.2 hi))

theorem nodup_get?_inj {σ : List Nat} (h : σ.Nodup) {p q i : Nat} (hp : σ[p]? = some i) (hq : σ[q]? = some i) : p = q := by
  obtain ⟨h1, h2⟩ := List.getElem?_eq_some_iff.1 hp
  obtain ⟨h3, h4⟩ := List.getElem?_eq_some_iff.1 hq
  exact (List.Nodup.getElem_inj_iff h).1 (h2.trans h4.symm)

theorem filterMap_get?_of_forall₂ {K : List Nat} {l : List α} {xs : List α} (h : List.Forall₂ (fun i x => xs[i]? = some x) K l) :
    K.filterMap (fun i => xs[i]?) = l := by
  induction h with
  | nil => rfl
  | cons h1 _ ih => rw [List.filterMap_cons, h1, ih]

theorem range_filterMap (xs : List α) : (List.range xs.length).filterMap (fun i => xs[i]?) = xs := by
  refine filterMap_get?_of_forall₂ ?_
  rw [List.forall₂_iff_get]
  refine ⟨by simp, fun i h1 h2 => by simp⟩

theorem Reordered.perm_items (h : Reordered σ xs xs') : xs'.Perm xs := by
  have h1 := filterMap_get?_of_forall₂ h.get
  have h2 := range_filterMap xs
  rw [← h1]
  conv_rhs => rw [← h2]
  exact h.perm.filterMap _

theorem forall₂_zip {β : Type} {xs : List α} {ys : List β} : ∀ {K : List Nat} {l : List α} {m : List β},
    List.Forall₂ (fun i x => xs[i]? = some x) K l → List.Forall₂ (fun i x => ys[i]? = some x) K m →
    List.Forall₂ (fun i x => (xs.zip ys)[i]? = some x) K (l.zip m) := by
  intro K l m h1 h2
  induction h1 generalizing m with
  | nil => cases h2; exact .nil
  | cons ha _ ih =>
    cases h2 with
    | cons hb h2 =>
      refine .cons ?_ (ih h2)
      rw [List.getElem?_zip_eq_some]
      exact ⟨ha, hb⟩

theorem Reordered.zip {β : Type} {ys ys' : List β} (h : Reordered σ xs xs') (h' : Reordered σ ys ys') (hl : xs.length = ys.length) :
    Reordered σ (xs.zip ys) (xs'.zip ys') where
  perm := by
    have : (xs.zip ys).length = xs.length := by rw [List.length_zip, ← hl, min_self]
    rw [this]
    exact h.perm
  get := forall₂_zip h.get h'.get

end

theorem Reordered.isMinority {σ : List Nat} {y y' : List Int} {a b : Int} (h : Reordered σ y y') (hm : IsMinority y a b) :
    IsMinority y' a b := by
  obtain ⟨h1, h2, h3, h4⟩ := hm
  have hp := h.perm_items
  refine ⟨hp.mem_iff.2 h1, hp.mem_iff.2 h2, fun l hl => h3 l (hp.mem_iff.1 hl), ?_⟩
  rw [hp.count_eq, hp.count_eq]
  exact h4

/-- Sub-datasets of reordered data which keep the same items have the same labelled rows. -/
theorem subData_perm {σ : List Nat} {X X' : List Row} {y y' : List Int} {X1 X1' : List Row} {y1 y1' : List Int} {K K' : List Nat}
    (hX : Reordered σ X X') (hy : Reordered σ y y') (hl : X.length = y.length) (hs : SubData X y X1 y1 K) (hs' : SubData X' y' X1' y1' K')
    (hK : ∀ p i, σ[p]? = some i → (Removed X' K' p ↔ Removed X K i)) : (X1'.zip y1').Perm (X1.zip y1) := by
  obtain ⟨hsub, hf1, hf2⟩ := hs
  obtain ⟨hsub', hf1', hf2'⟩ := hs'
  have hz := hX.zip hy hl
  have e := filterMap_get?_of_forall₂ (forall₂_zip hf1 hf2)
  have e' := filterMap_get?_of_forall₂ (forall₂_zip hf1' hf2')
  have hlt : ∀ p ∈ K', p < σ.length := by
    intro p hp
    have := List.mem_range.1 (hsub'.subset hp)
    rwa [hX.length_eq, ← hX.length_pos] at this
  have hget : ∀ p ∈ K', σ[p]? = some (σ.getD p 0) := by
    intro p hp
    rw [List.getD_eq_getElem?_getD, List.getElem?_eq_getElem (hlt p hp)]
    rfl
  have e2 : K'.filterMap (fun i => (X'.zip y')[i]?) = (K'.map (fun p => σ.getD p 0)).filterMap (fun i => (X.zip y)[i]?) := by
    rw [List.filterMap_map]
    refine List.filterMap_congr fun p hp => ?_
    exact hz.get? (hget p hp)
  rw [← e, ← e', e2]
  refine List.Perm.filterMap _ ?_
  have hn' : K'.Nodup := hsub'.nodup List.nodup_range
  rw [List.perm_ext_iff_of_nodup _ (hsub.nodup List.nodup_range)]
  · intro i
    simp only [List.mem_map]
    constructor
    · rintro ⟨p, hp, rfl⟩
      have h1 := hget p hp
      by_contra hn
      exact ((hK p _ h1).2 ⟨hX.lt h1, hn⟩).2 hp
    · intro hi
      have hlt' := List.mem_range.1 (hsub.subset hi)
      obtain ⟨p, hp⟩ := hX.onto hlt'
      have hpl : p < X'.length := by
        rw [hX.length_eq, ← hX.length_pos]
        exact (List.getElem?_eq_some_iff.1 hp).1
      refine ⟨p, ?_, ?_⟩
      · by_contra hn
        exact ((hK p i hp).1 ⟨hpl, hn⟩).2 hi
      · rw [List.getD_eq_getElem?_getD, hp]; rfl
  · refine List.Nodup.map_on (fun p hp q hq h => ?_) hn'
    have h1 := hget p hp
    rw [h] at h1
    exact nodup_get?_inj hX.nodup h1 (hget q hq)

/-- Without ties the brute force search finds the same neighbours in any order. -/
theorem nearestTo_same {σ : List Nat} {X X' : List Row} (hX : Reordered σ X X') {x : Row} (hx : NoTies X x) (k : Nat) :
    SamePositions σ (nearestTo X k x) (nearestTo X' k x) := by
  have hget : ∀ p, p < X'.length → σ[p]? = some (σ.getD p 0) := by
    intro p hp
    rw [hX.length_eq, ← hX.length_pos] at hp
    rw [List.getD_eq_getElem?_getD, List.getElem?_eq_getElem hp]
    rfl
  have hval : ∀ p, p < X'.length → X'.getD p [] = X.getD (σ.getD p 0) [] := by
    intro p hp
    rw [List.getD_eq_getElem?_getD, List.getD_eq_getElem?_getD, hX.get? (hget p hp)]
  set S := (List.range X.length).insertionSort (fun a b => sqDist x (X.getD a []) ≤ sqDist x (X.getD b [])) with hS
  set S' := (List.range X'.length).insertionSort (fun a b => sqDist x (X'.getD a []) ≤ sqDist x (X'.getD b [])) with hS'
  have hp : S.Perm (List.range X.length) := List.perm_insertionSort _ _
  have hp' : S'.Perm (List.range X'.length) := List.perm_insertionSort _ _
  have hmem' : ∀ p ∈ S', p < X'.length := fun p h => List.mem_range.1 (hp'.mem_iff.1 h)
  have hmap : S'.map (fun p => σ.getD p 0) = S := by
    have hperm : (S'.map (fun p => σ.getD p 0)).Perm S := by
      refine ((hp'.map _).trans ?_).trans hp.symm
      have : (List.range X'.length).map (fun p => σ.getD p 0) = σ := by
        rw [hX.length_eq, ← hX.length_pos]
        refine List.ext_getElem (by simp) fun i h1 h2 => ?_
        simp [List.getD_eq_getElem?_getD, List.getElem?_eq_getElem h2]
      rw [this]
      exact hX.perm
    refine hperm.eq_of_pairwise (le := fun a b => sqDist x (X.getD a []) ≤ sqDist x (X.getD b [])) ?_ ?_ ?_
    · intro a b ha hb h1 h2
      have ha' := List.mem_range.1 (hp.mem_iff.1 (hperm.mem_iff.1 ha))
      have hb' := List.mem_range.1 (hp.mem_iff.1 hb)
      exact hx a ha' b hb' (le_antisymm h1 h2)
    · rw [List.pairwise_map]
      have hsort : S'.Pairwise (fun a b => sqDist x (X'.getD a []) ≤ sqDist x (X'.getD b [])) :=
        haveI : Std.Total (fun a b : Nat => sqDist x (X'.getD a []) ≤ sqDist x (X'.getD b [])) := ⟨fun a b => le_total _ _⟩
        haveI : IsTrans Nat (fun a b : Nat => sqDist x (X'.getD a []) ≤ sqDist x (X'.getD b [])) := ⟨fun a b c h1 h2 => le_trans h1 h2⟩
        List.pairwise_insertionSort _ _
      refine hsort.imp_of_mem fun {a b} ha hb h => ?_
      rw [hval a (hmem' a ha), hval b (hmem' b hb)] at h
      exact h
    · exact
        haveI : Std.Total (fun a b : Nat => sqDist x (X.getD a []) ≤ sqDist x (X.getD b [])) := ⟨fun a b => le_total _ _⟩
        haveI : IsTrans Nat (fun a b : Nat => sqDist x (X.getD a []) ≤ sqDist x (X.getD b [])) := ⟨fun a b c h1 h2 => le_trans h1 h2⟩
        List.pairwise_insertionSort _ _
  unfold SamePositions nearestTo
  rw [← hS, ← hS', ← hmap, ← List.map_take, List.forall₂_map_right_iff]
  refine List.forall₂_same.2 fun p hp => ?_
  exact hget p (hmem' p (List.mem_of_mem_take hp))

theorem bruteKnn_same {σ : List Nat} {X X' : List Row} (hX : Reordered σ X X') (hx : ∀ x ∈ X, NoTies X x) (k : Nat) :
    SameNeighbors σ (bruteKnn k X) (bruteKnn k X') := by
  intro p i hp
  have hi := hX.lt hp
  have e := hX.get? hp
  rw [List.getElem?_eq_getElem hi] at e
  refine ⟨nearestTo X k X[i], nearestTo X' k X[i], ?_, ?_, nearestTo_same hX (hx _ (List.getElem_mem hi)) k⟩
  · rw [bruteKnn, List.getElem?_map, List.getElem?_eq_getElem hi]; rfl
  · rw [bruteKnn, List.getElem?_map, e]; rfl

end Verif

import Verif.Model.Dict
import Mathlib.Algebra.BigOperators.Ring.List

/-!
# C12 Parameter grids enumerate every combination exactly once
-/

namespace Verif

theorem mem_product {V : Type} {vals : List (List V)} {p : List V} :
    p ∈ product vals ↔ List.Forall₂ (fun v vs => v ∈ vs) p vals := by
  induction vals generalizing p with
  | nil => simp [product]
  | cons vs vals ih =>
    simp only [product, List.mem_flatMap, List.mem_map]
    constructor
    · rintro ⟨v, hv, q, hq, rfl⟩
      exact List.Forall₂.cons hv (ih.1 hq)
    · intro h
      cases h with
      | cons h1 h2 => exact ⟨_, h1, _, ih.2 h2, rfl⟩

theorem length_product {V : Type} (vals : List (List V)) :
    (product vals).length = (vals.map List.length).prod := by
  induction vals with
  | nil => rfl
  | cons vs vals ih => simp [product, List.length_flatMap, ih]

theorem nodup_product {V : Type} {vals : List (List V)} (h : ∀ vs ∈ vals, vs.Nodup) :
    (product vals).Nodup := by
  induction vals with
  | nil => simp [product]
  | cons vs vals ih =>
    rw [product, List.nodup_flatMap]
    refine ⟨fun v _ => (ih (fun w hw => h w (by simp [hw]))).map (fun a b hab => by simpa using hab), ?_⟩
    refine List.Pairwise.imp ?_ (h vs (by simp))
    intro a b hab
    rw [Function.onFun, List.disjoint_left]
    intro x hx hy
    rw [List.mem_map] at hx hy
    obtain ⟨p, _, rfl⟩ := hx
    obtain ⟨q, _, hq⟩ := hy
    exact hab (by injection hq with h1 _; exact h1.symm)

theorem get_of_mem {κ V : Type} [DecidableEq κ] {d : Dict κ V} (hnd : d.keys.Nodup) {k : κ} {v : V}
    (h : (k, v) ∈ d) : Dict.get d k = some v := by
  induction d with
  | nil => simp at h
  | cons kv d ih =>
    obtain ⟨k', v'⟩ := kv
    simp only [Dict.keys, List.map_cons, List.nodup_cons] at hnd
    rw [Dict.get]
    rcases List.mem_cons.1 h with h | h
    · injection h with h1 h2
      subst h1 h2
      simp
    · have hne : k' ≠ k := by
        rintro rfl
        exact hnd.1 (List.mem_map.2 ⟨_, h, rfl⟩)
      rw [if_neg hne]
      exact ih hnd.2 h

theorem mem_of_get {κ V : Type} [DecidableEq κ] {d : Dict κ V} {k : κ} {v : V}
    (h : Dict.get d k = some v) : (k, v) ∈ d := by
  induction d with
  | nil => simp [Dict.get] at h
  | cons kv d ih =>
    obtain ⟨k', v'⟩ := kv
    rw [Dict.get] at h
    split at h
    · rename_i he; subst he; injection h with h; subst h; simp
    · exact List.mem_cons_of_mem _ (ih h)

/-- The combinations are exactly the dictionaries whose keys are the given keys (sorted, each once) and
whose value for each key is one of the listed values. -/
theorem C12_exact {κ V : Type} [LinearOrder κ] {d : Dict κ (List V)} (hnd : d.keys.Nodup)
    (c : Dict κ V) :
    c ∈ generateCombinations d ↔
      (c.keys.Pairwise (· < ·) ∧ (∀ k, k ∈ c.keys ↔ k ∈ d.keys) ∧
        ∀ k v, (k, v) ∈ c → ∃ vs, (k, vs) ∈ d ∧ v ∈ vs) := by
  have hperm : (d.keys.insertionSort (· ≤ ·)).Perm d.keys := List.perm_insertionSort _ _
  have hsorted : (d.keys.insertionSort (· ≤ ·)).Pairwise (· < ·) := by
    have h1 : (d.keys.insertionSort (· ≤ ·)).Pairwise (· ≤ ·) := List.pairwise_insertionSort _ _
    have h2 : (d.keys.insertionSort (· ≤ ·)).Nodup := hperm.nodup_iff.2 hnd
    exact (h1.and h2).imp (fun h => lt_of_le_of_ne h.1 h.2)
  unfold generateCombinations
  simp only [List.mem_map, mem_product]
  constructor
  · rintro ⟨p, hp, rfl⟩
    rw [List.forall₂_map_right_iff] at hp
    have hlen := hp.length_eq
    have hk : Dict.keys (List.zip (d.keys.insertionSort (· ≤ ·)) p)
        = d.keys.insertionSort (· ≤ ·) := by
      show List.map Prod.fst (List.zip (d.keys.insertionSort (· ≤ ·)) p) = _
      rw [List.map_fst_zip]
      omega
    refine ⟨by rw [hk]; exact hsorted, fun k => by rw [hk]; exact hperm.mem_iff, ?_⟩
    intro k v hkv
    have : ∀ (l : List κ) (p : List V), List.Forall₂ (fun v k => v ∈ (Dict.get d k).getD []) p l →
        (k, v) ∈ List.zip l p → k ∈ l ∧ v ∈ (Dict.get d k).getD [] := by
      intro l p h
      induction h with
      | nil => simp
      | cons h1 _ ih =>
        intro hm
        simp only [List.zip_cons_cons, List.mem_cons, Prod.mk.injEq] at hm
        rcases hm with ⟨rfl, rfl⟩ | hm
        · exact ⟨by simp, h1⟩
        · exact ⟨List.mem_cons_of_mem _ (ih hm).1, (ih hm).2⟩
    obtain ⟨_, h2⟩ := this _ _ hp hkv
    cases hg : Dict.get d k with
    | none => rw [hg] at h2; simp at h2
    | some vs => rw [hg] at h2; exact ⟨vs, mem_of_get hg, h2⟩
  · rintro ⟨h1, h2, h3⟩
    have hck : c.keys = d.keys.insertionSort (· ≤ ·) := by
      have hp : c.keys.Perm (d.keys.insertionSort (· ≤ ·)) := by
        rw [List.perm_ext_iff_of_nodup (h1.imp (fun h => ne_of_lt h)) (hsorted.imp (fun h => ne_of_lt h))]
        intro k; rw [h2 k, hperm.mem_iff]
      exact hp.eq_of_pairwise (le := (· < ·)) (fun a b _ _ hab hba => absurd hab (not_lt.2 hba.le)) h1 hsorted
    refine ⟨c.map Prod.snd, ?_, ?_⟩
    · rw [← hck]
      unfold Dict.keys
      rw [List.map_map, List.forall₂_map_left_iff, List.forall₂_map_right_iff]
      refine List.forall₂_same.2 (fun kv hkv => ?_)
      obtain ⟨vs, hvs, hv⟩ := h3 kv.1 kv.2 hkv
      simp only [Function.comp, get_of_mem hnd hvs, Option.getD_some]
      exact hv
    · rw [← hck]
      exact (List.zip_of_prod (l := c.keys) (l' := c.map Prod.snd) rfl rfl).symm

/-- The number of combinations is the product of the numbers of values. -/
theorem C12_count {κ V : Type} [LinearOrder κ] {d : Dict κ (List V)} (hnd : d.keys.Nodup) :
    (generateCombinations d).length = (d.map (fun kv => kv.2.length)).prod := by
  unfold generateCombinations
  simp only [List.length_map, length_product, List.map_map]
  have hperm : (d.keys.insertionSort (· ≤ ·)).Perm d.keys := List.perm_insertionSort _ _
  rw [(hperm.map _).prod_eq]
  unfold Dict.keys
  rw [List.map_map]
  congr 1
  apply List.map_congr_left
  intro kv hkv
  simp only [Function.comp]
  rw [get_of_mem hnd (v := kv.2) hkv]
  rfl

/-- No combination occurs twice when no value list has repetitions. -/
theorem C12_nodup {κ V : Type} [LinearOrder κ] {d : Dict κ (List V)} (hv : ∀ kv ∈ d, kv.2.Nodup) :
    (generateCombinations d).Nodup := by
  unfold generateCombinations
  simp only
  refine List.Nodup.map_on ?_ (nodup_product ?_)
  · intro p hp q hq h
    rw [mem_product] at hp hq
    have h1 := hp.length_eq
    have h2 := hq.length_eq
    rw [List.length_map] at h1 h2
    have := congrArg (List.map Prod.snd) h
    rwa [List.map_snd_zip (by omega), List.map_snd_zip (by omega)] at this
  · intro vs hvs
    rw [List.mem_map] at hvs
    obtain ⟨k, _, rfl⟩ := hvs
    cases hg : Dict.get d k with
    | none => simp
    | some vs => exact hv (k, vs) (mem_of_get hg)

/-- A key with an empty list of values: no combination at all. -/
theorem C12_empty_list {κ V : Type} [LinearOrder κ] {d : Dict κ (List V)} (hnd : d.keys.Nodup) {k : κ}
    (h : (k, []) ∈ d) : generateCombinations d = [] := by
  rw [← List.length_eq_zero_iff, C12_count hnd]
  exact List.prod_eq_zero (List.mem_map.2 ⟨_, h, rfl⟩)

/-- `raw` returns the dictionary of ranges unchanged, otherwise the list of combinations. -/
theorem C12_raw {κ V : Type} [LinearOrder κ] (d : Dict κ (List V)) :
    generateParameterCombinations d true = .inl d ∧
    generateParameterCombinations d false = .inr (generateCombinations d) := ⟨rfl, rfl⟩

/-- Non-vacuity. -/
example : (Dict.keys [(2, ['a', 'b']), (1, ['c', 'd', 'e'])]).Nodup ∧
    generateCombinations [((2 : Nat), ['a', 'b']), (1, ['c', 'd', 'e'])] =
      [[(1, 'c'), (2, 'a')], [(1, 'c'), (2, 'b')], [(1, 'd'), (2, 'a')], [(1, 'd'), (2, 'b')],
       [(1, 'e'), (2, 'a')], [(1, 'e'), (2, 'b')]] := by decide +kernel

end Verif

import Verif.Model.Dict
import Verif.Lemmas.Basic

/-! # Lemmas on dictionaries -/

namespace Verif

theorem Dict.get_set {κ V : Type} [DecidableEq κ] (d : Dict κ V) (k q : κ) (v : V) :
    Dict.get (d.set k v) q = if k = q then some v else Dict.get d q := by
  induction d with
  | nil => simp [Dict.set, Dict.get]
  | cons kv d ih =>
    obtain ⟨k', v'⟩ := kv
    rw [Dict.set]
    by_cases h : k' = k
    · subst h
      rw [if_pos rfl, Dict.get]
      by_cases hq : k' = q
      · simp [hq]
      · simp [hq, Dict.get]
    · rw [if_neg h, Dict.get, Dict.get, ih]
      by_cases hq : k' = q
      · subst hq
        simp [Ne.symm h]
      · simp [hq]

theorem Dict.keys_set {κ V : Type} [DecidableEq κ] (d : Dict κ V) (k : κ) (v : V) :
    (d.set k v).keys = if k ∈ d.keys then d.keys else d.keys ++ [k] := by
  induction d with
  | nil => simp [Dict.set, Dict.keys]
  | cons kv d ih =>
    obtain ⟨k', v'⟩ := kv
    rw [Dict.set]
    by_cases h : k' = k
    · subst h; simp [Dict.keys]
    · have ih' : List.map Prod.fst (Dict.set d k v)
          = if k ∈ List.map Prod.fst d then List.map Prod.fst d else List.map Prod.fst d ++ [k] := ih
      simp only [h, if_false, Dict.keys, List.map_cons, ih', List.mem_cons, Ne.symm h, false_or]
      split <;> simp

end Verif

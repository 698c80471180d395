import Verif.Lemmas.Dict
import Verif.Props.C12

/-!
# C11 Parameter dictionary merging and comparison behave like map override and map equality
-/

namespace Verif

/-- `coalesce` returns its first non-`None` argument. -/
theorem C11_coalesce {α : Type} (b : Option α) :
    coalesce none b = b ∧ ∀ x : α, coalesce (some x) b = some x := ⟨rfl, fun _ => rfl⟩

/-- `coalesce_dict(a, b)`: looking up a key gives the value of `a` if `a` has the key, otherwise the
value of `b`; nothing else. -/
theorem C11_coalesce_dict_lookup {κ V : Type} [DecidableEq κ] (a b : Dict κ V) (ha : a.keys.Nodup)
    (k : κ) :
    Dict.get (coalesceDict (some a) b) k = (Dict.get a k).or (Dict.get b k) := by
  have : ∀ (a : Dict κ V), a.keys.Nodup → ∀ b : Dict κ V,
      Dict.get (a.foldl (fun r kv => r.set kv.1 kv.2) b) k = (Dict.get a k).or (Dict.get b k) := by
    intro a
    induction a with
    | nil => intro _ b; rfl
    | cons kv a ih =>
      intro hnd b
      obtain ⟨k', v'⟩ := kv
      simp only [Dict.keys, List.map_cons, List.nodup_cons] at hnd
      rw [List.foldl_cons, ih hnd.2, Dict.get_set, Dict.get]
      by_cases h : k' = k
      · subst h
        have : Dict.get a k' = none := by
          cases hg : Dict.get a k' with
          | none => rfl
          | some v => exact absurd (List.mem_map.2 ⟨_, mem_of_get hg, rfl⟩) hnd.1
        simp [this]
      · simp [h]
  exact this a ha b

/-- The key set is the union, and keys stay distinct. -/
theorem C11_coalesce_dict_keys {κ V : Type} [DecidableEq κ] (a b : Dict κ V) (hb : b.keys.Nodup) :
    (∀ k, k ∈ (coalesceDict (some a) b).keys ↔ k ∈ a.keys ∨ k ∈ b.keys) ∧
    (coalesceDict (some a) b).keys.Nodup := by
  have : ∀ (a b : Dict κ V), b.keys.Nodup →
      (∀ k, k ∈ (a.foldl (fun r kv => r.set kv.1 kv.2) b).keys ↔ k ∈ a.keys ∨ k ∈ b.keys) ∧
      (a.foldl (fun r kv => r.set kv.1 kv.2) b).keys.Nodup := by
    intro a
    induction a with
    | nil => intro b hb; exact ⟨by simp [Dict.keys], hb⟩
    | cons kv a ih =>
      intro b hb
      have hset : (b.set kv.1 kv.2).keys.Nodup := by
        rw [Dict.keys_set]
        split
        · exact hb
        · rename_i h
          rw [List.nodup_append]
          refine ⟨hb, by simp, ?_⟩
          intro x hx y hy hxy
          simp at hy
          subst hy hxy
          exact h hx
      obtain ⟨h1, h2⟩ := ih (b.set kv.1 kv.2) hset
      refine ⟨fun k => ?_, h2⟩
      rw [List.foldl_cons, h1 k, Dict.keys_set]
      have hc : Dict.keys (kv :: a) = kv.1 :: Dict.keys a := rfl
      rw [hc, List.mem_cons]
      split
      · rename_i h
        constructor
        · rintro (h' | h')
          · exact Or.inl (Or.inr h')
          · exact Or.inr h'
        · rintro ((rfl | h') | h')
          · exact Or.inr h
          · exact Or.inl h'
          · exact Or.inr h'
      · rw [List.mem_append, List.mem_singleton]
        tauto
  exact this a b hb

/-- `coalesce_dict(None, b)` is `b`. -/
theorem C11_coalesce_dict_none {κ V : Type} [DecidableEq κ] (b : Dict κ V) :
    coalesceDict none b = b := rfl

/-! ### `equal_dicts` -/

/-- Mathematical equality of literals: equal atoms; dictionaries with the same keys and equal values. -/
inductive SameVal : PyVal → PyVal → Prop
  | num (n : Int) : SameVal (.num n) (.num n)
  | str (s : String) : SameVal (.str s) (.str s)
  | dict {d e : PyDict} (hk : ∀ k, (d.lookup k).isSome = (e.lookup k).isSome)
      (hv : ∀ k v w, d.lookup k = some v → e.lookup k = some w → SameVal v w) :
      SameVal (.dict d) (.dict e)

/-- The two literals have the same shape: dictionaries face dictionaries with the same keys, at every
depth; atoms face atoms. -/
inductive SameShape : PyVal → PyVal → Prop
  | nums (m n : Int) : SameShape (.num m) (.num n)
  | strs (s t : String) : SameShape (.str s) (.str t)
  | numStr (n : Int) (t : String) : SameShape (.num n) (.str t)
  | strNum (s : String) (n : Int) : SameShape (.str s) (.num n)
  | dict {d e : PyDict} (hk : ∀ k, (d.lookup k).isSome = (e.lookup k).isSome)
      (hv : ∀ k v w, d.lookup k = some v → e.lookup k = some w → SameShape v w) :
      SameShape (.dict d) (.dict e)

/-- The keys of a dictionary. -/
def PyDict.keys : PyDict → List String
  | .nil => []
  | .cons k _ r => k :: r.keys

mutual
/-- Keys are distinct at every depth (true of every Python dictionary). -/
def PyVal.WF : PyVal → Prop
  | .num _ => True
  | .str _ => True
  | .dict d => d.WF
/-- Keys are distinct at every depth. -/
def PyDict.WF : PyDict → Prop
  | .nil => True
  | .cons k v r => k ∉ r.keys ∧ v.WF ∧ r.WF
end

theorem PyDict.lookup_isSome (d : PyDict) (k : String) : (d.lookup k).isSome ↔ k ∈ d.keys := by
  match d with
  | .nil => simp [PyDict.lookup, PyDict.keys]
  | .cons k' v r =>
    have ih := PyDict.lookup_isSome r k
    by_cases h : k' = k
    · simp [PyDict.lookup, PyDict.keys, h]
    · simp [PyDict.lookup, PyDict.keys, h, ih, Ne.symm h]

theorem PyDict.size_keys (d : PyDict) : d.size = d.keys.length := by
  match d with
  | .nil => rfl
  | .cons k v r => simp [PyDict.size, PyDict.keys, PyDict.size_keys r]

theorem PyDict.WF.nodup {d : PyDict} (h : d.WF) : d.keys.Nodup := by
  match d, h with
  | .nil, _ => simp [PyDict.keys]
  | .cons k v r, h =>
    simp only [PyDict.WF] at h
    simp only [PyDict.keys, List.nodup_cons]
    exact ⟨h.1, PyDict.WF.nodup h.2.2⟩

theorem size_eq_of_same_keys {d e : PyDict} (hd : d.WF) (he : e.WF)
    (hk : ∀ k, (d.lookup k).isSome = (e.lookup k).isSome) : d.size = e.size := by
  rw [PyDict.size_keys, PyDict.size_keys]
  apply List.Perm.length_eq
  rw [List.perm_ext_iff_of_nodup hd.nodup he.nodup]
  intro k
  rw [← PyDict.lookup_isSome, ← PyDict.lookup_isSome, hk k]

theorem PyDict.WF.lookup {d : PyDict} (h : d.WF) {k : String} {v : PyVal} (hl : d.lookup k = some v) :
    v.WF := by
  match d, h with
  | .nil, _ => simp [PyDict.lookup] at hl
  | .cons k' v' r, h =>
    simp only [PyDict.WF] at h
    rw [PyDict.lookup] at hl
    split at hl
    · injection hl with hl; subst hl; exact h.2.1
    · exact PyDict.WF.lookup h.2.2 hl

mutual
theorem equalVal_shape : ∀ (v w : PyVal), v.WF → w.WF → SameShape v w →
    ∃ b, equalVal v w = .ok b ∧ (b = true ↔ SameVal v w)
  | .num m, w, _, _, h => by
    refine ⟨_, rfl, ?_⟩
    cases h with
    | nums _ n =>
      simp only [PyVal.atomEq, beq_iff_eq]
      constructor
      · rintro rfl; exact .num m
      · intro h; cases h; rfl
    | numStr _ t =>
      simp only [PyVal.atomEq, Bool.false_eq_true, false_iff]
      intro h; cases h
  | .str s, w, _, _, h => by
    refine ⟨_, rfl, ?_⟩
    cases h with
    | strs _ t =>
      simp only [PyVal.atomEq, beq_iff_eq]
      constructor
      · rintro rfl; exact .str s
      · intro h; cases h; rfl
    | strNum _ n =>
      simp only [PyVal.atomEq, Bool.false_eq_true, false_iff]
      intro h; cases h
  | .dict d, w, hv, hw, h => by
    cases h with
    | @dict _ e hk hs =>
      have hd : d.WF := hv
      have he : e.WF := hw
      have hsz := size_eq_of_same_keys hd he hk
      obtain ⟨b, hb, hiff⟩ := equalItems_shape d e hd he (fun k v hl => by
        have h1 := hk k
        rw [hl] at h1
        cases hw : e.lookup k with
        | none => rw [hw] at h1; simp at h1
        | some w => exact ⟨w, rfl, hs k v w hl hw⟩)
      refine ⟨b, ?_, ?_⟩
      · rw [equalVal]
        simp only [PyVal.len, ok_bind]
        rw [if_neg (by simpa using hsz)]
        exact hb
      · rw [hiff]
        constructor
        · intro hall
          refine .dict hk (fun k v w hv' hw' => ?_)
          obtain ⟨w', h1, h2⟩ := hall k v hv'
          rw [hw'] at h1
          injection h1 with h1
          subst h1
          exact h2
        · intro hsame k v hl
          cases hsame with
          | dict hk' hv' =>
            have h1 := hk k
            rw [hl] at h1
            cases hw : e.lookup k with
            | none => rw [hw] at h1; simp at h1
            | some w => exact ⟨w, rfl, hv' k v w hl hw⟩
theorem equalItems_shape : ∀ (d e : PyDict), d.WF → e.WF →
    (∀ k v, d.lookup k = some v → ∃ w, e.lookup k = some w ∧ SameShape v w) →
    ∃ b, equalItems d (.dict e) = .ok b ∧
      (b = true ↔ ∀ k v, d.lookup k = some v → ∃ w, e.lookup k = some w ∧ SameVal v w)
  | .nil, e, _, _, _ => ⟨true, rfl, by simp [PyDict.lookup]⟩
  | .cons k v r, e, hd, he, h => by
    simp only [PyDict.WF] at hd
    obtain ⟨w, hw, hsh⟩ := h k v (by simp [PyDict.lookup])
    obtain ⟨b, hb, hbiff⟩ := equalVal_shape v w hd.2.1 (he.lookup hw) hsh
    have hne : ∀ q v', r.lookup q = some v' → k ≠ q := by
      rintro q v' hq rfl
      exact hd.1 ((PyDict.lookup_isSome r k).1 (by rw [hq]; rfl))
    have hget : (PyVal.dict e).getItem k = .ok w := by
      simp [PyVal.getItem, PyDict.getItem, hw]
    obtain ⟨b', hb', hb'iff⟩ := equalItems_shape r e hd.2.2 he (fun q v' hq =>
      h q v' (by rw [PyDict.lookup, if_neg (hne q v' hq)]; exact hq))
    rw [equalItems, hget, ok_bind, hb, ok_bind]
    cases b with
    | true =>
      refine ⟨b', by simpa using hb', ?_⟩
      rw [hb'iff]
      constructor
      · intro hall q v' hq
        rw [PyDict.lookup] at hq
        split at hq
        · rename_i heq; subst heq; injection hq with hq; subst hq
          exact ⟨w, hw, hbiff.1 rfl⟩
        · exact hall q v' hq
      · intro hall q v' hq
        exact hall q v' (by rw [PyDict.lookup, if_neg (hne q v' hq)]; exact hq)
    | false =>
      refine ⟨false, by simp [pure, Except.pure], ?_⟩
      simp only [Bool.false_eq_true, false_iff]
      intro hall
      obtain ⟨w', hw', hs⟩ := hall k v (by simp [PyDict.lookup])
      rw [hw] at hw'
      injection hw' with hw'
      subst hw'
      exact absurd (hbiff.2 hs) (by simp)
end

/-- On dictionaries of the same shape (same keys at every depth) `equal_dicts` returns and decides
equality. -/
theorem C11_equal_dicts_decides {d e : PyDict} (hd : d.WF) (he : e.WF)
    (h : SameShape (.dict d) (.dict e)) :
    ∃ b, equalDicts d e = .ok b ∧ (b = true ↔ SameVal (.dict d) (.dict e)) :=
  equalVal_shape _ _ hd he h

theorem SameShape.symm {v w : PyVal} (h : SameShape v w) : SameShape w v := by
  induction h with
  | nums m n => exact .nums n m
  | strs s t => exact .strs t s
  | numStr n t => exact .strNum t n
  | strNum s n => exact .numStr n s
  | dict hk _ ih => exact .dict (fun k => (hk k).symm) (fun k v w h1 h2 => ih k w v h2 h1)

theorem SameVal.symm {v w : PyVal} (h : SameVal v w) : SameVal w v := by
  induction h with
  | num n => exact .num n
  | str s => exact .str s
  | dict hk _ ih => exact .dict (fun k => (hk k).symm) (fun k v w h1 h2 => ih k w v h2 h1)

theorem SameVal.shape {v w : PyVal} (h : SameVal v w) : SameShape v w := by
  induction h with
  | num n => exact .nums n n
  | str s => exact .strs s s
  | dict hk _ ih => exact .dict hk ih

/-- Symmetry on dictionaries of the same shape. -/
theorem C11_equal_dicts_symmetric {d e : PyDict} (hd : d.WF) (he : e.WF)
    (h : SameShape (.dict d) (.dict e)) : equalDicts d e = equalDicts e d := by
  obtain ⟨b, hb, hbi⟩ := C11_equal_dicts_decides hd he h
  obtain ⟨c, hc, hci⟩ := C11_equal_dicts_decides he hd h.symm
  rw [hb, hc]
  have : b = true ↔ c = true := by
    rw [hbi, hci]; exact ⟨SameVal.symm, SameVal.symm⟩
  congr 1
  exact Bool.eq_iff_iff.2 this

/-- Equal dictionaries are always recognised, also in a different key order. -/
theorem C11_equal_dicts_complete {d e : PyDict} (hd : d.WF) (he : e.WF)
    (h : SameVal (.dict d) (.dict e)) : equalDicts d e = .ok true := by
  obtain ⟨b, hb, hbi⟩ := C11_equal_dicts_decides hd he h.shape
  rw [hb, hbi.2 h]

/-- Different sizes: `False`. -/
theorem C11_equal_dicts_size {d e : PyDict} (h : d.size ≠ e.size) : equalDicts d e = .ok false := by
  unfold equalDicts
  rw [equalVal]
  simp only [PyVal.len, ok_bind]
  rw [if_pos h]
  rfl

/-- Same size, but the first key of one is missing in the other: `KeyError` instead of `False`. -/
theorem C11_equal_dicts_keyerror {k : String} {v : PyVal} {r e : PyDict}
    (hs : (PyDict.cons k v r).size = e.size) (hk : e.lookup k = none) :
    equalDicts (.cons k v r) e = .error .keyError := by
  unfold equalDicts
  rw [equalVal]
  simp only [PyVal.len, ok_bind]
  rw [if_neg (by simpa using hs), equalItems]
  simp [PyVal.getItem, PyDict.getItem, hk]

/-- A nested dictionary against a string of the same length: `TypeError` instead of `False`. -/
theorem C11_equal_dicts_typeerror {k k' s : String} {v : PyVal} {r : PyDict} (hs : (PyDict.cons k' v r).size = s.length) :
    equalDicts (.cons k (.dict (.cons k' v r)) .nil) (.cons k (.str s) .nil) = .error .typeError := by
  unfold equalDicts
  rw [equalVal]
  simp only [PyVal.len, ok_bind]
  rw [if_neg (by simp [PyDict.size]), equalItems]
  simp only [PyVal.getItem, PyDict.getItem, PyDict.lookup, if_true, ok_bind]
  rw [equalVal]
  simp only [PyVal.len, ok_bind]
  rw [if_neg (by simpa using hs), equalItems]
  rfl

/-- The property "unequal dictionaries compare as `False`" fails: concrete dictionaries of the same size
raise `KeyError`, an empty nested dictionary compares equal to an empty string, and a nested
dictionary against a number raises `TypeError`. -/
theorem C11_equal_dicts_not_total :
    equalDicts (.cons "a" (.num 1) .nil) (.cons "b" (.num 1) .nil) = .error .keyError ∧
    equalDicts (.cons "a" (.dict .nil) .nil) (.cons "a" (.str "") .nil) = .ok true ∧
    equalDicts (.cons "a" (.dict .nil) .nil) (.cons "a" (.num 0) .nil) = .error .typeError := by
  refine ⟨?_, ?_, ?_⟩ <;> decide +kernel

/-- Non-vacuity: a nested pair of the same shape, in different key order. -/
example : equalDicts (.cons "a" (.num 1) (.cons "b" (.dict (.cons "c" (.str "x") .nil)) .nil))
    (.cons "b" (.dict (.cons "c" (.str "x") .nil)) (.cons "a" (.num 1) .nil)) = .ok true := by
  decide +kernel
example : SameShape (.dict (.cons "a" (.num 1) .nil)) (.dict (.cons "a" (.num 2) .nil)) ∧
    (PyDict.cons "a" (.num 1) .nil).WF := by
  constructor
  · refine .dict (fun k => ?_) (fun k v w h1 h2 => ?_)
    · by_cases h : "a" = k <;> simp [PyDict.lookup, h]
    · by_cases h : "a" = k <;> simp [PyDict.lookup, h] at h1 h2
      subst h1 h2
      exact .nums 1 2
  · simp [PyDict.WF, PyDict.keys, PyVal.WF]
example : coalesceDict (some [(1, 'x'), (3, 'z')]) [(2, 'b'), (1, 'a')] = [(2, 'b'), (1, 'x'), (3, 'z')] := by
  decide

end Verif

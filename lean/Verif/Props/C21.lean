import Verif.Lemmas.FilesExample

/-!
# C21 A torn cache write is always detected
-/

namespace Verif

/-- json: at every point at which `dump_dict` can be cut off, the file either is still what it was before the call, or
is reported damaged, or is complete. -/
theorem C21_torn_json (pk : Pickle) {g : List Char → List Char} (hg : ∀ t, IsNumberText t → IsNumberText (g t))
    (fs : Fs) {r : Rec} {arrays : List (List Nat)} (h : RecOK r arrays) (filename : Path) {fs' : Fs}
    (hfs : fs' ∈ (dumpDict pk g fs r filename (some sJson) arrays).states) :
    fs' = fs ∨ checkIfDamaged pk fs' filename sJson = .ok true ∨
    fs' = (dumpDict pk g fs r filename (some sJson) arrays).final := by
  rw [dump_json_ok pk fs h rfl] at hfs ⊢
  simp only [List.mem_append, List.mem_singleton, List.mem_map, mem_prefixes] at hfs
  rcases hfs with (rfl | hrem) | ⟨t, ⟨q, hq⟩, rfl⟩
  · exact Or.inl rfl
  · right; left
    unfold removed at hrem
    split at hrem
    · simp only [List.mem_singleton] at hrem
      subst hrem
      unfold checkIfDamaged loadDict
      rw [if_pos (show serOf (some sJson) filename = sJson from rfl), Function.update_self]
      rfl
    · simp at hrem
  · by_cases hne : q = []
    · right; right
      subst hne
      rw [List.append_nil] at hq
      simp [hq]
    · right; left
      unfold checkIfDamaged loadDict
      rw [if_pos (show serOf (some sJson) filename = sJson from rfl), Function.update_self]
      dsimp only
      rw [decode_prefix _ (plainRec_ok hg h) t q hq.symm hne]
      rfl

/-- json: when `dump_dict` has finished, the file is not reported damaged, and no other file was touched. -/
theorem C21_complete_json (pk : Pickle) {g : List Char → List Char} (hg : ∀ t, IsNumberText t → IsNumberText (g t))
    (fs : Fs) {r : Rec} {arrays : List (List Nat)} (h : RecOK r arrays) (filename : Path) :
    checkIfDamaged pk (dumpDict pk g fs r filename (some sJson) arrays).final filename sJson = .ok false ∧
    ∀ other, other ≠ filename → (dumpDict pk g fs r filename (some sJson) arrays).final other = fs other := by
  rw [dump_json_ok pk fs h rfl]
  constructor
  · unfold checkIfDamaged
    rw [load_json_full pk hg h (ser := some sJson) rfl (by simp) []]
    rfl
  · intro other ho
    simp [ho]

/-- json: an object that cannot be serialised destroys the old file, but what is left is reported damaged. -/
theorem C21_unserialisable (pk : Pickle) (g : List Char → List Char) (fs : Fs) (r : Rec) (filename : Path) {k : List Nat}
    {e : J} (h : (k, PV.nd e) ∈ r) :
    (dumpDict pk g fs r filename (some sJson) []).res = .error .typeError ∧
    checkIfDamaged pk (dumpDict pk g fs r filename (some sJson) []).final filename sJson = .ok true := by
  have hj : recJ r = .error .typeError := by
    induction r with
    | nil => simp at h
    | cons p r ih =>
      obtain ⟨k', v⟩ := p
      cases v with
      | nd e => rfl
      | j v =>
        have h' : (k, PV.nd e) ∈ r := by
          rcases List.mem_cons.1 h with h | h
          · simp at h
          · exact h
        simp only [recJ, ih h']
        rfl
  unfold dumpDict
  rw [if_pos (show serOf (some sJson) filename = sJson from rfl)]
  simp only [convertArrays, hj]
  refine ⟨trivial, ?_⟩
  unfold checkIfDamaged loadDict
  rw [if_pos (show serOf (some sJson) filename = sJson from rfl), Function.update_self]
  rfl

/-- pickle: a file cut short is not reported damaged, the check itself raises. -/
theorem C21_torn_pickle {pk : Pickle} {r : Rec} (hpk : pk.OK r) (g : List Char → List Char) (fs : Fs) (filename : Path)
    (arrays : List (List Nat)) {fs' : Fs}
    (hfs : fs' ∈ (dumpDict pk g fs r filename (some sPickle) arrays).states) :
    fs' = fs ∨ (∃ e, checkIfDamaged pk fs' filename sPickle = .error e) ∨
    (fs' = (dumpDict pk g fs r filename (some sPickle) arrays).final ∧
      checkIfDamaged pk fs' filename sPickle = .ok false) := by
  have hne : serOf (some sPickle) filename ≠ sJson := by simp [serOf, sPickle, sJson]
  unfold dumpDict at hfs ⊢
  rw [if_neg hne, if_pos (show serOf (some sPickle) filename = sPickle from rfl)] at hfs ⊢
  simp only [List.mem_append, List.mem_singleton, List.mem_map, mem_prefixes] at hfs ⊢
  rcases hfs with rfl | ⟨t, ht, rfl⟩
  · exact Or.inl rfl
  · right
    by_cases he : t = pk.dumps r
    · right
      refine ⟨by rw [he], ?_⟩
      unfold checkIfDamaged loadDict
      rw [if_neg hne, if_pos (show serOf (some sPickle) filename = sPickle from rfl), Function.update_self]
      dsimp only
      rw [he, hpk.full]
      rfl
    · left
      obtain ⟨e, h1, h2, h3⟩ := hpk.torn t ht he
      refine ⟨e, ?_⟩
      unfold checkIfDamaged loadDict
      rw [if_neg hne, if_pos (show serOf (some sPickle) filename = sPickle from rfl), Function.update_self]
      dsimp only
      rw [h1]
      cases e <;> simp_all <;> rfl

/-- Hypotheses met: the example record; its file passes through torn states, e.g. the empty file, which is neither the
old state nor the complete one. -/
example : Function.update (fun _ => none : Fs) ['f'] (some []) ∈
    (dumpDict exPickle exFloat (fun _ => none) exRec ['f'] (some sJson) exArrays).states ∧
    checkIfDamaged exPickle (Function.update (fun _ => none : Fs) ['f'] (some [])) ['f'] sJson = .ok true := by
  constructor
  · rw [dump_json_ok exPickle _ exRec_ok rfl]
    simp only [List.mem_append, List.mem_map, mem_prefixes]
    right
    exact ⟨[], by simp, rfl⟩
  · rfl

example : ∀ t, IsNumberText t → IsNumberText (exFloat t) := exFloat_ok
example : RecOK exRec exArrays := exRec_ok

/-- Hypotheses of `C21_unserialisable` are met. -/
example : (dumpDict exPickle exFloat (fun _ => some ['{', '}']) exRec ['f'] (some sJson) []).res = .error .typeError :=
  (C21_unserialisable exPickle exFloat _ exRec ['f'] (k := cps ['X']) (List.mem_cons_self ..)).1

/-- The contract of `pickle` can be met. -/
example : exPickle.OK exRec := exPickle_ok

end Verif

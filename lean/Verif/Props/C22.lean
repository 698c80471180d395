import Verif.Lemmas.FilesExample

/-!
# C22 Cached dictionaries round-trip
-/

namespace Verif

/-- json: storing a record and loading it with the same array keys gives the record back; the entries of arrays come
back as floats. -/
theorem C22_json_round_trip (pk : Pickle) {g : List Char → List Char} (hg : ∀ t, IsNumberText t → IsNumberText (g t))
    (fs : Fs) {r : Rec} {arrays : List (List Nat)} (h : RecOK r arrays) {filename : Path} {ser : Option (List Char)}
    (hs : serOf ser filename = sJson) :
    (dumpDict pk g fs r filename ser arrays).res = .ok () ∧
    ∃ r', loadDict pk (dumpDict pk g fs r filename ser arrays).final filename ser arrays = .ok (.dict r') ∧
      SameRecord g r r' := by
  rw [dump_json_ok pk fs h hs]
  refine ⟨rfl, ?_⟩
  rw [load_json_full pk hg h hs (by simp) arrays]
  have hfst : (List.map (fun p : List Nat × J => (p.1, PV.j p.2)) (plainRec g r)).map Prod.fst = r.map Prod.fst := by
    unfold plainRec
    rw [List.map_map, List.map_map]
    rfl
  have hr := restoreArrays_ok arrays ((plainRec g r).map (fun p => (p.1, PV.j p.2))) (by rw [hfst]; exact h.keys)
    h.arraysNodup (by
      intro k hk
      obtain ⟨e, he⟩ := h.arraysIn k hk
      refine ⟨mapNum g e, List.mem_map.2 ⟨(k, mapNum g e), ?_, rfl⟩⟩
      exact List.mem_map.2 ⟨(k, PV.nd e), he, rfl⟩)
  refine ⟨((plainRec g r).map (fun p => (p.1, PV.j p.2))).map (restP arrays), ?_, ?_⟩
  · unfold restore
    dsimp only
    rw [hr]
    rfl
  · unfold SameRecord plainRec
    rw [List.map_map, List.map_map, List.forall₂_map_right_iff, List.forall₂_same]
    intro p hp
    obtain ⟨k, v⟩ := p
    simp only [Function.comp_apply, restP]
    cases v with
    | j v =>
      have hk : k ∉ arrays := by
        intro hk
        obtain ⟨e, he⟩ := h.arraysIn k hk
        have := nodup_unique h.keys hp he rfl
        simp at this
      rw [if_neg hk]
      exact ⟨rfl, Or.inl ⟨v, rfl, rfl⟩⟩
    | nd e =>
      rw [if_pos (h.arraysAll _ hp e rfl)]
      exact ⟨rfl, Or.inr ⟨e, rfl, rfl⟩⟩

/-- json: the dictionary of the caller is altered: every array in it has become a plain list. -/
theorem C22_json_mutates_argument (pk : Pickle) {g : List Char → List Char}
    (fs : Fs) {r : Rec} {arrays : List (List Nat)} (h : RecOK r arrays) {filename : Path} {ser : Option (List Char)}
    (hs : serOf ser filename = sJson) :
    ∀ p ∈ (dumpDict pk g fs r filename ser arrays).obj, ∃ v, p.2 = PV.j v := by
  rw [dump_json_ok pk fs h hs]
  intro p hp
  rw [conv_plain g h] at hp
  obtain ⟨q, -, rfl⟩ := List.mem_map.1 hp
  exact ⟨_, rfl⟩

/-- json: hence storing the same dictionary a second time fails with `AttributeError` and touches no file. -/
theorem C22_json_second_dump_fails (pk : Pickle) {g : List Char → List Char}
    (fs : Fs) {r : Rec} {arrays : List (List Nat)} (h : RecOK r arrays) (hne : arrays ≠ []) {filename : Path}
    {ser : Option (List Char)} (hs : serOf ser filename = sJson) :
    (dumpDict pk g (dumpDict pk g fs r filename ser arrays).final
      (dumpDict pk g fs r filename ser arrays).obj filename ser arrays).res = .error .attributeError ∧
    (dumpDict pk g (dumpDict pk g fs r filename ser arrays).final
      (dumpDict pk g fs r filename ser arrays).obj filename ser arrays).final =
      (dumpDict pk g fs r filename ser arrays).final := by
  rw [dump_json_ok pk fs h hs]
  obtain ⟨k, ks, rfl⟩ := List.exists_cons_of_ne_nil hne
  obtain ⟨e, he⟩ := h.arraysIn k (by simp)
  have hget : recGet (r.map (convP g (k :: ks))) k = some (PV.j (mapNum g e)) := by
    apply recGet_of_mem
    · rw [List.map_map]
      have : r.map (Prod.fst ∘ convP g (k :: ks)) = r.map Prod.fst :=
        List.map_congr_left (fun p _ => convP_fst _ _ p)
      rw [this]; exact h.keys
    · exact List.mem_map.2 ⟨(k, PV.nd e), he, by simp [convP, toListPV]⟩
  have hc : convertArrays g (r.map (convP g (k :: ks))) (k :: ks) =
      (r.map (convP g (k :: ks)), .error .attributeError) := by
    conv_lhs => unfold convertArrays
    unfold convertOne
    rw [hget]
    rfl
  unfold dumpDict
  rw [if_pos hs]
  dsimp only
  rw [hc]
  exact ⟨rfl, rfl⟩

/-- pickle: under the module's contract the round trip is exact and the dictionary is left alone. -/
theorem C22_pickle_round_trip {pk : Pickle} {r : Rec} (hpk : pk.OK r) (g : List Char → List Char) (fs : Fs)
    {filename : Path} {ser : Option (List Char)} (hs : serOf ser filename = sPickle) (arrays : List (List Nat)) :
    (dumpDict pk g fs r filename ser arrays).res = .ok () ∧ (dumpDict pk g fs r filename ser arrays).obj = r ∧
    loadDict pk (dumpDict pk g fs r filename ser arrays).final filename ser arrays = .ok (.dict r) := by
  have hne : serOf ser filename ≠ sJson := by rw [hs]; decide
  have e : dumpDict pk g fs r filename ser arrays =
      ⟨r, [fs] ++ (prefixes (pk.dumps r)).map (fun t => Function.update fs filename (some t)),
      Function.update fs filename (some (pk.dumps r)), .ok ()⟩ := by
    unfold dumpDict
    rw [if_neg hne, if_pos hs]
  rw [e]
  refine ⟨rfl, rfl, ?_⟩
  unfold loadDict
  rw [if_neg hne, if_pos hs]
  simp only [Function.update_self]
  exact hpk.full

/-- Any other serialization raises `ValueError`, on storing and on loading, and no file and no dictionary is touched. -/
theorem C22_unknown_serialization (pk : Pickle) (g : List Char → List Char) (fs : Fs) (r : Rec) {filename : Path}
    {ser : Option (List Char)} (h1 : serOf ser filename ≠ sJson) (h2 : serOf ser filename ≠ sPickle)
    (arrays : List (List Nat)) :
    (dumpDict pk g fs r filename ser arrays).res = .error .valueError ∧
    (dumpDict pk g fs r filename ser arrays).obj = r ∧
    (∀ fs' ∈ (dumpDict pk g fs r filename ser arrays).states, fs' = fs) ∧
    (dumpDict pk g fs r filename ser arrays).final = fs ∧
    loadDict pk fs filename ser arrays = .error .valueError := by
  have e : dumpDict pk g fs r filename ser arrays = ⟨r, [fs], fs, .error .valueError⟩ := by
    unfold dumpDict
    rw [if_neg h1, if_neg h2]
  rw [e]
  refine ⟨rfl, rfl, by simp, rfl, ?_⟩
  unfold loadDict
  rw [if_neg h1, if_neg h2]
  rfl

theorem takeWhile_nodot {l : List Char} (h : '.' ∉ l) (m : List Char) :
    (l ++ '.' :: m).takeWhile (· ≠ '.') = l ∧ l.takeWhile (· ≠ '.') = l := by
  induction l with
  | nil => simp
  | cons a t ih =>
    rw [List.mem_cons, not_or] at h
    have ha : a ≠ '.' := fun e => h.1 e.symm
    obtain ⟨h1, h2⟩ := ih h.2
    constructor
    · rw [List.cons_append, List.takeWhile_cons_of_pos (by simpa using ha), h1]
    · rw [List.takeWhile_cons_of_pos (by simpa using ha), h2]

theorem lastPart_ext (stem : List Char) {ext : List Char} (h : '.' ∉ ext) : lastPart (stem ++ '.' :: ext) = ext := by
  unfold lastPart
  have e : (stem ++ '.' :: ext).reverse = ext.reverse ++ '.' :: stem.reverse := by simp
  rw [e, (takeWhile_nodot (by simpa using h) _).1, List.reverse_reverse]

theorem lastPart_nodot {name : List Char} (h : '.' ∉ name) : lastPart name = name := by
  unfold lastPart
  rw [(takeWhile_nodot (l := name.reverse) (by simpa using h) []).2, List.reverse_reverse]

/-- Without an explicit serialization the extension of the file name decides: what follows its last dot is taken, in
storing and in loading, exactly as if it had been passed. -/
theorem C22_extension (pk : Pickle) (g : List Char → List Char) (fs : Fs) (r : Rec) (stem ext : List Char)
    (hext : '.' ∉ ext) (arrays : List (List Nat)) :
    dumpDict pk g fs r (stem ++ '.' :: ext) none arrays = dumpDict pk g fs r (stem ++ '.' :: ext) (some ext) arrays ∧
    loadDict pk fs (stem ++ '.' :: ext) none arrays = loadDict pk fs (stem ++ '.' :: ext) (some ext) arrays := by
  have h : serOf none (stem ++ '.' :: ext) = serOf (some ext) (stem ++ '.' :: ext) := by
    have := lastPart_ext stem hext
    simpa [serOf] using this
  unfold dumpDict loadDict
  rw [h]
  exact ⟨rfl, rfl⟩

/-- A name without a dot is its own extension. -/
theorem C22_no_extension (pk : Pickle) (g : List Char → List Char) (fs : Fs) (r : Rec) (name : List Char)
    (hname : '.' ∉ name) (arrays : List (List Nat)) :
    dumpDict pk g fs r name none arrays = dumpDict pk g fs r name (some name) arrays ∧
    loadDict pk fs name none arrays = loadDict pk fs name (some name) arrays := by
  have h : serOf none name = serOf (some name) name := by
    have := lastPart_nodot hname
    simpa [serOf] using this
  unfold dumpDict loadDict
  rw [h]
  exact ⟨rfl, rfl⟩

/-- The restriction on strings is needed: a high surrogate followed by a low one comes back as a single character. -/
theorem C22_surrogates_merge :
    decodeJ 60 (encJ (.str [0xd83d, 0xde00])) = some (.str [0x1f600]) := by
  have h : decodeJ 60 (encJ (.str [0xd83d, 0xde00])) = some (.str [0x1f600]) := by rfl
  exact h

/-- Hypotheses met: with and without an explicit serialization. -/
example : serOf (some sJson) ['f'] = sJson := rfl
example : serOf none ['a', '.', 'b', '.', 'j', 's', 'o', 'n'] = sJson := by decide
example : serOf none ['j', 's', 'o', 'n'] = sJson := by decide
example : '.' ∉ sJson ∧ '.' ∉ sPickle := by decide
example : serOf none ['a', '.', 'p', 'i', 'c', 'k', 'l', 'e'] = sPickle := by decide
example : serOf none ['a', '.', 't', 'x', 't'] ≠ sJson ∧ serOf none ['a', '.', 't', 'x', 't'] ≠ sPickle := by decide
example : RecOK exRec exArrays ∧ exArrays ≠ [] := ⟨exRec_ok, by decide⟩
/-- The text actually written for the example record. -/
example : encJ (.obj (plainRec exFloat exRec)) =
    "{\"X\": [[1.0, -2.5]], \"y\": [0.0], \"e\": null, \"n\": \"a\\\"\\u00e9\"}".toList := by decide +kernel

end Verif

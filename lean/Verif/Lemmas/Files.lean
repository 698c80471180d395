import Verif.Spec.Files
import Verif.Lemmas.JsonPrefix
import Verif.Lemmas.Basic

namespace Verif

/-- The stored form of a value. -/
def toListPV (g : List Char → List Char) : PV → PV
  | .j v => .j v
  | .nd e => .j (mapNum g e)

/-- The stored form of a member. -/
def convP (g : List Char → List Char) (ks : List (List Nat)) (p : List Nat × PV) : List Nat × PV :=
  if p.1 ∈ ks then (p.1, toListPV g p.2) else p

theorem convP_fst (g : List Char → List Char) (ks : List (List Nat)) (p : List Nat × PV) :
    (convP g ks p).1 = p.1 := by
  unfold convP; split <;> rfl

theorem recGet_of_mem {r : Rec} (hn : (r.map Prod.fst).Nodup) {k : List Nat} {v : PV} (h : (k, v) ∈ r) :
    recGet r k = some v := by
  unfold recGet
  induction r with
  | nil => simp at h
  | cons p r ih =>
    simp only [List.map_cons, List.nodup_cons] at hn
    rcases List.mem_cons.1 h with rfl | h
    · simp
    · have : p.1 ≠ k := by
        rintro rfl
        exact hn.1 (List.mem_map.2 ⟨_, h, rfl⟩)
      rw [List.find?_cons_of_neg (by simpa using this)]
      exact ih hn.2 h

theorem nodup_unique {r : Rec} (hn : (r.map Prod.fst).Nodup) {p q : List Nat × PV} (hp : p ∈ r) (hq : q ∈ r)
    (e : p.1 = q.1) : p = q := by
  have h1 := recGet_of_mem hn (k := p.1) (v := p.2) hp
  have h2 := recGet_of_mem hn (k := q.1) (v := q.2) hq
  rw [e] at h1
  rw [h1] at h2
  injection h2 with h2
  exact Prod.ext e h2

theorem recSet_conv (g : List Char → List Char) {r : Rec} (hn : (r.map Prod.fst).Nodup) {k : List Nat} {e : J}
    (h : (k, PV.nd e) ∈ r) : recSet r k (.j (mapNum g e)) = r.map (convP g [k]) := by
  unfold recSet
  apply List.map_congr_left
  intro p hp
  unfold convP
  by_cases hk : p.1 = k
  · have : p = (k, PV.nd e) := nodup_unique hn hp h hk
    subst this
    simp [toListPV]
  · simp [hk]

theorem convertArrays_ok (g : List Char → List Char) (ks : List (List Nat)) : ∀ r : Rec,
    (r.map Prod.fst).Nodup → ks.Nodup → (∀ k ∈ ks, ∃ e, (k, PV.nd e) ∈ r) →
    convertArrays g r ks = (r.map (convP g ks), .ok ()) := by
  induction ks with
  | nil =>
    intro r _ _ _
    unfold convertArrays
    congr 1
    symm
    calc r.map (convP g []) = r.map id := List.map_congr_left (fun p _ => by simp [convP])
      _ = r := List.map_id _
  | cons k ks ih =>
    intro r hn hk h
    obtain ⟨e, he⟩ := h k (by simp)
    simp only [List.nodup_cons] at hk
    have hc : convertOne g r k = .ok (r.map (convP g [k])) := by
      unfold convertOne
      rw [recGet_of_mem hn he, ← recSet_conv g hn he]
      rfl
    unfold convertArrays
    rw [hc]
    dsimp only
    have hfst : (r.map (convP g [k])).map Prod.fst = r.map Prod.fst := by
      rw [List.map_map]
      exact List.map_congr_left (fun p _ => convP_fst g [k] p)
    rw [ih (r.map (convP g [k])) (by rw [hfst]; exact hn) hk.2 ?_]
    · congr 1
      rw [List.map_map]
      apply List.map_congr_left
      intro p _
      simp only [Function.comp_apply]
      unfold convP
      by_cases h1 : p.1 = k
      · have : k ∉ ks := hk.1
        simp [h1, this]
      · simp [h1]
    · intro k' hk'
      obtain ⟨e', he'⟩ := h k' (by simp [hk'])
      refine ⟨e', List.mem_map.2 ⟨(k', .nd e'), he', ?_⟩⟩
      have : k' ≠ k := by rintro rfl; exact hk.1 hk'
      simp [convP, this]

mutual
theorem mapNum_ok {g : List Char → List Char} (hg : ∀ t, IsNumberText t → IsNumberText (g t)) :
    ∀ v : J, v.OK → (mapNum g v).OK
  | .num t, h => by simp only [J.OK, mapNum] at h ⊢; exact hg t h
  | .arr xs, h => by simp only [J.OK, mapNum] at h ⊢; exact mapNums_ok hg xs h
  | .null, _ => by simp [mapNum, J.OK]
  | .bool _, _ => by simp [mapNum, J.OK]
  | .nan, _ => by simp [mapNum, J.OK]
  | .inf, _ => by simp [mapNum, J.OK]
  | .ninf, _ => by simp [mapNum, J.OK]
  | .str s, h => h
  | .obj kvs, h => h
theorem mapNums_ok {g : List Char → List Char} (hg : ∀ t, IsNumberText t → IsNumberText (g t)) :
    ∀ xs : List J, elemsOK xs → elemsOK (mapNums g xs)
  | [], _ => by simp [mapNums, elemsOK]
  | x :: xs, h => by
    simp only [elemsOK, mapNums] at h ⊢
    exact ⟨mapNum_ok hg x h.1, mapNums_ok hg xs h.2⟩
end

/-- The plain form of a value. -/
def plainOf (g : List Char → List Char) : PV → J
  | .j v => v
  | .nd e => mapNum g e

/-- The members written to the file. -/
def plainRec (g : List Char → List Char) (r : Rec) : List (List Nat × J) := r.map (fun p => (p.1, plainOf g p.2))

theorem conv_plain (g : List Char → List Char) {r : Rec} {arrays : List (List Nat)} (h : RecOK r arrays) :
    r.map (convP g arrays) = (plainRec g r).map (fun p => (p.1, PV.j p.2)) := by
  unfold plainRec
  rw [List.map_map]
  apply List.map_congr_left
  intro p hp
  obtain ⟨k, v⟩ := p
  cases v with
  | j v =>
    simp only [convP, Function.comp_apply, plainOf]
    split <;> rfl
  | nd e =>
    have := h.arraysAll _ hp e rfl
    simp only [convP, Function.comp_apply, plainOf]
    rw [if_pos this]
    rfl

theorem recJ_plain (kvs : List (List Nat × J)) : recJ (kvs.map (fun p => (p.1, PV.j p.2))) = .ok kvs := by
  induction kvs with
  | nil => rfl
  | cons p kvs ih =>
    simp only [List.map_cons, recJ, ih]
    rfl

theorem plainRec_ok {g : List Char → List Char} (hg : ∀ t, IsNumberText t → IsNumberText (g t)) {r : Rec}
    {arrays : List (List Nat)} (h : RecOK r arrays) : (J.obj (plainRec g r)).OK := by
  simp only [J.OK]
  constructor
  · unfold plainRec
    rw [List.map_map]
    exact h.keys
  · have h1 := h.strs
    have h2 := h.plain
    have h3 := h.entries
    clear h
    unfold plainRec
    induction r with
    | nil => simp [membersOK]
    | cons p r ih =>
      simp only [List.map_cons, membersOK]
      refine ⟨h1 p (by simp), ?_, ih (fun q hq => h1 q (by simp [hq])) (fun q hq => h2 q (by simp [hq]))
        (fun q hq => h3 q (by simp [hq]))⟩
      cases hv : p.2 with
      | j v => exact h2 p (by simp) v hv
      | nd e => exact mapNum_ok hg e (h3 p (by simp) e hv)

/-- The restored form of a member. -/
def restP (ks : List (List Nat)) (p : List Nat × PV) : List Nat × PV :=
  if p.1 ∈ ks then (p.1, match p.2 with | .j v => .nd v | .nd v => .nd v) else p

theorem recSet_rest {r : Rec} (hn : (r.map Prod.fst).Nodup) {k : List Nat} {v : J}
    (h : (k, PV.j v) ∈ r) : recSet r k (.nd v) = r.map (restP [k]) := by
  unfold recSet
  apply List.map_congr_left
  intro p hp
  unfold restP
  by_cases hk : p.1 = k
  · have : p = (k, PV.j v) := nodup_unique hn hp h hk
    subst this
    simp
  · simp [hk]

theorem restoreArrays_ok (ks : List (List Nat)) : ∀ r : Rec,
    (r.map Prod.fst).Nodup → ks.Nodup → (∀ k ∈ ks, ∃ v, (k, PV.j v) ∈ r) →
    restoreArrays r ks = .ok (r.map (restP ks)) := by
  induction ks with
  | nil =>
    intro r _ _ _
    unfold restoreArrays
    change Except.ok r = _
    congr 1
    symm
    calc r.map (restP []) = r.map id := List.map_congr_left (fun p _ => by simp [restP])
      _ = r := List.map_id _
  | cons k ks ih =>
    intro r hn hk h
    obtain ⟨v, hv⟩ := h k (by simp)
    simp only [List.nodup_cons] at hk
    unfold restoreArrays
    rw [recGet_of_mem hn hv]
    dsimp only
    rw [recSet_rest hn hv]
    have hfst : (r.map (restP [k])).map Prod.fst = r.map Prod.fst := by
      rw [List.map_map]
      exact List.map_congr_left (fun p _ => by simp only [Function.comp_apply, restP]; split <;> rfl)
    rw [ih (r.map (restP [k])) (by rw [hfst]; exact hn) hk.2 ?_]
    · congr 1
      rw [List.map_map]
      apply List.map_congr_left
      intro p _
      simp only [Function.comp_apply]
      unfold restP
      by_cases h1 : p.1 = k
      · have : k ∉ ks := hk.1
        simp [h1, this]
      · simp [h1]
    · intro k' hk'
      obtain ⟨v', hv'⟩ := h k' (by simp [hk'])
      refine ⟨v', List.mem_map.2 ⟨(k', .j v'), hv', ?_⟩⟩
      have : k' ≠ k := by rintro rfl; exact hk.1 hk'
      simp [restP, this]

/-- A successful json dump, in closed form. -/
theorem dump_json_ok (pk : Pickle) {g : List Char → List Char} (fs : Fs) {r : Rec} {arrays : List (List Nat)}
    (h : RecOK r arrays) {filename : Path} {ser : Option (List Char)} (hs : serOf ser filename = sJson) :
    dumpDict pk g fs r filename ser arrays =
      ⟨r.map (convP g arrays), [fs] ++ removed fs filename ++
        (prefixes (encJ (.obj (plainRec g r)))).map (fun t => Function.update fs filename (some t)),
        Function.update fs filename (some (encJ (.obj (plainRec g r)))), .ok ()⟩ := by
  unfold dumpDict
  rw [if_pos hs]
  dsimp only
  rw [convertArrays_ok g arrays r h.keys h.arraysNodup h.arraysIn]
  dsimp only
  rw [conv_plain g h, recJ_plain]

theorem mem_prefixes {text t : List Char} : t ∈ prefixes text ↔ t <+: text := by
  unfold prefixes
  simp only [List.mem_map, List.mem_range]
  constructor
  · rintro ⟨n, -, rfl⟩; exact List.take_prefix n text
  · intro h
    exact ⟨t.length, by have := h.length_le; omega, (List.prefix_iff_eq_take.1 h).symm⟩

theorem load_json_full (pk : Pickle) {g : List Char → List Char} (hg : ∀ t, IsNumberText t → IsNumberText (g t))
    {fs : Fs} {r : Rec} {arrays : List (List Nat)} (h : RecOK r arrays) {filename : Path} {ser : Option (List Char)}
    (hs : serOf ser filename = sJson) (ht : fs filename = some (encJ (.obj (plainRec g r)))) (ks : List (List Nat)) :
    loadDict pk fs filename ser ks = restore (.obj (plainRec g r)) ks := by
  unfold loadDict
  rw [if_pos hs, ht]
  dsimp only
  rw [decode_encode _ (plainRec_ok hg h) _ (by omega)]

end Verif

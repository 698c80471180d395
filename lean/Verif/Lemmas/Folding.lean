import Verif.Model.Folding
import Verif.Lemmas.Basic
import Verif.Lemmas.Unique

namespace Verif

theorem forEachFold_ok {β : Type} {data : List Row} {target : List Int} {s : Nat} {body : β → Desc → FoldItem → β}
    {sps : List (List Nat × List Nat)} : ∀ {idx : Nat} {cell : Desc} {acc : β} {r : Desc × β},
    forEachFold data target s body idx cell acc sps = .ok r →
    ∃ items, sps.mapM (foldItem data target) = .ok items ∧
      r.1 = (if sps = [] then cell else descOf s (idx + sps.length - 1)) ∧
      r.2 = ((List.range' idx sps.length).zip items).foldl (fun a p => body a (descOf s p.1) p.2) acc := by
  induction sps with
  | nil =>
    intro idx cell acc r h
    unfold forEachFold at h
    injection h with h
    subst h
    exact ⟨[], rfl, rfl, rfl⟩
  | cons sp sps ih =>
    intro idx cell acc r h
    unfold forEachFold at h
    rw [bind_ok] at h
    obtain ⟨item, hi, h⟩ := h
    obtain ⟨items, h1, h2, h3⟩ := ih h
    refine ⟨item :: items, ?_, ?_, ?_⟩
    · rw [List.mapM_cons, hi]
      change (do let items ← sps.mapM (foldItem data target); pure (item :: items)) = _
      rw [h1]; rfl
    · rw [h2]
      cases sps with
      | nil => simp
      | cons _ _ => simp; congr 1; omega
    · rw [h3]; simp [List.range'_succ]

theorem foldl_append_zip {γ : Type} (g : Nat × FoldItem → γ) (l : List (Nat × FoldItem)) (acc : List γ) :
    l.foldl (fun a p => a ++ [g p]) acc = acc ++ l.map g := by
  induction l generalizing acc with
  | nil => simp
  | cons p l ih => simp [ih]

theorem foldSnapshots_ok {data : List Row} {target : List Int} {s : Nat} {cell : Desc}
    {sps : List (List Nat × List Nat)} {l : List (Desc × FoldItem)}
    (h : foldSnapshots data target s cell sps = .ok l) :
    ∃ items, sps.mapM (foldItem data target) = .ok items ∧
      l = ((List.range sps.length).zip items).map (fun p => (descOf s p.1, p.2)) := by
  unfold foldSnapshots at h
  rw [bind_ok] at h
  obtain ⟨r, hr, h⟩ := h
  injection h with h
  obtain ⟨items, h1, -, h3⟩ := forEachFold_ok hr
  refine ⟨items, h1, ?_⟩
  rw [← h, h3, foldl_append_zip (fun p => (descOf s p.1, p.2)), List.range_eq_range', List.nil_append]

theorem foldList_ok {data : List Row} {target : List Int} {s : Nat} {cell : Desc}
    {sps : List (List Nat × List Nat)} {l : List (Desc × FoldItem)}
    (h : foldList data target s cell sps = .ok l) :
    ∃ items, sps.mapM (foldItem data target) = .ok items ∧
      l = items.map (fun item => (if sps = [] then cell else descOf s (sps.length - 1), item)) := by
  unfold foldList at h
  rw [bind_ok] at h
  obtain ⟨r, hr, h⟩ := h
  injection h with h
  obtain ⟨items, h1, h2, h3⟩ := forEachFold_ok hr
  refine ⟨items, h1, ?_⟩
  rw [foldl_append_zip (fun p => p.2)] at h3
  have hlen := mapM_ok_length h1
  have : ((List.range' 0 sps.length).zip items).map (fun p => p.2) = items := by
    apply List.map_snd_zip
    simp [hlen]
  rw [this, List.nil_append] at h3
  rw [← h, h2, h3]
  simp

theorem descOf_fold (s idx : Nat) : (descOf s idx).foldIdx = idx % s := by
  simp only [descOf]
  rw [Nat.mod_def, Nat.mul_comm]

/-! ## File names -/

theorem digitChar_inj {a b : Nat} (ha : a < 10) (hb : b < 10) (h : digitChar a = digitChar b) : a = b := by
  have key : ∀ n < 10, (digitChar n).toNat = 48 + n := by decide
  have := congrArg Char.toNat h
  rw [key a ha, key b hb] at this
  omega

theorem pad4_digits (n : Nat) : ∀ c ∈ pad4 n, ∃ d < 10, c = digitChar d := by
  intro c hc
  unfold pad4 at hc
  simp only [List.mem_map, List.mem_reverse, List.mem_append, List.mem_replicate] at hc
  obtain ⟨d, hd, rfl⟩ := hc
  refine ⟨d, ?_, rfl⟩
  rcases hd with hd | ⟨-, rfl⟩
  · exact Nat.digits_lt_base (by norm_num) hd
  · norm_num

theorem map_digitChar_inj {a b : List Nat} (ha : ∀ x ∈ a, x < 10) (hb : ∀ x ∈ b, x < 10)
    (h : a.map digitChar = b.map digitChar) : a = b := by
  induction a generalizing b with
  | nil => cases b with
    | nil => rfl
    | cons _ _ => simp at h
  | cons x a ih => cases b with
    | nil => simp at h
    | cons y b =>
      simp only [List.map_cons, List.cons.injEq] at h
      rw [digitChar_inj (ha x (by simp)) (hb y (by simp)) h.1,
        ih (fun z hz => ha z (by simp [hz])) (fun z hz => hb z (by simp [hz])) h.2]

theorem pad4_inj {m n : Nat} (h : pad4 m = pad4 n) : m = n := by
  unfold pad4 at h
  have hb : ∀ n : Nat, ∀ x ∈ (Nat.digits 10 n ++ List.replicate (4 - (Nat.digits 10 n).length) 0).reverse, x < 10 := by
    intro n x hx
    simp only [List.mem_reverse, List.mem_append, List.mem_replicate] at hx
    rcases hx with hx | ⟨-, rfl⟩
    · exact Nat.digits_lt_base (by norm_num) hx
    · norm_num
  have h1 := map_digitChar_inj (hb m) (hb n) h
  have h2 := congrArg (fun l => Nat.ofDigits 10 l.reverse) h1
  simp only [List.reverse_reverse, Nat.ofDigits_append_replicate_zero, Nat.ofDigits_digits] at h2
  exact h2

theorem not_digit_of {c : Char} (h : c.toNat < 48 ∨ 57 < c.toNat) : ∀ d < 10, c ≠ digitChar d := by
  intro d hd he
  have key : ∀ n < 10, (digitChar n).toNat = 48 + n := by decide
  rw [he, key d hd] at h
  omega

theorem split_at_mark {a b x y : List Char} {c : Char} (ha : ∀ z ∈ a, z ≠ c) (hb : ∀ z ∈ b, z ≠ c)
    (h : a ++ c :: x = b ++ c :: y) : a = b ∧ x = y := by
  induction a generalizing b with
  | nil => cases b with
    | nil => simpa using h
    | cons z b => simp only [List.nil_append, List.cons_append, List.cons.injEq] at h
                  exact absurd h.1.symm (hb z (by simp))
  | cons w a ih => cases b with
    | nil => simp only [List.nil_append, List.cons_append, List.cons.injEq] at h
             exact absurd h.1 (ha w (by simp))
    | cons z b =>
      simp only [List.cons_append, List.cons.injEq] at h
      obtain ⟨h1, h2⟩ := ih (fun q hq => ha q (by simp [hq])) (fun q hq => hb q (by simp [hq])) h.2
      exact ⟨by rw [h.1, h1], h2⟩

theorem pad4_ne {c : Char} (hc : c.toNat < 48 ∨ 57 < c.toNat) (n : Nat) : ∀ z ∈ pad4 n, z ≠ c := by
  intro z hz he
  obtain ⟨d, hd, rfl⟩ := pad4_digits n z hz
  exact not_digit_of hc d hd he.symm

theorem foldFileName_inj {ser : List Char} {d e : Desc} (h : foldFileName ser d = foldFileName ser e) :
    d.repeatIdx = e.repeatIdx ∧ d.foldIdx = e.foldIdx := by
  unfold foldFileName at h
  have h' := List.append_cancel_left h
  obtain ⟨h1, h2⟩ := split_at_mark (pad4_ne (by decide) _) (pad4_ne (by decide) _) h'
  obtain ⟨h3, -⟩ := split_at_mark (pad4_ne (by decide) _) (pad4_ne (by decide) _) h2
  exact ⟨pad4_inj h1, pad4_inj h3⟩

theorem cacheNames_nodup (ser : List Char) (s n : Nat) : (cacheNames ser s n).Nodup := by
  unfold cacheNames
  apply List.Nodup.map_on _ List.nodup_range
  intro i _ j _ h
  obtain ⟨h1, h2⟩ := foldFileName_inj h
  rw [descOf_fold, descOf_fold] at h2
  simp only [descOf] at h1
  rw [← Nat.div_add_mod i s, ← Nat.div_add_mod j s, h1, h2]

theorem cacheNames_match {ser : List Char} {s n : Nat} {name : Path} (h : name ∈ cacheNames ser s n) :
    matchesFold ser name = true := by
  unfold cacheNames at h
  obtain ⟨i, -, rfl⟩ := List.mem_map.1 h
  unfold matchesFold foldFileName
  simp only [Bool.and_eq_true, List.isPrefixOf_iff_prefix]
  refine ⟨List.prefix_append _ _, ?_⟩
  rw [List.isSuffixOf_iff_suffix]
  rw [List.drop_append_of_le_length (by simp)]
  simp only [List.drop_succ_cons, List.drop_nil, List.nil_append]
  exact ((List.suffix_append _ _).trans (List.suffix_cons _ _)).trans (List.suffix_append _ _)

end Verif

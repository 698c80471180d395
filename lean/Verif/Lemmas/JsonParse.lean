import Verif.Lemmas.Json

namespace Verif

/-! ## Numbers -/

/-- The text cannot continue a number. -/
def NumEnd (r : List Char) : Prop := ∀ c r', r = c :: r' → isDig c = false ∧ c ≠ '.' ∧ c ≠ 'e' ∧ c ≠ 'E'

theorem DecDigit.isDig {c : Char} (h : DecDigit c) : isDig c = true := by
  simp only [DecDigit, List.mem_cons, List.not_mem_nil, or_false] at h
  rcases h with rfl | rfl | rfl | rfl | rfl | rfl | rfl | rfl | rfl | rfl <;> decide

theorem spanDigits_append (ds r : List Char) (h : Digits ds) (hr : ∀ c r', r = c :: r' → isDig c = false) :
    spanDigits (ds ++ r) = (ds, r) := by
  induction ds with
  | nil =>
    cases r with
    | nil => rfl
    | cons c r' => simp [spanDigits, hr c r' rfl]
  | cons d ds ih =>
    have hd : isDig d = true := (h d (by simp)).isDig
    have := ih (fun c hc => h c (by simp [hc]))
    simp [spanDigits, hd, this]

theorem scanExp_ok (ep r : List Char) (hr : NumEnd r)
    (h : ep = [] ∨ ∃ e s d ds, ep = e :: (s ++ d :: ds) ∧ (e = 'e' ∨ e = 'E') ∧
      (s = [] ∨ s = ['+'] ∨ s = ['-']) ∧ DecDigit d ∧ Digits ds) :
    scanExp (ep ++ r) = (ep, r) := by
  rcases h with rfl | ⟨e, s, d, ds, rfl, he, hs, hd, hds⟩
  · cases r with
    | nil => rfl
    | cons c r' =>
      have := hr c r' rfl
      simp [scanExp, this.2.2.1, this.2.2.2]
  · have hdig : Digits (d :: ds) := by
      intro c hc
      rcases List.mem_cons.1 hc with rfl | hc
      · exact hd
      · exact hds c hc
    have hsp := spanDigits_append (d :: ds) r hdig (fun c r' e => (hr c r' e).1)
    have hsg : scanSign (s ++ (d :: ds ++ r)) = (s, d :: ds ++ r) := by
      rcases hs with rfl | rfl | rfl
      · have h1 : d ≠ '+' := by rintro rfl; exact absurd hd (by decide)
        have h2 : d ≠ '-' := by rintro rfl; exact absurd hd (by decide)
        simp [scanSign, h1, h2]
      · rfl
      · rfl
    simp only [List.cons_append, List.append_assoc, scanExp]
    rw [if_pos he]
    simp only [List.cons_append] at hsg hsp
    rw [hsg]
    dsimp only
    rw [hsp]
    simp

theorem scanNumber_ok (t r : List Char) (h : IsNumberText t) (hr : NumEnd r) :
    scanNumber (t ++ r) = some (t, r) := by
  obtain ⟨sg, ip, fp, ep, rfl, hsg, hip, hfp, hep⟩ := h
  have hE := scanExp_ok ep r hr hep
  have hepd : ∀ c r', ep ++ r = c :: r' → isDig c = false ∧ c ≠ '.' := by
    intro c r' e
    rcases hep with rfl | ⟨x, s, d, ds, rfl, he, -⟩
    · exact ⟨(hr c r' e).1, (hr c r' e).2.1⟩
    · simp only [List.cons_append, List.cons.injEq] at e
      rw [← e.1]
      rcases he with rfl | rfl <;> decide
  have hF : scanFrac (fp ++ (ep ++ r)) = (fp, ep ++ r) := by
    rcases hfp with rfl | ⟨d, ds, rfl, hd, hds⟩
    · simp only [List.nil_append]
      generalize hg : ep ++ r = tl at hepd
      cases tl with
      | nil => rfl
      | cons c tl =>
        have := (hepd c tl rfl).2
        simp [scanFrac, this]
    · have hdig : Digits (d :: ds) := by
        intro c hc
        rcases List.mem_cons.1 hc with rfl | hc
        · exact hd
        · exact hds c hc
      have hsp := spanDigits_append (d :: ds) (ep ++ r) hdig (fun c r' e => (hepd c r' e).1)
      simp only [List.cons_append] at hsp ⊢
      simp [scanFrac, hsp]
  have hfd : ∀ c r', fp ++ (ep ++ r) = c :: r' → isDig c = false := by
    intro c r' e
    rcases hfp with rfl | ⟨d, ds, rfl, -⟩
    · exact (hepd c r' e).1
    · simp only [List.cons_append, List.cons.injEq] at e
      rw [← e.1]; decide
  have hN : scanNat (ip ++ (fp ++ (ep ++ r))) = some (ip, fp ++ (ep ++ r)) := by
    rcases hip with rfl | ⟨d, ds, rfl, h0, hd, hds⟩
    · rfl
    · have hsp := spanDigits_append ds (fp ++ (ep ++ r)) hds hfd
      simp [scanNat, h0, hd.isDig, hsp]
  have hI : scanInt (sg ++ (ip ++ (fp ++ (ep ++ r)))) = some (sg ++ ip, fp ++ (ep ++ r)) := by
    rcases hsg with rfl | rfl
    · rw [List.nil_append, List.nil_append, ← hN]
      rcases hip with rfl | ⟨d, ds, rfl, h0, hd, hds⟩
      · rfl
      · have h2 : d ≠ '-' := by rintro rfl; exact absurd hd (by decide)
        simp only [List.cons_append]
        unfold scanInt
        split
        · rename_i heq; exact absurd (List.cons.inj heq).1 h2
        · rfl
    · simp [scanInt, hN]
  simp only [List.append_assoc]
  unfold scanNumber
  rw [hI]
  simp [hF, hE]

/-! ## Round trip -/

theorem skipWs_cons {c : Char} (h : isWs c = false) (cs : List Char) : skipWs (c :: cs) = c :: cs := by
  simp [skipWs, h]

/-- First characters of encoded values. -/
theorem encJ_head (v : J) (h : v.OK) : ∃ c cs, encJ v = c :: cs ∧ isWs c = false ∧ c ≠ ']' := by
  cases v with
  | null => exact ⟨_, _, rfl, by decide, by decide⟩
  | bool b => cases b <;> exact ⟨_, _, rfl, by decide, by decide⟩
  | nan => exact ⟨_, _, rfl, by decide, by decide⟩
  | inf => exact ⟨_, _, rfl, by decide, by decide⟩
  | ninf => exact ⟨_, _, rfl, by decide, by decide⟩
  | str s => exact ⟨_, _, rfl, by decide, by decide⟩
  | arr xs => exact ⟨_, _, rfl, by decide, by decide⟩
  | obj kvs => exact ⟨_, _, rfl, by decide, by decide⟩
  | num t =>
    obtain ⟨sg, ip, fp, ep, rfl, hsg, hip, -, -⟩ := h
    have key : ∀ d, DecDigit d → isWs d = false ∧ d ≠ ']' := by
      intro d hd
      constructor
      · by_contra hw
        simp only [isWs, Bool.not_eq_false, Bool.or_eq_true, beq_iff_eq] at hw
        rcases hw with ((rfl | rfl) | rfl) | rfl <;> exact absurd hd (by decide)
      · rintro rfl; exact absurd hd (by decide)
    rcases hsg with rfl | rfl
    · rcases hip with rfl | ⟨d, ds, rfl, h0, hd, hds⟩
      · exact ⟨_, _, rfl, by decide, by decide⟩
      · exact ⟨_, _, rfl, (key d hd).1, (key d hd).2⟩
    · exact ⟨_, _, rfl, by decide, by decide⟩

/-- The first character of a number decides which branch of the scanner runs. -/
theorem num_head {t : List Char} (h : IsNumberText t) : ∃ c cs, t = c :: cs ∧ c ≠ '"' ∧ c ≠ '{' ∧ c ≠ '[' ∧
    c ≠ 'n' ∧ c ≠ 't' ∧ c ≠ 'f' := by
  obtain ⟨sg, ip, fp, ep, rfl, hsg, hip, -, -⟩ := h
  have key : ∀ d, DecDigit d → d ≠ '"' ∧ d ≠ '{' ∧ d ≠ '[' ∧ d ≠ 'n' ∧ d ≠ 't' ∧ d ≠ 'f' := by
    intro d hd
    refine ⟨?_, ?_, ?_, ?_, ?_, ?_⟩ <;> rintro rfl <;> exact absurd hd (by decide)
  rcases hsg with rfl | rfl
  · rcases hip with rfl | ⟨d, ds, rfl, h0, hd, hds⟩
    · exact ⟨_, _, rfl, by decide⟩
    · exact ⟨_, _, rfl, key d hd⟩
  · exact ⟨_, _, rfl, by decide⟩

theorem dictOf_foldl (d kvs : List (List Nat × J)) (hn : ((d ++ kvs).map Prod.fst).Nodup) :
    kvs.foldl (fun d p =>
      if d.any (fun q => q.1 == p.1) then d.map (fun q => if q.1 == p.1 then p else q) else d ++ [p]) d = d ++ kvs := by
  induction kvs generalizing d with
  | nil => simp
  | cons p kvs ih =>
    have hnot : d.any (fun q => q.1 == p.1) = false := by
      rw [List.any_eq_false]
      intro q hq he
      simp only [List.map_append, List.map_cons, List.nodup_append, List.mem_map] at hn
      exact hn.2.2 q.1 ⟨q, hq, rfl⟩ p.1 (by simp) (by simpa using he)
    rw [List.foldl_cons, if_neg (by simp [hnot]), ih (d ++ [p]) (by simpa using hn)]
    simp

theorem dictOf_nodup (kvs : List (List Nat × J)) (h : (kvs.map Prod.fst).Nodup) : dictOf kvs = kvs := by
  unfold dictOf
  rw [dictOf_foldl [] kvs (by simpa using h)]
  rfl

/-- Not a bare number: such values end by themselves. -/
def J.closed : J → Bool
  | .num _ => false
  | _ => true

theorem numEnd_elemsTail (xs : List J) (r : List Char) : NumEnd (encElemsTail xs ++ r) := by
  intro c r' e
  cases xs with
  | nil => simp only [encElemsTail, List.cons_append, List.cons.injEq] at e; rw [← e.1]; decide
  | cons x xs => simp only [encElemsTail, List.cons_append, List.cons.injEq] at e; rw [← e.1]; decide

theorem numEnd_membersTail (xs : List (List Nat × J)) (r : List Char) : NumEnd (encMembersTail xs ++ r) := by
  intro c r' e
  cases xs with
  | nil => simp only [encMembersTail, List.cons_append, List.cons.injEq] at e; rw [← e.1]; decide
  | cons x xs => simp only [encMembersTail, List.cons_append, List.cons.injEq] at e; rw [← e.1]; decide

theorem skip_elemsTail (xs : List J) (r : List Char) :
    skipWs (encElemsTail xs ++ r) = encElemsTail xs ++ r := by
  cases xs <;> rfl

theorem skip_membersTail (xs : List (List Nat × J)) (r : List Char) :
    skipWs (encMembersTail xs ++ r) = encMembersTail xs ++ r := by
  cases xs <;> rfl

theorem skip_encJ (v : J) (h : v.OK) (r : List Char) : skipWs (encJ v ++ r) = encJ v ++ r := by
  obtain ⟨c, cs, e, hw, -⟩ := encJ_head v h
  rw [e]; exact skipWs_cons hw _

theorem skip_space (cs : List Char) : skipWs (' ' :: cs) = skipWs cs := rfl

mutual
theorem parse_encJ : ∀ (v : J) (f : Nat) (r : List Char), v.OK → 2 * (encJ v).length ≤ f → NumEnd r →
    parseJ f (encJ v ++ r) = some (v, r)
  | .null, f, r, _, hf, _ => by
    obtain ⟨g, rfl⟩ : ∃ g, f = g + 1 := ⟨f - 1, by simp [encJ] at hf; omega⟩
    simp [encJ, parseJ, scanLit]
  | .bool true, f, r, _, hf, _ => by
    obtain ⟨g, rfl⟩ : ∃ g, f = g + 1 := ⟨f - 1, by simp [encJ] at hf; omega⟩
    simp [encJ, parseJ, scanLit]
  | .bool false, f, r, _, hf, _ => by
    obtain ⟨g, rfl⟩ : ∃ g, f = g + 1 := ⟨f - 1, by simp [encJ] at hf; omega⟩
    simp [encJ, parseJ, scanLit]
  | .nan, f, r, _, hf, _ => by
    obtain ⟨g, rfl⟩ : ∃ g, f = g + 1 := ⟨f - 1, by simp [encJ] at hf; omega⟩
    have : isDig 'N' = false := by decide
    simp [encJ, parseJ, scanLit, scanNumber, scanInt, scanNat, this]
  | .inf, f, r, _, hf, _ => by
    obtain ⟨g, rfl⟩ : ∃ g, f = g + 1 := ⟨f - 1, by simp [encJ] at hf; omega⟩
    have : isDig 'I' = false := by decide
    simp [encJ, parseJ, scanLit, scanNumber, scanInt, scanNat, this]
  | .ninf, f, r, _, hf, _ => by
    obtain ⟨g, rfl⟩ : ∃ g, f = g + 1 := ⟨f - 1, by simp [encJ] at hf; omega⟩
    have : isDig 'I' = false := by decide
    simp [encJ, parseJ, scanLit, scanNumber, scanInt, scanNat, this]
  | .num t, f, r, h, hf, hr => by
    simp only [J.OK] at h
    obtain ⟨c, cs, e, h1, h2, h3, h4, h5, h6⟩ := num_head h
    have hs := scanNumber_ok t r h hr
    simp only [encJ] at hf ⊢
    subst e
    obtain ⟨g, rfl⟩ : ∃ g, f = g + 1 := ⟨f - 1, by simp at hf; omega⟩
    simp only [List.cons_append] at hs ⊢
    unfold parseJ
    rw [if_neg h1, if_neg h2, if_neg h3, if_neg h4, if_neg h5, if_neg h6, hs]
  | .str s, f, r, h, hf, _ => by
    simp only [J.OK] at h
    simp only [encJ, encStr, List.length_cons, List.length_append, List.length_nil] at hf ⊢
    obtain ⟨g, rfl⟩ : ∃ g, f = g + 1 := ⟨f - 1, by omega⟩
    have := scanStr_enc s (g + 1) r h (by omega)
    simp [parseJ, this]
  | .arr xs, f, r, h, hf, _ => by
    simp only [J.OK] at h
    simp only [encJ, List.length_cons] at hf ⊢
    obtain ⟨g, rfl⟩ : ∃ g, f = g + 1 := ⟨f - 1, by omega⟩
    have hsk : skipWs (encElems xs ++ r) = encElems xs ++ r := by
      cases xs with
      | nil => rfl
      | cons x xs =>
        simp only [elemsOK] at h
        simp only [encElems, List.append_assoc]
        exact skip_encJ x h.1 _
    have := parse_encElems xs g r h (by omega)
    simp [parseJ, hsk, this]
  | .obj kvs, f, r, h, hf, _ => by
    simp only [J.OK] at h
    simp only [encJ, List.length_cons] at hf ⊢
    obtain ⟨g, rfl⟩ : ∃ g, f = g + 1 := ⟨f - 1, by omega⟩
    have hsk : skipWs (encMembers kvs ++ r) = encMembers kvs ++ r := by
      cases kvs <;> rfl
    have := parse_encMembers kvs g r h.2 (by omega)
    simp [parseJ, hsk, this, dictOf_nodup kvs h.1]
theorem parse_encElems : ∀ (xs : List J) (f : Nat) (r : List Char), elemsOK xs →
    2 * (encElems xs).length ≤ f → parseElems f (encElems xs ++ r) = some (xs, r)
  | [], f, r, _, hf => by
    obtain ⟨g, rfl⟩ : ∃ g, f = g + 1 := ⟨f - 1, by simp [encElems] at hf; omega⟩
    simp [encElems, parseElems]
  | x :: xs, f, r, h, hf => by
    simp only [elemsOK] at h
    simp only [encElems, List.length_append] at hf
    obtain ⟨c, cs, e, hw, hb⟩ := encJ_head x h.1
    have hl : 1 ≤ (encElemsTail xs).length := by cases xs <;> simp [encElemsTail]
    obtain ⟨g, rfl⟩ : ∃ g, f = g + 1 := ⟨f - 1, by omega⟩
    have h1 := parse_encJ x g (encElemsTail xs ++ r) h.1 (by omega) (numEnd_elemsTail xs r)
    have h2 := parse_encElemsTail xs g r h.2 (by rw [e] at hf; simp at hf; omega)
    simp only [encElems, List.append_assoc]
    rw [e] at h1 ⊢
    simp only [List.cons_append] at h1 ⊢
    unfold parseElems
    rw [if_neg hb, h1]
    dsimp only
    rw [skip_elemsTail, h2]
    rfl
theorem parse_encElemsTail : ∀ (xs : List J) (f : Nat) (r : List Char), elemsOK xs →
    2 * (encElemsTail xs).length ≤ f → parseElemsTail f (encElemsTail xs ++ r) = some (xs, r)
  | [], f, r, _, hf => by
    obtain ⟨g, rfl⟩ : ∃ g, f = g + 1 := ⟨f - 1, by simp [encElemsTail] at hf; omega⟩
    simp [encElemsTail, parseElemsTail]
  | x :: xs, f, r, h, hf => by
    simp only [elemsOK] at h
    simp only [encElemsTail, List.length_append, List.length_cons] at hf
    obtain ⟨g, rfl⟩ : ∃ g, f = g + 1 := ⟨f - 1, by omega⟩
    have h1 := parse_encJ x g (encElemsTail xs ++ r) h.1 (by omega) (numEnd_elemsTail xs r)
    have h2 := parse_encElemsTail xs g r h.2 (by omega)
    simp only [encElemsTail, List.append_assoc, List.cons_append]
    unfold parseElemsTail
    rw [if_neg (by decide), if_pos rfl, skip_space, skip_encJ x h.1, h1]
    dsimp only
    rw [skip_elemsTail, h2]
    rfl
theorem parse_encMembers : ∀ (kvs : List (List Nat × J)) (f : Nat) (r : List Char), membersOK kvs →
    2 * (encMembers kvs).length ≤ f → parseMembers f (encMembers kvs ++ r) = some (kvs, r)
  | [], f, r, _, hf => by
    obtain ⟨g, rfl⟩ : ∃ g, f = g + 1 := ⟨f - 1, by simp [encMembers] at hf; omega⟩
    simp [encMembers, parseMembers]
  | (k, v) :: kvs, f, r, h, hf => by
    simp only [membersOK] at h
    simp only [encMembers, encStr, List.length_append, List.length_cons, List.length_nil] at hf
    obtain ⟨g, rfl⟩ : ∃ g, f = g + 2 := ⟨f - 2, by omega⟩
    have h0 := scanStr_enc k (g + 1) (':' :: ' ' :: (encJ v ++ (encMembersTail kvs ++ r))) h.1 (by omega)
    have h1 := parse_encJ v g (encMembersTail kvs ++ r) h.2.1 (by omega) (numEnd_membersTail kvs r)
    have h2 := parse_encMembersTail kvs g r h.2.2 (by omega)
    simp only [encMembers, encStr, List.append_assoc, List.cons_append, List.nil_append]
    unfold parseMembers
    rw [if_neg (by decide), if_pos rfl]
    unfold parseMember
    rw [h0]
    dsimp only
    rw [skipWs_cons (by decide)]
    dsimp only
    rw [if_pos rfl, skip_space, skip_encJ v h.2.1, h1]
    dsimp only
    rw [skip_membersTail, h2]
    rfl
theorem parse_encMembersTail : ∀ (kvs : List (List Nat × J)) (f : Nat) (r : List Char), membersOK kvs →
    2 * (encMembersTail kvs).length ≤ f → parseMembersTail f (encMembersTail kvs ++ r) = some (kvs, r)
  | [], f, r, _, hf => by
    obtain ⟨g, rfl⟩ : ∃ g, f = g + 1 := ⟨f - 1, by simp [encMembersTail] at hf; omega⟩
    simp [encMembersTail, parseMembersTail]
  | (k, v) :: kvs, f, r, h, hf => by
    simp only [membersOK] at h
    simp only [encMembersTail, encStr, List.length_append, List.length_cons, List.length_nil] at hf
    obtain ⟨g, rfl⟩ : ∃ g, f = g + 2 := ⟨f - 2, by omega⟩
    have h0 := scanStr_enc k (g + 1) (':' :: ' ' :: (encJ v ++ (encMembersTail kvs ++ r))) h.1 (by omega)
    have h1 := parse_encJ v g (encMembersTail kvs ++ r) h.2.1 (by omega) (numEnd_membersTail kvs r)
    have h2 := parse_encMembersTail kvs g r h.2.2 (by omega)
    simp only [encMembersTail, encStr, List.append_assoc, List.cons_append, List.nil_append]
    unfold parseMembersTail
    rw [if_neg (by decide), if_pos rfl, skip_space, skipWs_cons (by decide)]
    dsimp only
    rw [if_pos rfl]
    unfold parseMember
    rw [h0]
    dsimp only
    rw [skipWs_cons (by decide)]
    dsimp only
    rw [if_pos rfl, skip_space, skip_encJ v h.2.1, h1]
    dsimp only
    rw [skip_membersTail, h2]
    rfl
end

/-- `json.loads(json.dumps(v)) == v`. -/
theorem decode_encode (v : J) (h : v.OK) (f : Nat) (hf : 2 * (encJ v).length ≤ f) :
    decodeJ f (encJ v) = some v := by
  have := parse_encJ v f [] h hf (fun c r' e => by simp at e)
  have hs := skip_encJ v h []
  rw [List.append_nil] at this hs
  unfold decodeJ
  rw [hs, this]
  rfl

end Verif

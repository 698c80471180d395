import Verif.Lemmas.JsonParse

/-! ## A successful parse is not changed by appending text -/

namespace Verif

theorem scanHex4_append {p : List Char} {u : Nat} {r : List Char} (h : scanHex4 p = some (u, r)) (q : List Char) :
    scanHex4 (p ++ q) = some (u, r ++ q) := by
  unfold scanHex4 at h ⊢
  match p, h with
  | a :: b :: c :: d :: rest, h =>
    simp only [List.cons_append, Option.bind_eq_bind, Option.bind_eq_some_iff, Option.some.injEq, Prod.mk.injEq] at h ⊢
    obtain ⟨a', ha, b', hb, c', hc, d', hd, e, rfl⟩ := h
    exact ⟨a', ha, b', hb, c', hc, d', hd, e, rfl⟩

theorem scanUnicode_append {p : List Char} {u : Nat} {r : List Char} (h : scanUnicode p = some (u, r))
    (hr : r ≠ []) (hr2 : r ≠ ['\\']) (q : List Char) : scanUnicode (p ++ q) = some (u, r ++ q) := by
  unfold scanUnicode at h ⊢
  cases h4 : scanHex4 p with
  | none => rw [h4] at h; simp at h
  | some w =>
    obtain ⟨v, rest⟩ := w
    rw [scanHex4_append h4 q]
    rw [h4] at h
    dsimp only at h ⊢
    by_cases hs : 55296 ≤ v ∧ v ≤ 56319
    · rw [if_pos hs] at h ⊢
      split at h
      · rename_i rest2
        simp only [List.cons_append]
        cases h5 : scanHex4 rest2 with
        | none => rw [h5] at h; simp at h
        | some w2 =>
          obtain ⟨u2, rest3⟩ := w2
          rw [scanHex4_append h5 q]
          rw [h5] at h
          dsimp only at h ⊢
          by_cases hl : 56320 ≤ u2 ∧ u2 ≤ 57343
          · rw [if_pos hl] at h ⊢
            simp only [Option.some.injEq, Prod.mk.injEq] at h ⊢
            exact ⟨h.1, by rw [h.2]⟩
          · rw [if_neg hl] at h ⊢
            simp only [Option.some.injEq, Prod.mk.injEq] at h ⊢
            exact ⟨h.1, by rw [← h.2]; rfl⟩
      · rename_i hne
        simp only [Option.some.injEq, Prod.mk.injEq] at h
        obtain ⟨rfl, rfl⟩ := h
        split
        · rename_i rest2 heq
          exfalso
          match rest, hr, hr2, hne, heq with
          | [c], _, hr2, _, heq =>
            simp only [List.cons_append, List.cons.injEq] at heq
            exact hr2 (by rw [heq.1])
          | c :: d :: rest, _, _, hne, heq =>
            simp only [List.cons_append, List.cons.injEq] at heq
            exact hne rest (by rw [heq.1, heq.2.1])
        · rfl
    · rw [if_neg hs] at h ⊢
      simp only [Option.some.injEq, Prod.mk.injEq] at h ⊢
      exact ⟨h.1, by rw [h.2]⟩

theorem scanStr_append : ∀ (f f' : Nat) (p : List Char) (s : List Nat) (r q : List Char),
    scanStr f p = some (s, r) → f ≤ f' → scanStr f' (p ++ q) = some (s, r ++ q) := by
  intro f
  induction f with
  | zero => intro f' p s r q h; simp [scanStr] at h
  | succ f ih =>
    intro f' p s r q h hf
    obtain ⟨g, rfl⟩ : ∃ g, f' = g + 1 := ⟨f' - 1, by omega⟩
    have hg : f ≤ g := by omega
    cases p with
    | nil => simp [scanStr] at h
    | cons c cs =>
      simp only [List.cons_append]
      unfold scanStr at h ⊢
      by_cases h1 : c = '"'
      · rw [if_pos h1] at h ⊢
        simp only [Option.some.injEq, Prod.mk.injEq] at h ⊢
        exact ⟨h.1, by rw [h.2]⟩
      rw [if_neg h1] at h ⊢
      by_cases h2 : c = '\\'
      · rw [if_pos h2] at h ⊢
        cases cs with
        | nil => simp at h
        | cons e rest =>
          simp only [List.cons_append] at h ⊢
          by_cases h3 : e = 'u'
          · rw [if_pos h3] at h ⊢
            cases hu : scanUnicode rest with
            | none => rw [hu] at h; simp at h
            | some w =>
              obtain ⟨u, rest2⟩ := w
              rw [hu] at h
              dsimp only at h
              simp only [Option.map_eq_some_iff] at h
              obtain ⟨⟨s', r'⟩, hs, e⟩ := h
              have n1 : rest2 ≠ [] := by
                rintro rfl
                cases f <;> simp [scanStr] at hs
              have n2 : rest2 ≠ ['\\'] := by
                rintro rfl
                cases f <;> simp [scanStr] at hs
              rw [scanUnicode_append hu n1 n2]
              dsimp only
              rw [ih g rest2 s' r' q hs hg]
              simp only [Prod.mk.injEq] at e
              simp [← e.1, ← e.2]
          · rw [if_neg h3] at h ⊢
            cases hv : escVal e with
            | none => rw [hv] at h; simp at h
            | some v =>
              rw [hv] at h
              dsimp only at h ⊢
              simp only [Option.map_eq_some_iff] at h
              obtain ⟨⟨s', r'⟩, hs, e⟩ := h
              rw [ih g rest s' r' q hs hg]
              simp only [Prod.mk.injEq] at e
              simp [← e.1, ← e.2]
      rw [if_neg h2] at h ⊢
      by_cases h3 : c.toNat < 32
      · rw [if_pos h3] at h; simp at h
      rw [if_neg h3] at h ⊢
      simp only [Option.map_eq_some_iff] at h
      obtain ⟨⟨s', r'⟩, hs, e⟩ := h
      rw [ih g cs s' r' q hs hg]
      simp only [Prod.mk.injEq] at e
      simp [← e.1, ← e.2]

theorem skipWs_append {s : List Char} (h : skipWs s ≠ []) (q : List Char) : skipWs (s ++ q) = skipWs s ++ q := by
  induction s with
  | nil => simp [skipWs] at h
  | cons c cs ih =>
    simp only [List.cons_append, skipWs] at h ⊢
    split
    · rename_i hw
      rw [if_pos hw] at h
      exact ih h
    · rfl

/-- The rest is not empty and cannot continue a number. -/
def NumStop (r : List Char) : Prop := ∃ c r', r = c :: r' ∧ isDig c = false ∧ c ≠ '.' ∧ c ≠ 'e' ∧ c ≠ 'E'

theorem numStop_of_skipWs {r : List Char} {c : Char} {r' : List Char} (h : skipWs r = c :: r')
    (hc : c = ']' ∨ c = ',' ∨ c = '}') : NumStop r := by
  cases r with
  | nil => simp [skipWs] at h
  | cons d r =>
    refine ⟨d, r, rfl, ?_⟩
    by_cases hw : isWs d = true
    · simp only [isWs, Bool.or_eq_true, beq_iff_eq] at hw
      rcases hw with ((rfl | rfl) | rfl) | rfl <;> decide
    · simp only [skipWs, hw] at h
      have : d = c := by simpa using (List.cons.inj h).1
      subst this
      rcases hc with rfl | rfl | rfl <;> decide

theorem spanDigits_append_stop {p ds r : List Char} (h : spanDigits p = (ds, r)) (hr : r ≠ []) (q : List Char) :
    spanDigits (p ++ q) = (ds, r ++ q) := by
  induction p generalizing ds with
  | nil => simp [spanDigits] at h; exact absurd h.2 hr
  | cons c cs ih =>
    simp only [spanDigits, List.cons_append] at h ⊢
    by_cases hd : isDig c = true
    · rw [if_pos hd] at h ⊢
      have := ih (ds := (spanDigits cs).1) (by rw [← (Prod.mk.inj h).2])
      rw [this, ← (Prod.mk.inj h).1]
    · rw [if_neg hd] at h ⊢
      rw [← (Prod.mk.inj h).1, ← (Prod.mk.inj h).2]
      rfl

theorem spanDigits_rest (p : List Char) : ∀ c r, (spanDigits p).2 = c :: r → isDig c = false := by
  induction p with
  | nil => intro c r h; simp [spanDigits] at h
  | cons d ds ih =>
    intro c r h
    simp only [spanDigits] at h
    by_cases hd : isDig d = true
    · rw [if_pos hd] at h; exact ih c r h
    · rw [if_neg hd] at h
      have : d = c := (List.cons.inj h).1
      rw [← this]; simpa using hd

theorem scanNat_append {p t r : List Char} (h : scanNat p = some (t, r)) (hr : r ≠ []) (q : List Char) :
    scanNat (p ++ q) = some (t, r ++ q) := by
  cases p with
  | nil => simp [scanNat] at h
  | cons c cs =>
    simp only [scanNat, List.cons_append] at h ⊢
    by_cases h0 : c = '0'
    · rw [if_pos h0] at h ⊢
      simp only [Option.some.injEq, Prod.mk.injEq] at h ⊢
      exact ⟨h.1, by rw [h.2]⟩
    rw [if_neg h0] at h ⊢
    by_cases hd : isDig c = true
    · rw [if_pos hd] at h ⊢
      simp only [Option.some.injEq, Prod.mk.injEq] at h
      rw [spanDigits_append_stop (p := cs) (ds := (spanDigits cs).1) (r := r) (by rw [← h.2]) hr]
      simp [h.1]
    · rw [if_neg hd] at h; simp at h

theorem scanNat_none_append {p : List Char} (h : scanNat p = none) (hp : p ≠ []) (q : List Char) :
    scanNat (p ++ q) = none := by
  cases p with
  | nil => exact absurd rfl hp
  | cons c cs =>
    simp only [scanNat, List.cons_append] at h ⊢
    by_cases h0 : c = '0'
    · rw [if_pos h0] at h; simp at h
    rw [if_neg h0] at h ⊢
    by_cases hd : isDig c = true
    · rw [if_pos hd] at h; simp at h
    · rw [if_neg hd]

theorem scanInt_append {p t r : List Char} (h : scanInt p = some (t, r)) (hr : r ≠ []) (q : List Char) :
    scanInt (p ++ q) = some (t, r ++ q) := by
  cases p with
  | nil => simp [scanInt, scanNat] at h
  | cons c cs =>
    by_cases hc : c = '-'
    · subst hc
      simp only [scanInt, List.cons_append, Option.map_eq_some_iff] at h ⊢
      obtain ⟨⟨t', r'⟩, hs, e⟩ := h
      simp only [Prod.mk.injEq] at e
      exact ⟨(t', r' ++ q), scanNat_append hs (by rw [e.2]; exact hr) q, by simp [e.1, e.2]⟩
    · have e1 : ∀ x, scanInt (c :: x) = scanNat (c :: x) := by
        intro x
        unfold scanInt
        split
        · rename_i heq; exact absurd (List.cons.inj heq).1 hc
        · rfl
      rw [e1] at h
      rw [List.cons_append, e1, ← List.cons_append]
      exact scanNat_append h hr q

theorem scanFrac_append {s t r : List Char} (h : scanFrac s = (t, r)) (hr : NumStop r) (hs : s ≠ [])
    (q : List Char) : scanFrac (s ++ q) = (t, r ++ q) := by
  cases s with
  | nil => exact absurd rfl hs
  | cons c cs =>
    by_cases hc : c = '.'
    · subst hc
      simp only [scanFrac, List.cons_append] at h ⊢
      by_cases he : (spanDigits cs).1 = []
      · rw [if_pos he] at h
        exfalso
        obtain ⟨d, r', e, -, h2, -⟩ := hr
        rw [← (Prod.mk.inj h).2] at e
        exact h2 (List.cons.inj e).1.symm
      · rw [if_neg he] at h
        have hne : r ≠ [] := by
          obtain ⟨d, r', e, -⟩ := hr
          rw [e]; simp
        have := spanDigits_append_stop (p := cs) (ds := (spanDigits cs).1) (r := r)
          (by rw [← (Prod.mk.inj h).2]) hne q
        rw [this]
        dsimp only
        rw [if_neg he, ← (Prod.mk.inj h).1]
    · have e1 : ∀ x, scanFrac (c :: x) = ([], c :: x) := by
        intro x
        unfold scanFrac
        split
        · rename_i heq; exact absurd (List.cons.inj heq).1 hc
        · rfl
      rw [e1] at h
      rw [List.cons_append, e1, ← (Prod.mk.inj h).1, ← (Prod.mk.inj h).2]
      rfl

theorem scanSign_append {s : List Char} (hs : s ≠ []) (q : List Char) :
    scanSign (s ++ q) = ((scanSign s).1, (scanSign s).2 ++ q) := by
  cases s with
  | nil => exact absurd rfl hs
  | cons c cs =>
    by_cases h1 : c = '+'
    · subst h1; rfl
    by_cases h2 : c = '-'
    · subst h2; rfl
    have e1 : ∀ x, scanSign (c :: x) = ([], c :: x) := by
      intro x
      unfold scanSign
      split
      · rename_i heq; exact absurd (List.cons.inj heq).1 h1
      · rename_i heq; exact absurd (List.cons.inj heq).1 h2
      · rfl
    rw [List.cons_append, e1, e1]
    rfl

theorem scanExp_append {s t r : List Char} (h : scanExp s = (t, r)) (hr : NumStop r) (q : List Char) :
    scanExp (s ++ q) = (t, r ++ q) := by
  obtain ⟨d, r', e, -, -, h3, h4⟩ := hr
  cases s with
  | nil =>
    simp only [scanExp] at h
    rw [← (Prod.mk.inj h).2] at e
    simp at e
  | cons c cs =>
    simp only [scanExp, List.cons_append] at h ⊢
    by_cases hc : c = 'e' ∨ c = 'E'
    · rw [if_pos hc] at h ⊢
      by_cases he : (spanDigits (scanSign cs).2).1 = []
      · rw [if_pos he] at h
        exfalso
        rw [← (Prod.mk.inj h).2] at e
        have : c = d := (List.cons.inj e).1
        subst this
        rcases hc with hc | hc
        · exact h3 hc
        · exact h4 hc
      · rw [if_neg he] at h
        have hcs : cs ≠ [] := by rintro rfl; exact he rfl
        rw [scanSign_append hcs]
        dsimp only
        have := spanDigits_append_stop (p := (scanSign cs).2) (ds := (spanDigits (scanSign cs).2).1) (r := r)
          (by rw [← (Prod.mk.inj h).2]) (by rw [e]; simp) q
        rw [this]
        dsimp only
        rw [if_neg he, ← (Prod.mk.inj h).1]
    · rw [if_neg hc] at h ⊢
      rw [← (Prod.mk.inj h).1, ← (Prod.mk.inj h).2]
      rfl

theorem scanNumber_append {p t r : List Char} (h : scanNumber p = some (t, r)) (hr : NumStop r) (q : List Char) :
    scanNumber (p ++ q) = some (t, r ++ q) := by
  unfold scanNumber at h ⊢
  simp only [Option.map_eq_some_iff] at h ⊢
  obtain ⟨⟨i, rest⟩, hi, e⟩ := h
  simp only [Prod.mk.injEq] at e
  have hne : r ≠ [] := by obtain ⟨c, r', e, -⟩ := hr; rw [e]; simp
  have hrest : rest ≠ [] := by
    rintro rfl
    simp only [scanFrac, scanExp] at e
    exact hne e.2.symm
  refine ⟨(i, rest ++ q), scanInt_append hi hrest q, ?_⟩
  have hE : scanExp (scanFrac rest).2 = ((scanExp (scanFrac rest).2).1, r) := by rw [← e.2]
  have hE' := scanExp_append hE hr q
  have hFstop : NumStop (scanFrac rest).2 ∨ ∃ c x, (scanFrac rest).2 = c :: x ∧ (c = 'e' ∨ c = 'E') := by
    generalize hg : (scanFrac rest).2 = s2 at e hE
    cases s2 with
    | nil => simp only [scanExp, Prod.mk.injEq] at hE; exact absurd hE.2.symm hne
    | cons c x =>
      by_cases hc : c = 'e' ∨ c = 'E'
      · exact Or.inr ⟨c, x, rfl, hc⟩
      · left
        have e2 : scanExp (c :: x) = ([], c :: x) := by simp only [scanExp]; rw [if_neg hc]
        rw [e2] at hE
        rw [(Prod.mk.inj hE).2]
        exact hr
  have hFstop' : NumStop (scanFrac rest).2 ∨ ((∃ c x, (scanFrac rest).2 = c :: x ∧ (c = 'e' ∨ c = 'E'))) := hFstop
  have hF : scanFrac (rest ++ q) = ((scanFrac rest).1, (scanFrac rest).2 ++ q) := by
    rcases hFstop with hst | ⟨c, x, hx, hc⟩
    · exact scanFrac_append rfl hst hrest q
    · -- the fraction ended at the exponent sign
      cases rest with
      | nil => exact absurd rfl hrest
      | cons d ds =>
        by_cases hd : d = '.'
        · subst hd
          simp only [scanFrac, List.cons_append] at hx ⊢
          by_cases he : (spanDigits ds).1 = []
          · rw [if_pos he] at hx
            exfalso
            have := (List.cons.inj hx).1
            subst this
            rcases hc with hc | hc <;> exact absurd hc (by decide)
          · rw [if_neg he] at hx
            have := spanDigits_append_stop (p := ds) (ds := (spanDigits ds).1) (r := c :: x)
              (by rw [← hx]) (by simp) q
            rw [this]
            dsimp only
            rw [if_neg he, if_neg he]
            dsimp only at hx ⊢
            rw [hx]
        · have e1 : ∀ y, scanFrac (d :: y) = ([], d :: y) := by
            intro y
            unfold scanFrac
            split
            · rename_i heq; exact absurd (List.cons.inj heq).1 hd
            · rfl
          rw [List.cons_append, e1, e1]
          rfl
  rw [hF]
  dsimp only
  rw [hE']
  simp [← e.1]

theorem scanNumber_none_append {p : List Char} (h : scanNumber p = none) (hp : p ≠ []) (hp2 : p ≠ ['-'])
    (q : List Char) : scanNumber (p ++ q) = none := by
  unfold scanNumber at h ⊢
  simp only [Option.map_eq_none_iff] at h ⊢
  cases p with
  | nil => exact absurd rfl hp
  | cons c cs =>
    by_cases hc : c = '-'
    · subst hc
      simp only [scanInt, List.cons_append, Option.map_eq_none_iff] at h ⊢
      exact scanNat_none_append h (by rintro rfl; exact hp2 rfl) q
    · have e1 : ∀ x, scanInt (c :: x) = scanNat (c :: x) := by
        intro x
        unfold scanInt
        split
        · rename_i heq; exact absurd (List.cons.inj heq).1 hc
        · rfl
      rw [e1] at h
      rw [List.cons_append, e1, ← List.cons_append]
      exact scanNat_none_append h (by simp) q

theorem scanLit_append {lit : List Char} {v w : J} {p r : List Char} (h : scanLit lit v p = some (w, r))
    (q : List Char) : scanLit lit v (p ++ q) = some (w, r ++ q) := by
  unfold scanLit at h ⊢
  by_cases hp : lit.isPrefixOf p = true
  · rw [if_pos hp] at h
    have hp' := List.isPrefixOf_iff_prefix.1 hp
    have : lit.isPrefixOf (p ++ q) = true :=
      List.isPrefixOf_iff_prefix.2 (hp'.trans (List.prefix_append p q))
    rw [if_pos this]
    simp only [Option.some.injEq, Prod.mk.injEq] at h ⊢
    refine ⟨h.1, ?_⟩
    rw [List.drop_append_of_le_length hp'.length_le, h.2]
  · rw [if_neg hp] at h; simp at h

theorem scanLit_closed {lit : List Char} {v w : J} {p r : List Char} (h : scanLit lit v p = some (w, r)) :
    w = v := by
  unfold scanLit at h
  split at h
  · simp only [Option.some.injEq, Prod.mk.injEq] at h; exact h.1.symm
  · simp at h

theorem map_some_append {α β : Type} {o : Option (α × List Char)} {o' : Option (α × List Char)} {q : List Char}
    {g : α → β} {b : β} {r : List Char} (h : o.map (fun x => (g x.1, x.2)) = some (b, r))
    (hstep : ∀ a r', o = some (a, r') → o' = some (a, r' ++ q)) :
    o'.map (fun x => (g x.1, x.2)) = some (b, r ++ q) := by
  cases o with
  | none => simp at h
  | some w =>
    obtain ⟨a, r'⟩ := w
    rw [hstep a r' rfl]
    simp only [Option.map_some, Option.some.injEq, Prod.mk.injEq] at h ⊢
    exact ⟨h.1, by rw [h.2]⟩

theorem elemsTail_head {f : Nat} {s : List Char} {x : List J × List Char} (h : parseElemsTail f s = some x) :
    ∃ c r, s = c :: r ∧ (c = ']' ∨ c = ',' ∨ c = '}') := by
  cases f with
  | zero => simp [parseElemsTail] at h
  | succ f =>
    cases s with
    | nil => simp [parseElemsTail] at h
    | cons c r =>
      refine ⟨c, r, rfl, ?_⟩
      unfold parseElemsTail at h
      by_cases h1 : c = ']'
      · exact Or.inl h1
      by_cases h2 : c = ','
      · exact Or.inr (Or.inl h2)
      rw [if_neg h1, if_neg h2] at h
      simp at h

theorem membersTail_head {f : Nat} {s : List Char} {x : List (List Nat × J) × List Char}
    (h : parseMembersTail f s = some x) : ∃ c r, s = c :: r ∧ (c = ']' ∨ c = ',' ∨ c = '}') := by
  cases f with
  | zero => simp [parseMembersTail] at h
  | succ f =>
    cases s with
    | nil => simp [parseMembersTail] at h
    | cons c r =>
      refine ⟨c, r, rfl, ?_⟩
      unfold parseMembersTail at h
      by_cases h1 : c = '}'
      · exact Or.inr (Or.inr h1)
      by_cases h2 : c = ','
      · exact Or.inr (Or.inl h2)
      rw [if_neg h1, if_neg h2] at h
      simp at h

/-- All parser functions at once: success is preserved by appended text and by more fuel. -/
theorem parse_append (f : Nat) :
    (∀ f' p v r q, f ≤ f' → parseJ f p = some (v, r) → (v.closed = true ∨ NumStop r) →
      parseJ f' (p ++ q) = some (v, r ++ q)) ∧
    (∀ f' p v r q, f ≤ f' → parseElems f p = some (v, r) → parseElems f' (p ++ q) = some (v, r ++ q)) ∧
    (∀ f' p v r q, f ≤ f' → parseElemsTail f p = some (v, r) → parseElemsTail f' (p ++ q) = some (v, r ++ q)) ∧
    (∀ f' p v r q, f ≤ f' → parseMembers f p = some (v, r) → parseMembers f' (p ++ q) = some (v, r ++ q)) ∧
    (∀ f' p v r q, f ≤ f' → parseMember f p = some (v, r) → parseMember f' (p ++ q) = some (v, r ++ q)) ∧
    (∀ f' p v r q, f ≤ f' → parseMembersTail f p = some (v, r) →
      parseMembersTail f' (p ++ q) = some (v, r ++ q)) := by
  induction f with
  | zero =>
    refine ⟨?_, ?_, ?_, ?_, ?_, ?_⟩
    · intro f' p v r q _ h; simp [parseJ] at h
    · intro f' p v r q _ h; simp [parseElems] at h
    · intro f' p v r q _ h; simp [parseElemsTail] at h
    · intro f' p v r q _ h; simp [parseMembers] at h
    · intro f' p v r q _ h; simp [parseMember] at h
    · intro f' p v r q _ h; simp [parseMembersTail] at h
  | succ f ih =>
    obtain ⟨ihJ, ihE, ihET, ihM, ihm, ihMT⟩ := ih
    refine ⟨?_, ?_, ?_, ?_, ?_, ?_⟩
    · intro f' p v r q hf h hcl
      obtain ⟨g, rfl⟩ : ∃ g, f' = g + 1 := ⟨f' - 1, by omega⟩
      have hg : f ≤ g := by omega
      cases p with
      | nil => simp [parseJ] at h
      | cons c cs =>
        simp only [List.cons_append]
        unfold parseJ at h ⊢
        by_cases h1 : c = '"'
        · rw [if_pos h1] at h ⊢
          exact map_some_append h (fun a r' e => scanStr_append _ _ _ _ _ _ e hf)
        rw [if_neg h1] at h ⊢
        by_cases h2 : c = '{'
        · rw [if_pos h2] at h ⊢
          have hsk : skipWs cs ≠ [] := by
            intro e; rw [e] at h; cases f <;> simp [parseMembers] at h
          rw [skipWs_append hsk]
          exact map_some_append (g := fun x => J.obj (dictOf x)) h (fun a r' e => ihM _ _ _ _ _ hg e)
        rw [if_neg h2] at h ⊢
        by_cases h3 : c = '['
        · rw [if_pos h3] at h ⊢
          have hsk : skipWs cs ≠ [] := by
            intro e; rw [e] at h; cases f <;> simp [parseElems] at h
          rw [skipWs_append hsk]
          exact map_some_append h (fun a r' e => ihE _ _ _ _ _ hg e)
        rw [if_neg h3] at h ⊢
        by_cases h4 : c = 'n'
        · rw [if_pos h4] at h ⊢; rw [← List.cons_append]; exact scanLit_append h q
        rw [if_neg h4] at h ⊢
        by_cases h5 : c = 't'
        · rw [if_pos h5] at h ⊢; rw [← List.cons_append]; exact scanLit_append h q
        rw [if_neg h5] at h ⊢
        by_cases h6 : c = 'f'
        · rw [if_pos h6] at h ⊢; rw [← List.cons_append]; exact scanLit_append h q
        rw [if_neg h6] at h ⊢
        cases hn : scanNumber (c :: cs) with
        | some w =>
          obtain ⟨t, rest⟩ := w
          rw [hn] at h
          simp only [Option.some.injEq, Prod.mk.injEq] at h
          obtain ⟨rfl, rfl⟩ := h
          have hst : NumStop rest := by
            rcases hcl with hcl | hcl
            · simp [J.closed] at hcl
            · exact hcl
          rw [← List.cons_append, scanNumber_append hn hst]
        | none =>
          rw [hn] at h
          dsimp only at h
          have hnd : c :: cs ≠ ['-'] := by
            rintro e
            obtain ⟨rfl, rfl⟩ := List.cons.inj e
            simp [scanLit] at h
          rw [← List.cons_append, scanNumber_none_append hn (by simp) hnd]
          dsimp only
          by_cases h7 : c = 'N'
          · rw [if_pos h7] at h ⊢; exact scanLit_append h q
          rw [if_neg h7] at h ⊢
          by_cases h8 : c = 'I'
          · rw [if_pos h8] at h ⊢; exact scanLit_append h q
          rw [if_neg h8] at h ⊢
          by_cases h9 : c = '-'
          · rw [if_pos h9] at h ⊢; exact scanLit_append h q
          rw [if_neg h9] at h
          simp at h
    · intro f' p v r q hf h
      obtain ⟨g, rfl⟩ : ∃ g, f' = g + 1 := ⟨f' - 1, by omega⟩
      have hg : f ≤ g := by omega
      cases p with
      | nil => simp [parseElems] at h
      | cons c cs =>
        simp only [List.cons_append]
        unfold parseElems at h ⊢
        by_cases h1 : c = ']'
        · rw [if_pos h1] at h ⊢
          simp only [Option.some.injEq, Prod.mk.injEq] at h ⊢
          exact ⟨h.1, by rw [h.2]⟩
        rw [if_neg h1] at h ⊢
        cases hv : parseJ f (c :: cs) with
        | none => rw [hv] at h; simp at h
        | some w =>
          obtain ⟨v', rest⟩ := w
          rw [hv] at h
          dsimp only at h
          have h' := h
          simp only [Option.map_eq_some_iff] at h'
          obtain ⟨x, hx, -⟩ := h'
          obtain ⟨d, s, hd, hdc⟩ := elemsTail_head hx
          have hst := numStop_of_skipWs hd hdc
          have := ihJ g (c :: cs) v' rest q hg hv (Or.inr hst)
          rw [List.cons_append] at this
          rw [this]
          dsimp only
          rw [skipWs_append (by rw [hd]; simp)]
          exact map_some_append h (fun a r' e => ihET _ _ _ _ _ hg e)
    · intro f' p v r q hf h
      obtain ⟨g, rfl⟩ : ∃ g, f' = g + 1 := ⟨f' - 1, by omega⟩
      have hg : f ≤ g := by omega
      cases p with
      | nil => simp [parseElemsTail] at h
      | cons c cs =>
        simp only [List.cons_append]
        unfold parseElemsTail at h ⊢
        by_cases h1 : c = ']'
        · rw [if_pos h1] at h ⊢
          simp only [Option.some.injEq, Prod.mk.injEq] at h ⊢
          exact ⟨h.1, by rw [h.2]⟩
        rw [if_neg h1] at h ⊢
        by_cases h2 : c = ','
        · rw [if_pos h2] at h ⊢
          have hsk : skipWs cs ≠ [] := by
            intro e; rw [e] at h; cases f <;> simp [parseJ] at h
          rw [skipWs_append hsk]
          cases hv : parseJ f (skipWs cs) with
          | none => rw [hv] at h; simp at h
          | some w =>
            obtain ⟨v', rest⟩ := w
            rw [hv] at h
            dsimp only at h
            have h' := h
            simp only [Option.map_eq_some_iff] at h'
            obtain ⟨x, hx, -⟩ := h'
            obtain ⟨d, s, hd, hdc⟩ := elemsTail_head hx
            have hst := numStop_of_skipWs hd hdc
            rw [ihJ g (skipWs cs) v' rest q hg hv (Or.inr hst)]
            dsimp only
            rw [skipWs_append (by rw [hd]; simp)]
            exact map_some_append h (fun a r' e => ihET _ _ _ _ _ hg e)
        · rw [if_neg h2] at h; simp at h
    · intro f' p v r q hf h
      obtain ⟨g, rfl⟩ : ∃ g, f' = g + 1 := ⟨f' - 1, by omega⟩
      have hg : f ≤ g := by omega
      cases p with
      | nil => simp [parseMembers] at h
      | cons c cs =>
        simp only [List.cons_append]
        unfold parseMembers at h ⊢
        by_cases h1 : c = '}'
        · rw [if_pos h1] at h ⊢
          simp only [Option.some.injEq, Prod.mk.injEq] at h ⊢
          exact ⟨h.1, by rw [h.2]⟩
        rw [if_neg h1] at h ⊢
        by_cases h2 : c = '"'
        · rw [if_pos h2] at h ⊢
          exact ihm _ _ _ _ _ hg h
        · rw [if_neg h2] at h; simp at h
    · intro f' p v r q hf h
      obtain ⟨g, rfl⟩ : ∃ g, f' = g + 1 := ⟨f' - 1, by omega⟩
      have hg : f ≤ g := by omega
      unfold parseMember at h ⊢
      cases hs : scanStr (f + 1) p with
      | none => rw [hs] at h; simp at h
      | some w =>
        obtain ⟨k, rest⟩ := w
        rw [hs] at h
        rw [scanStr_append _ _ _ _ _ q hs hf]
        dsimp only at h ⊢
        cases hk : skipWs rest with
        | nil => rw [hk] at h; simp at h
        | cons d rest2 =>
          rw [hk] at h
          rw [skipWs_append (by rw [hk]; simp), hk]
          simp only [List.cons_append] at h ⊢
          by_cases h1 : d = ':'
          · rw [if_pos h1] at h ⊢
            have hsk : skipWs rest2 ≠ [] := by
              intro e; rw [e] at h; cases f <;> simp [parseJ] at h
            rw [skipWs_append hsk]
            cases hv : parseJ f (skipWs rest2) with
            | none => rw [hv] at h; simp at h
            | some w =>
              obtain ⟨v', rest3⟩ := w
              rw [hv] at h
              dsimp only at h
              have h' := h
              simp only [Option.map_eq_some_iff] at h'
              obtain ⟨x, hx, -⟩ := h'
              obtain ⟨d, s, hd, hdc⟩ := membersTail_head hx
              have hst := numStop_of_skipWs hd hdc
              rw [ihJ g (skipWs rest2) v' rest3 q hg hv (Or.inr hst)]
              dsimp only
              rw [skipWs_append (by rw [hd]; simp)]
              exact map_some_append h (fun a r' e => ihMT _ _ _ _ _ hg e)
          · rw [if_neg h1] at h; simp at h
    · intro f' p v r q hf h
      obtain ⟨g, rfl⟩ : ∃ g, f' = g + 1 := ⟨f' - 1, by omega⟩
      have hg : f ≤ g := by omega
      cases p with
      | nil => simp [parseMembersTail] at h
      | cons c cs =>
        simp only [List.cons_append]
        unfold parseMembersTail at h ⊢
        by_cases h1 : c = '}'
        · rw [if_pos h1] at h ⊢
          simp only [Option.some.injEq, Prod.mk.injEq] at h ⊢
          exact ⟨h.1, by rw [h.2]⟩
        rw [if_neg h1] at h ⊢
        by_cases h2 : c = ','
        · rw [if_pos h2] at h ⊢
          cases hk : skipWs cs with
          | nil => rw [hk] at h; simp at h
          | cons d rest2 =>
            rw [hk] at h
            rw [skipWs_append (by rw [hk]; simp), hk]
            simp only [List.cons_append] at h ⊢
            by_cases h1 : d = '"'
            · rw [if_pos h1] at h ⊢
              exact ihm _ _ _ _ _ hg h
            · rw [if_neg h1] at h; simp at h
        · rw [if_neg h2] at h; simp at h

/-- A torn dictionary is never accepted, whatever the fuel. -/
theorem decode_prefix (kvs : List (List Nat × J)) (h : (J.obj kvs).OK) (p q : List Char)
    (e : encJ (.obj kvs) = p ++ q) (hq : q ≠ []) (f : Nat) : decodeJ f p = none := by
  cases p with
  | nil => cases f <;> simp [decodeJ, skipWs, parseJ]
  | cons c cs =>
    have hc : c = '{' := by
      simp only [encJ, List.cons_append] at e
      exact (List.cons.inj e).1.symm
    have hsk : skipWs (c :: cs) = c :: cs := by subst hc; rfl
    unfold decodeJ
    rw [hsk]
    cases hp : parseJ f (c :: cs) with
    | none => rfl
    | some w =>
      obtain ⟨v, rest⟩ := w
      exfalso
      have hv : v.closed = true := by
        cases f with
        | zero => simp [parseJ] at hp
        | succ f =>
          unfold parseJ at hp
          rw [if_neg (by subst hc; decide), if_pos hc] at hp
          simp only [Option.map_eq_some_iff] at hp
          obtain ⟨x, -, hx⟩ := hp
          rw [← (Prod.mk.inj hx).1]
          rfl
      have h1 := (parse_append f).1 (max f (2 * (encJ (.obj kvs)).length)) (c :: cs) v rest q (le_max_left _ _) hp
        (Or.inl hv)
      rw [← e] at h1
      have h2 := parse_encJ (.obj kvs) (max f (2 * (encJ (.obj kvs)).length)) [] h (le_max_right _ _)
        (fun c r' e => by simp at e)
      rw [List.append_nil] at h2
      rw [h2] at h1
      simp only [Option.some.injEq, Prod.mk.injEq] at h1
      have := h1.2.symm
      simp only [List.append_eq_nil_iff] at this
      exact hq this.2

end Verif

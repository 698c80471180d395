import Verif.Lemmas.JsonPrefix

/-!
# A text with a zero character is not json
-/

namespace Verif

/-- The part of `s` before `r` has no zero character. -/
def Eats (s r : List Char) : Prop := ∃ p, s = p ++ r ∧ '\x00' ∉ p

theorem Eats.refl (s : List Char) : Eats s s := ⟨[], rfl, by simp⟩

theorem Eats.trans {s r q : List Char} (h : Eats s r) (h' : Eats r q) : Eats s q := by
  obtain ⟨p, rfl, hp⟩ := h
  obtain ⟨p', rfl, hp'⟩ := h'
  exact ⟨p ++ p', by simp, by simp [hp, hp']⟩

theorem Eats.cons {c : Char} {s r : List Char} (hc : c ≠ '\x00') (h : Eats s r) : Eats (c :: s) r := by
  obtain ⟨p, rfl, hp⟩ := h
  exact ⟨c :: p, rfl, by simp [hp, hc.symm]⟩

theorem Eats.one {c : Char} {s : List Char} (hc : c ≠ '\x00') : Eats (c :: s) s := Eats.cons hc (Eats.refl s)

theorem isWs_nz {c : Char} (h : isWs c = true) : c ≠ '\x00' := by rintro rfl; revert h; decide

theorem isDig_nz {c : Char} (h : isDig c = true) : c ≠ '\x00' := by rintro rfl; revert h; decide

theorem eats_skipWs : ∀ s, Eats s (skipWs s)
  | [] => Eats.refl _
  | c :: cs => by
    unfold skipWs
    split
    · rename_i h; exact Eats.cons (isWs_nz h) (eats_skipWs cs)
    · exact Eats.refl _

theorem eats_spanDigits : ∀ s, Eats s (spanDigits s).2
  | [] => Eats.refl _
  | c :: cs => by
    unfold spanDigits
    split
    · rename_i h; exact Eats.cons (isDig_nz h) (eats_spanDigits cs)
    · exact Eats.refl _

theorem eats_scanNat {s : List Char} {x : List Char × List Char} (h : scanNat s = some x) : Eats s x.2 := by
  cases s with
  | nil => simp [scanNat] at h
  | cons c cs =>
    simp only [scanNat] at h
    split at h
    · rename_i hc; cases h; exact Eats.one (by subst hc; decide)
    · split at h
      · rename_i hd; cases h; exact Eats.cons (isDig_nz hd) (eats_spanDigits cs)
      · cases h

theorem eats_scanInt {s : List Char} {x : List Char × List Char} (h : scanInt s = some x) : Eats s x.2 := by
  unfold scanInt at h
  split at h
  · obtain ⟨y, hy, rfl⟩ := Option.map_eq_some_iff.1 h
    have := eats_scanNat hy
    exact Eats.cons (by decide) this
  · exact eats_scanNat h

theorem eats_scanFrac (s : List Char) : Eats s (scanFrac s).2 := by
  unfold scanFrac
  split
  · split
    · exact Eats.refl _
    · exact Eats.cons (by decide) (eats_spanDigits _)
  · exact Eats.refl _

theorem eats_scanSign (s : List Char) : Eats s (scanSign s).2 := by
  unfold scanSign
  split
  · exact Eats.one (by decide)
  · exact Eats.one (by decide)
  · exact Eats.refl _

theorem eats_scanExp (s : List Char) : Eats s (scanExp s).2 := by
  cases s with
  | nil => exact Eats.refl _
  | cons c cs =>
    simp only [scanExp]
    split
    · rename_i hc
      split
      · exact Eats.refl _
      · exact Eats.cons (by rcases hc with rfl | rfl <;> decide) ((eats_scanSign cs).trans (eats_spanDigits _))
    · exact Eats.refl _

theorem eats_scanNumber {s : List Char} {x : List Char × List Char} (h : scanNumber s = some x) : Eats s x.2 := by
  unfold scanNumber at h
  obtain ⟨i, hi, rfl⟩ := Option.map_eq_some_iff.1 h
  exact (eats_scanInt hi).trans ((eats_scanFrac _).trans (eats_scanExp _))

theorem hexVal_nz {c : Char} {n : Nat} (h : hexVal c = some n) : c ≠ '\x00' := by rintro rfl; revert h; simp [hexVal]

theorem eats_scanHex4 {s : List Char} {x : Nat × List Char} (h : scanHex4 s = some x) : Eats s x.2 := by
  unfold scanHex4 at h
  split at h
  · simp only [Option.bind_eq_bind, Option.bind_eq_some_iff] at h
    obtain ⟨a, ha, b, hb, c, hc, d, hd, h⟩ := h
    cases h
    exact Eats.cons (hexVal_nz ha) (Eats.cons (hexVal_nz hb) (Eats.cons (hexVal_nz hc) (Eats.one (hexVal_nz hd))))
  · cases h

theorem eats_scanUnicode {s : List Char} {x : Nat × List Char} (h : scanUnicode s = some x) : Eats s x.2 := by
  unfold scanUnicode at h
  split at h
  · cases h
  · rename_i u rest h1
    have e1 := eats_scanHex4 h1
    split at h
    · split at h
      · split at h
        · cases h
        · rename_i u2 rest3 h2
          split at h
          · obtain ⟨x1, x2⟩ := x
            simp only [Option.some.injEq, Prod.mk.injEq] at h
            have e2 := eats_scanHex4 h2
            rw [← h.2]
            exact e1.trans (Eats.cons (by decide) (Eats.cons (by decide) e2))
          · cases h; exact e1
      · cases h; exact e1
    · cases h; exact e1

theorem escVal_nz {c : Char} {n : Nat} (h : escVal c = some n) : c ≠ '\x00' := by
  rintro rfl
  have : escVal '\x00' = none := by decide
  rw [this] at h
  cases h

theorem eats_scanStr : ∀ (f : Nat) (s : List Char) (x : List Nat × List Char), scanStr f s = some x → Eats s x.2
  | 0, _, _, h => by simp [scanStr] at h
  | _ + 1, [], _, h => by simp [scanStr] at h
  | f + 1, c :: cs, x, h => by
    unfold scanStr at h
    split at h
    · rename_i hc; cases h; exact Eats.one (by subst hc; decide)
    · split at h
      · rename_i hc
        have hc' : c ≠ '\x00' := by subst hc; decide
        split at h
        · cases h
        · rename_i e rest
          split at h
          · rename_i he
            split at h
            · cases h
            · rename_i u rest' hu
              obtain ⟨y, hy, rfl⟩ := Option.map_eq_some_iff.1 h
              have h1 := eats_scanUnicode hu
              have h2 := eats_scanStr f _ _ hy
              exact Eats.cons hc' (Eats.cons (by subst he; decide) (h1.trans h2))
          · split at h
            · cases h
            · rename_i v hv
              obtain ⟨y, hy, rfl⟩ := Option.map_eq_some_iff.1 h
              have h2 := eats_scanStr f _ _ hy
              exact Eats.cons hc' (Eats.cons (escVal_nz hv) h2)
      · split at h
        · cases h
        · rename_i hlt
          obtain ⟨y, hy, rfl⟩ := Option.map_eq_some_iff.1 h
          have h2 := eats_scanStr f _ _ hy
          exact Eats.cons (by rintro rfl; exact hlt (by decide)) h2

theorem eats_scanLit {lit : List Char} {v : J} {s : List Char} {x : J × List Char} (hl : '\x00' ∉ lit) (h : scanLit lit v s = some x) :
    Eats s x.2 := by
  unfold scanLit at h
  split at h
  · rename_i hp
    cases h
    obtain ⟨q, rfl⟩ := List.isPrefixOf_iff_prefix.1 hp
    exact ⟨lit, by simp, hl⟩
  · cases h

/-- All parts of the parser only pass over characters other than zero. -/
theorem eats_parse : ∀ f : Nat,
    (∀ s x, parseJ f s = some x → Eats s x.2) ∧ (∀ s x, parseElems f s = some x → Eats s x.2) ∧
    (∀ s x, parseElemsTail f s = some x → Eats s x.2) ∧ (∀ s x, parseMembers f s = some x → Eats s x.2) ∧
    (∀ s x, parseMember f s = some x → Eats s x.2) ∧ (∀ s x, parseMembersTail f s = some x → Eats s x.2) := by
  intro f
  induction f with
  | zero =>
    refine ⟨?_, ?_, ?_, ?_, ?_, ?_⟩ <;> intro s x h
    · unfold parseJ at h; cases h
    · unfold parseElems at h; cases h
    · unfold parseElemsTail at h; cases h
    · unfold parseMembers at h; cases h
    · unfold parseMember at h; cases h
    · unfold parseMembersTail at h; cases h
  | succ f ih =>
    obtain ⟨iJ, iE, iET, iM, iMm, iMT⟩ := ih
    refine ⟨?_, ?_, ?_, ?_, ?_, ?_⟩
    · intro s x h
      cases s with
      | nil => unfold parseJ at h; cases h
      | cons c cs =>
        unfold parseJ at h
        split at h
        · rename_i hc
          obtain ⟨y, hy, rfl⟩ := Option.map_eq_some_iff.1 h
          have h2 := eats_scanStr _ _ _ hy
          exact Eats.cons (by subst hc; decide) h2
        · split at h
          · rename_i hc
            obtain ⟨y, hy, rfl⟩ := Option.map_eq_some_iff.1 h
            have h2 := iM _ _ hy
            exact Eats.cons (by subst hc; decide) ((eats_skipWs cs).trans h2)
          · split at h
            · rename_i hc
              obtain ⟨y, hy, rfl⟩ := Option.map_eq_some_iff.1 h
              have h2 := iE _ _ hy
              exact Eats.cons (by subst hc; decide) ((eats_skipWs cs).trans h2)
            · split at h
              · exact eats_scanLit (by decide) h
              · split at h
                · exact eats_scanLit (by decide) h
                · split at h
                  · exact eats_scanLit (by decide) h
                  · split at h
                    · rename_i t rest hn
                      cases h
                      exact eats_scanNumber hn
                    · split at h
                      · exact eats_scanLit (by decide) h
                      · split at h
                        · exact eats_scanLit (by decide) h
                        · split at h
                          · exact eats_scanLit (by decide) h
                          · cases h
    · intro s x h
      cases s with
      | nil => unfold parseElems at h; cases h
      | cons c cs =>
        unfold parseElems at h
        split at h
        · rename_i hc; cases h; exact Eats.one (by subst hc; decide)
        · split at h
          · cases h
          · rename_i v rest hv
            obtain ⟨y, hy, rfl⟩ := Option.map_eq_some_iff.1 h
            have h1 := iJ _ _ hv
            have h2 := iET _ _ hy
            exact h1.trans ((eats_skipWs rest).trans h2)
    · intro s x h
      cases s with
      | nil => unfold parseElemsTail at h; cases h
      | cons c cs =>
        unfold parseElemsTail at h
        split at h
        · rename_i hc; cases h; exact Eats.one (by subst hc; decide)
        · split at h
          · rename_i hc
            split at h
            · cases h
            · rename_i v rest hv
              obtain ⟨y, hy, rfl⟩ := Option.map_eq_some_iff.1 h
              have h1 := iJ _ _ hv
              have h2 := iET _ _ hy
              exact Eats.cons (by subst hc; decide) ((eats_skipWs cs).trans (h1.trans ((eats_skipWs rest).trans h2)))
          · cases h
    · intro s x h
      cases s with
      | nil => unfold parseMembers at h; cases h
      | cons c cs =>
        unfold parseMembers at h
        split at h
        · rename_i hc; cases h; exact Eats.one (by subst hc; decide)
        · split at h
          · rename_i hc
            exact Eats.cons (by subst hc; decide) (iMm _ _ h)
          · cases h
    · intro s x h
      unfold parseMember at h
      split at h
      · cases h
      · rename_i k rest hk
        split at h
        · cases h
        · rename_i d rest' hd
          split at h
          · rename_i hdc
            split at h
            · cases h
            · rename_i v rest'' hv
              obtain ⟨y, hy, rfl⟩ := Option.map_eq_some_iff.1 h
              have h0 := eats_scanStr _ _ _ hk
              have h1 := iJ _ _ hv
              have h2 := iMT _ _ hy
              refine h0.trans ((eats_skipWs rest).trans ?_)
              rw [hd]
              exact Eats.cons (by subst hdc; decide) ((eats_skipWs _).trans (h1.trans ((eats_skipWs _).trans h2)))
          · cases h
    · intro s x h
      cases s with
      | nil => unfold parseMembersTail at h; cases h
      | cons c cs =>
        unfold parseMembersTail at h
        split at h
        · rename_i hc; cases h; exact Eats.one (by subst hc; decide)
        · split at h
          · rename_i hc
            split at h
            · cases h
            · rename_i d rest hd
              split at h
              · rename_i hdc
                refine Eats.cons (by subst hc; decide) ((eats_skipWs cs).trans ?_)
                rw [hd]
                exact Eats.cons (by subst hdc; decide) (iMm _ _ h)
              · cases h
          · cases h

/-- A text with a zero character is refused. -/
theorem decode_nul {f : Nat} {t : List Char} (h : '\x00' ∈ t) : decodeJ f t = none := by
  unfold decodeJ
  split
  · rfl
  · rename_i v rest hv
    split
    · rename_i hr
      have e := ((eats_skipWs t).trans ((eats_parse f).1 _ _ hv)).trans (eats_skipWs rest)
      rw [hr] at e
      obtain ⟨p, rfl, hp⟩ := e
      rw [List.append_nil] at h
      exact absurd h hp
    · rfl

end Verif

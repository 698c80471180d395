import Verif.Spec.Concurrent
import Verif.Lemmas.JsonNul
import Verif.Lemmas.FilesExample

/-!
# C127: several processes at one cache file
-/

namespace Verif

/-! ## Writing a part of a text -/

/-- Every character is zero or that of `t` at the same place. -/
def Mix (t c : List Char) : Prop := c.length ≤ t.length ∧ ∀ (i : Nat) (ch : Char), c[i]? = some ch → ch = '\x00' ∨ t[i]? = some ch

/-- The first `pos` characters are those of `t`. -/
def FilledTo (t c : List Char) (pos : Nat) : Prop := ∀ i, i < pos → c[i]? = t[i]?

theorem patch_length (c : List Char) (pos : Nat) (s : List Char) : (patch c pos s).length = max (pos + s.length) c.length := by
  simp only [patch, List.length_append, List.length_take, List.length_replicate, List.length_drop]
  omega

theorem patch_get (c : List Char) (pos : Nat) (s : List Char) (i : Nat) : (patch c pos s)[i]? =
    if i < pos then (if i < c.length then c[i]? else some '\x00') else if i < pos + s.length then s[i - pos]? else c[i]? := by
  have hl : (c.take pos ++ List.replicate (pos - c.length) '\x00').length = pos := by simp; omega
  unfold patch
  by_cases h1 : i < pos
  · rw [if_pos h1, List.append_assoc, List.getElem?_append_left (by rw [hl]; exact h1)]
    by_cases h2 : i < c.length
    · rw [if_pos h2, List.getElem?_append_left (by simp; omega), List.getElem?_take_of_lt h1]
    · rw [if_neg h2, List.getElem?_append_right (by simp; omega), List.getElem?_replicate, if_pos (by simp; omega)]
  · rw [if_neg h1, List.append_assoc, List.getElem?_append_right (by rw [hl]; omega), hl]
    by_cases h2 : i < pos + s.length
    · rw [if_pos h2, List.getElem?_append_left (by omega)]
    · rw [if_neg h2, List.getElem?_append_right (by omega), List.getElem?_drop]
      congr 1
      omega

theorem chunk_length {t : List Char} {pos n : Nat} (h : pos + n ≤ t.length) : ((t.drop pos).take n).length = n := by simp; omega

theorem chunk_get {t : List Char} {pos n i : Nat} (h1 : ¬ i < pos) (h2 : i < pos + n) : ((t.drop pos).take n)[i - pos]? = t[i]? := by
  rw [List.getElem?_take_of_lt (by omega), List.getElem?_drop]
  congr 1
  omega

theorem Mix.nil (t : List Char) : Mix t [] := ⟨by simp, by simp⟩

theorem Mix.patched {t c : List Char} (h : Mix t c) {pos n : Nat} (hp : pos + n ≤ t.length) : Mix t (patch c pos ((t.drop pos).take n)) := by
  constructor
  · rw [patch_length, chunk_length hp]
    exact max_le hp h.1
  · intro i ch
    rw [patch_get, chunk_length hp]
    split
    · split
      · exact h.2 i ch
      · intro e; left; injection e with e; exact e.symm
    · split
      · rename_i h1 h2
        rw [chunk_get h1 h2]
        exact Or.inr
      · exact h.2 i ch

theorem Mix.append {t c got : List Char} (hc : Mix t c) (hg : Mix t got) (n : Nat) : Mix t (got ++ (c.drop got.length).take n) := by
  constructor
  · simp only [List.length_append, List.length_take, List.length_drop]
    have := hc.1
    have := hg.1
    omega
  · intro i ch h
    by_cases hi : i < got.length
    · rw [List.getElem?_append_left hi] at h
      exact hg.2 i ch h
    · rw [List.getElem?_append_right (by omega), List.getElem?_take] at h
      split at h
      · rw [List.getElem?_drop, show got.length + (i - got.length) = i by omega] at h
        exact hc.2 i ch h
      · cases h

theorem FilledTo.patched {t c : List Char} {q : Nat} (h : FilledTo t c q) (hq : q ≤ t.length) {pos n : Nat} (hp : pos + n ≤ t.length) :
    FilledTo t (patch c pos ((t.drop pos).take n)) q := by
  intro i hi
  have hc : i < c.length := by
    have := h i hi
    rw [List.getElem?_eq_getElem (show i < t.length by omega)] at this
    exact (List.getElem?_eq_some_iff.1 this).1
  rw [patch_get, chunk_length hp, if_pos hc]
  split
  · exact h i hi
  · split
    · rename_i h1 h2; exact chunk_get h1 h2
    · exact h i hi

theorem FilledTo.more {t c : List Char} {pos n : Nat} (h : FilledTo t c pos) (hp : pos + n ≤ t.length) :
    FilledTo t (patch c pos ((t.drop pos).take n)) (pos + n) := by
  intro i hi
  by_cases h1 : i < pos
  · exact h.patched (by omega) hp i h1
  · rw [patch_get, if_neg h1, chunk_length hp, if_pos hi, chunk_get h1 hi]

theorem FilledTo.eq {t c : List Char} (h : FilledTo t c t.length) (hm : Mix t c) : c = t := by
  apply List.ext_getElem?
  intro i
  by_cases hi : i < t.length
  · exact h i hi
  · rw [List.getElem?_eq_none (by have := hm.1; omega), List.getElem?_eq_none (by omega)]

theorem filled_self (t : List Char) (q : Nat) : FilledTo t t q := fun _ _ => rfl

theorem mix_self (t : List Char) : Mix t t := ⟨le_refl _, fun _ _ h => Or.inr h⟩

theorem patch_self {t : List Char} {pos n : Nat} (hp : pos + n ≤ t.length) : patch t pos ((t.drop pos).take n) = t :=
  FilledTo.eq ((filled_self t _).patched (le_refl _) hp) ((mix_self t).patched hp)

/-- A text of this kind is complete, has a zero character, or is a proper prefix. -/
theorem Mix.cases {t c : List Char} (h : Mix t c) : c = t ∨ '\x00' ∈ c ∨ ∃ q, t = c ++ q ∧ q ≠ [] := by
  by_cases hz : '\x00' ∈ c
  · exact .inr (.inl hz)
  · have hp : c = t.take c.length := by
      apply List.ext_getElem?
      intro i
      by_cases hi : i < c.length
      · rw [List.getElem?_take_of_lt hi, List.getElem?_eq_getElem hi]
        rcases h.2 i _ (List.getElem?_eq_getElem hi) with e | e
        · exact absurd (e ▸ List.getElem_mem hi) hz
        · exact e.symm
      · rw [List.getElem?_eq_none (by omega), List.getElem?_eq_none (by simp; omega)]
    by_cases hl : c.length = t.length
    · left; rw [hp, hl, List.take_length]
    · right; right
      refine ⟨t.drop c.length, ?_, ?_⟩
      · conv_lhs => rw [← List.take_append_drop c.length t, ← hp]
      · have := h.1
        simp; omega

/-! ## What holds in every reachable state -/

/-- The writer has not opened the file yet. -/
def Writer.Early (w : Writer) : Prop := w = .idle ∨ w = .check ∨ w = .remove ∨ w = .openFile

/-- Invariant for the file that is left. -/
structure LeftInv (t : List Char) (n : Nat) (s : Shared) : Prop where
  part : ∀ p, p < n → s.writer p ≠ .idle
  bound : ∀ p k pos, s.writer p = .writing k pos → pos ≤ t.length
  mix : ∀ p k pos, s.writer p = .writing k pos → Mix t (s.inode k)
  gone : s.cur = none → (∃ p, s.writer p = .openFile) ∨ (∃ p, s.writer p = .crashed) ∨ ∀ p, s.writer p = .idle ∨ s.writer p = .check
  full : ∀ k, s.cur = some k → (s.inode k = t ∧ ∃ p, s.writer p = .done) ∨
    (∃ p pos, s.writer p = .writing k pos ∧ FilledTo t (s.inode k) pos) ∨ (∃ p, s.writer p = .crashed) ∨ ∀ p, (s.writer p).Early

theorem leftInv_init {t : List Char} {first : Writer} (hf : first = .check ∨ first = .openFile) (n : Nat) (old : Option (List Char)) :
    LeftInv t n (Shared.init first n old) := by
  have hw : ∀ p k pos, (Shared.init first n old).writer p ≠ .writing k pos := by
    intro p k pos
    simp only [Shared.init]
    rcases hf with rfl | rfl <;> split <;> simp
  refine ⟨?_, fun p k pos h => absurd h (hw p k pos), fun p k pos h => absurd h (hw p k pos), ?_, ?_⟩
  · intro p hp
    simp only [Shared.init, if_pos hp]
    rcases hf with rfl | rfl <;> simp
  · intro _
    rcases hf with rfl | rfl
    · right; right
      intro p
      simp only [Shared.init]
      split <;> simp
    · by_cases hn : 0 < n
      · left; exact ⟨0, by simp [Shared.init, hn]⟩
      · right; right
        intro p
        simp only [Shared.init]
        rw [if_neg (by omega)]
        simp
  · intro k _
    right; right; right
    intro p
    simp only [Shared.init, Writer.Early]
    rcases hf with rfl | rfl <;> split <;> simp

theorem setW_self (s : Shared) (p : Nat) (w : Writer) : (s.setW p w).writer p = w := by simp [Shared.setW]

theorem setW_other (s : Shared) {p q : Nat} (w : Writer) (h : q ≠ p) : (s.setW p w).writer q = s.writer q := by simp [Shared.setW, h]

/-- A writer moves, and nothing else changes but possibly the contents of inodes, the name and the next inode. -/
theorem leftInv_move {t : List Char} {n : Nat} {s s' : Shared} (h : LeftInv t n s) {p : Nat} {w : Writer}
    (hw : s'.writer = Function.update s.writer p w) (hp : s.writer p ≠ .idle) (hi : w ≠ .idle)
    (hwr : ∀ k pos, w = .writing k pos → pos ≤ t.length ∧ Mix t (s'.inode k))
    (hmix : ∀ k, Mix t (s.inode k) → Mix t (s'.inode k))
    (hgone : s'.cur = none → (∃ q, s'.writer q = .openFile) ∨ (∃ q, s'.writer q = .crashed) ∨ ∀ q, s'.writer q = .idle ∨ s'.writer q = .check)
    (hfull : ∀ k, s'.cur = some k → (s'.inode k = t ∧ ∃ q, s'.writer q = .done) ∨
      (∃ q pos, s'.writer q = .writing k pos ∧ FilledTo t (s'.inode k) pos) ∨ (∃ q, s'.writer q = .crashed) ∨ ∀ q, (s'.writer q).Early) :
    LeftInv t n s' := by
  have key : ∀ q k pos, s'.writer q = .writing k pos → (q = p ∧ w = .writing k pos) ∨ s.writer q = .writing k pos := by
    intro q k pos hq
    rw [hw] at hq
    by_cases e : q = p
    · subst e
      rw [Function.update_self] at hq
      exact .inl ⟨rfl, hq⟩
    · rw [Function.update_of_ne e] at hq
      exact .inr hq
  refine ⟨?_, ?_, ?_, hgone, hfull⟩
  · intro q hq
    rw [hw]
    by_cases e : q = p
    · subst e
      rw [Function.update_self]
      exact hi
    · rw [Function.update_of_ne e]
      exact h.part q hq
  · intro q k pos hq
    rcases key q k pos hq with ⟨-, e⟩ | e
    · exact (hwr k pos e).1
    · exact h.bound q k pos e
  · intro q k pos hq
    rcases key q k pos hq with ⟨-, e⟩ | e
    · exact (hwr k pos e).2
    · exact hmix k (h.mix q k pos e)

/-- A writer that does not write moves without touching the file. -/
theorem full_move {t : List Char} {n : Nat} {s : Shared} (h : LeftInv t n s) {p : Nat} {w : Writer} (hs : s.writer p ≠ .done)
    (hs' : ∀ k pos, s.writer p ≠ .writing k pos) (hc : s.writer p ≠ .crashed) (he : (s.writer p).Early → w.Early) {k : Nat}
    (hk : s.cur = some k) : (s.inode k = t ∧ ∃ q, (Function.update s.writer p w) q = .done) ∨
      (∃ q pos, (Function.update s.writer p w) q = .writing k pos ∧ FilledTo t (s.inode k) pos) ∨
      (∃ q, (Function.update s.writer p w) q = .crashed) ∨ ∀ q, ((Function.update s.writer p w) q).Early := by
  rcases h.full k hk with ⟨e, q, hq⟩ | ⟨q, pos, hq, e⟩ | ⟨q, hq⟩ | hq
  · refine .inl ⟨e, q, ?_⟩
    rw [Function.update_of_ne (by rintro rfl; exact hs hq)]
    exact hq
  · refine .inr (.inl ⟨q, pos, ?_, e⟩)
    rw [Function.update_of_ne (by rintro rfl; exact hs' _ _ hq)]
    exact hq
  · refine .inr (.inr (.inl ⟨q, ?_⟩))
    rw [Function.update_of_ne (by rintro rfl; exact hc hq)]
    exact hq
  · refine .inr (.inr (.inr fun q => ?_))
    by_cases e : q = p
    · subst e
      rw [Function.update_self]
      exact he (hq q)
    · rw [Function.update_of_ne e]
      exact hq q

theorem leftInv_step {t : List Char} {n : Nat} {s s' : Shared} (h : LeftInv t n s) (hst : SharedStep (fun _ => t) s s') : LeftInv t n s' := by
  cases hst with
  | checkNo p hp hc =>
    refine leftInv_move h (p := p) (w := .openFile) rfl (by simp [hp]) (by simp) (by simp) (fun _ => id) ?_ ?_
    · intro _
      exact .inl ⟨p, by simp [Shared.setW]⟩
    · intro k hk
      simp only [Shared.setW] at hk
      rw [hc] at hk
      cases hk
  | checkYes p k hp hc =>
    refine leftInv_move h (p := p) (w := .remove) rfl (by simp [hp]) (by simp) (by simp) (fun _ => id) ?_ ?_
    · intro hn
      simp only [Shared.setW] at hn
      rw [hc] at hn
      cases hn
    · intro k' hk'
      exact full_move h (by simp [hp]) (by simp [hp]) (by simp [hp]) (by simp [Writer.Early]) hk'
  | removeOk p k hp hc =>
    refine leftInv_move h (p := p) (w := .openFile) rfl (by simp [hp]) (by simp) (by simp) (fun _ => id) ?_ ?_
    · intro _
      exact .inl ⟨p, by simp [Shared.setW]⟩
    · intro k' hk'
      cases hk'
  | removeFails p hp hc =>
    refine leftInv_move h (p := p) (w := .failed) rfl (by simp [hp]) (by simp) (by simp) (fun _ => id) ?_ ?_
    · intro _
      rcases h.gone hc with ⟨q, hq⟩ | ⟨q, hq⟩ | hq
      · exact .inl ⟨q, by rw [setW_other s _ (by rintro rfl; rw [hp] at hq; cases hq)]; exact hq⟩
      · exact .inr (.inl ⟨q, by rw [setW_other s _ (by rintro rfl; rw [hp] at hq; cases hq)]; exact hq⟩)
      · rcases hq p with e | e <;> rw [hp] at e <;> cases e
    · intro k hk
      simp only [Shared.setW] at hk
      rw [hc] at hk
      cases hk
  | openNew p hp hc =>
    refine leftInv_move h (p := p) (w := .writing s.next 0) rfl (by simp [hp]) (by simp) ?_ ?_ ?_ ?_
    · intro k pos e
      cases e
      exact ⟨Nat.zero_le _, by simp only [Function.update_self]; exact Mix.nil t⟩
    · intro k hk
      by_cases e : k = s.next
      · subst e; simp only [Function.update_self]; exact Mix.nil t
      · simp only [Function.update_of_ne e]; exact hk
    · intro e; cases e
    · intro k hk
      injection hk with hk
      subst hk
      exact .inr (.inl ⟨p, 0, setW_self s p _, fun i hi => absurd hi (Nat.not_lt_zero _)⟩)
  | openOld p k hp hc =>
    refine leftInv_move h (p := p) (w := .writing k 0) rfl (by simp [hp]) (by simp) ?_ ?_ ?_ ?_
    · intro k' pos e
      cases e
      exact ⟨Nat.zero_le _, by simp only [Function.update_self]; exact Mix.nil t⟩
    · intro k' hk
      by_cases e : k' = k
      · subst e; simp only [Function.update_self]; exact Mix.nil t
      · simp only [Function.update_of_ne e]; exact hk
    · intro e
      simp only [Shared.setW] at e
      rw [hc] at e
      cases e
    · intro k' hk
      simp only [Shared.setW] at hk
      rw [hc] at hk
      injection hk with hk
      subst hk
      exact .inr (.inl ⟨p, 0, setW_self s p _, fun i hi => absurd hi (Nat.not_lt_zero _)⟩)
  | write p k pos m hp hm hle =>
    have hmix := h.mix p k pos hp
    refine leftInv_move h (p := p) (w := .writing k (pos + m)) rfl (by simp [hp]) (by simp) ?_ ?_ ?_ ?_
    · intro k' pos' e
      cases e
      exact ⟨hle, by simp only [Function.update_self]; exact hmix.patched hle⟩
    · intro k' hk
      by_cases e : k' = k
      · subst e; simp only [Function.update_self]; exact hk.patched hle
      · simp only [Function.update_of_ne e]; exact hk
    · intro e
      rcases h.gone e with ⟨q, hq⟩ | ⟨q, hq⟩ | hq
      · exact .inl ⟨q, (setW_other s _ (by rintro rfl; rw [hp] at hq; cases hq)).trans hq⟩
      · exact .inr (.inl ⟨q, (setW_other s _ (by rintro rfl; rw [hp] at hq; cases hq)).trans hq⟩)
      · rcases hq p with e | e <;> rw [hp] at e <;> cases e
    · intro k' hk
      rcases h.full k' hk with ⟨e, q, hq⟩ | ⟨q, pos', hq, e⟩ | ⟨q, hq⟩ | hq
      · refine .inl ⟨?_, q, (setW_other s _ (by rintro rfl; rw [hp] at hq; cases hq)).trans hq⟩
        by_cases ek : k' = k
        · subst ek
          simp only [Function.update_self, e]
          exact patch_self hle
        · simp only [Function.update_of_ne ek]; exact e
      · by_cases eq : q = p
        · subst eq
          rw [hp] at hq
          cases hq
          refine .inr (.inl ⟨q, pos + m, setW_self s q _, ?_⟩)
          simp only [Function.update_self]
          exact e.more hle
        · refine .inr (.inl ⟨q, pos', (setW_other s _ eq).trans hq, ?_⟩)
          by_cases ek : k' = k
          · subst ek
            simp only [Function.update_self]
            exact e.patched (h.bound q _ _ hq) hle
          · simp only [Function.update_of_ne ek]; exact e
      · exact .inr (.inr (.inl ⟨q, (setW_other s _ (by rintro rfl; rw [hp] at hq; cases hq)).trans hq⟩))
      · have := hq p
        rw [hp] at this
        simp [Writer.Early] at this
  | close p k hp =>
    refine leftInv_move h (p := p) (w := .done) rfl (by simp [hp]) (by simp) (by simp) (fun _ => id) ?_ ?_
    · intro e
      rcases h.gone e with ⟨q, hq⟩ | ⟨q, hq⟩ | hq
      · exact .inl ⟨q, (setW_other s _ (by rintro rfl; rw [hp] at hq; cases hq)).trans hq⟩
      · exact .inr (.inl ⟨q, (setW_other s _ (by rintro rfl; rw [hp] at hq; cases hq)).trans hq⟩)
      · rcases hq p with e | e <;> rw [hp] at e <;> cases e
    · intro k' hk
      rcases h.full k' hk with ⟨e, -⟩ | ⟨q, pos', hq, e⟩ | ⟨q, hq⟩ | hq
      · exact .inl ⟨e, p, setW_self s p _⟩
      · by_cases eq : q = p
        · subst eq
          rw [hp] at hq
          cases hq
          exact .inl ⟨e.eq (h.mix q _ _ hp), q, setW_self s q _⟩
        · exact .inr (.inl ⟨q, pos', (setW_other s _ eq).trans hq, e⟩)
      · exact .inr (.inr (.inl ⟨q, (setW_other s _ (by rintro rfl; rw [hp] at hq; cases hq)).trans hq⟩))
      · have := hq p
        rw [hp] at this
        simp [Writer.Early] at this
  | crash p hp =>
    refine leftInv_move h (p := p) (w := .crashed) rfl hp (by simp) (by simp) (fun _ => id) ?_ ?_
    · exact fun _ => .inr (.inl ⟨p, setW_self s p _⟩)
    · exact fun _ _ => .inr (.inr (.inl ⟨p, setW_self s p _⟩))
  | readOpen q k hq hc => exact ⟨h.part, h.bound, h.mix, h.gone, h.full⟩
  | readFails q hq hc => exact ⟨h.part, h.bound, h.mix, h.gone, h.full⟩
  | readMore q k got m hq hm => exact ⟨h.part, h.bound, h.mix, h.gone, h.full⟩
  | readEnd q k got hq hl => exact ⟨h.part, h.bound, h.mix, h.gone, h.full⟩

/-- Invariant for the readers; `0` is the inode of the file that was there at the start. -/
structure ReadInv (t : List Char) (old : Option (List Char)) (s : Shared) : Prop where
  zero : s.inode 0 = old.getD []
  next : 0 < s.next
  writes : ∀ p k pos, s.writer p = .writing k pos → k ≠ 0
  opens : s.cur = some 0 → old.isSome = true ∧ ∀ p, s.writer p ≠ .openFile
  mix : ∀ k, k ≠ 0 → Mix t (s.inode k)
  bound : ∀ p k pos, s.writer p = .writing k pos → pos ≤ t.length
  reads : ∀ q k got, s.reader q = .reading k got → if k = 0 then old.isSome = true ∧ got <+: old.getD [] else Mix t got
  ends : ∀ q got, s.reader q = .finished got → got = none ∨ got = old ∨ ∃ c, got = some c ∧ Mix t c

theorem readInv_init (t : List Char) (n : Nat) (old : Option (List Char)) : ReadInv t old (Shared.init .check n old) := by
  have hw : ∀ p, (Shared.init .check n old).writer p = .check ∨ (Shared.init .check n old).writer p = .idle := by
    intro p
    simp only [Shared.init]
    split <;> simp
  refine ⟨by simp [Shared.init], by simp [Shared.init], ?_, ?_, ?_, ?_, ?_, ?_⟩
  · intro p k pos h
    rcases hw p with e | e <;> rw [h] at e <;> cases e
  · intro h
    refine ⟨?_, fun p => ?_⟩
    · cases old with
      | none => simp [Shared.init] at h
      | some c => rfl
    · rcases hw p with e | e <;> rw [e] <;> simp
  · intro k hk
    simp only [Shared.init, if_neg hk]
    exact Mix.nil t
  · intro p k pos h
    rcases hw p with e | e <;> rw [h] at e <;> cases e
  · intro q k got h
    simp [Shared.init] at h
  · intro q got h
    simp [Shared.init] at h

theorem update_writer {f : Nat → Writer} {p q : Nat} {w v : Writer} (h : Function.update f p w q = v) : (q = p ∧ w = v) ∨ f q = v := by
  by_cases e : q = p
  · subst e
    rw [Function.update_self] at h
    exact .inl ⟨rfl, h⟩
  · rw [Function.update_of_ne e] at h
    exact .inr h

theorem update_reader {f : Nat → Reader} {p q : Nat} {w v : Reader} (h : Function.update f p w q = v) : (q = p ∧ w = v) ∨ f q = v := by
  by_cases e : q = p
  · subst e
    rw [Function.update_self] at h
    exact .inl ⟨rfl, h⟩
  · rw [Function.update_of_ne e] at h
    exact .inr h

/-- A writer moves to something other than writing. -/
theorem readInv_move {t : List Char} {old : Option (List Char)} {s : Shared} (h : ReadInv t old s) (p : Nat) {w : Writer}
    (hw : ∀ k pos, w ≠ .writing k pos) {cur' : Option Nat} (hc : cur' = some 0 → s.cur = some 0 ∧ w ≠ .openFile) :
    ReadInv t old { s.setW p w with cur := cur' } := by
  refine ⟨h.zero, h.next, ?_, ?_, h.mix, ?_, h.reads, h.ends⟩
  · intro q k pos hq
    rcases update_writer hq with ⟨-, e⟩ | e
    · exact absurd e (hw k pos)
    · exact h.writes q k pos e
  · intro e
    obtain ⟨e1, e2⟩ := hc e
    refine ⟨(h.opens e1).1, fun q hq => ?_⟩
    rcases update_writer hq with ⟨-, e⟩ | e
    · exact e2 e
    · exact (h.opens e1).2 q e
  · intro q k pos hq
    rcases update_writer hq with ⟨-, e⟩ | e
    · exact absurd e (hw k pos)
    · exact h.bound q k pos e

/-- A writer writes to an inode other than the first. -/
theorem readInv_write {t : List Char} {old : Option (List Char)} {s : Shared} (h : ReadInv t old s) (p : Nat) {k pos : Nat} {c : List Char}
    (hk : k ≠ 0) (hc : Mix t c) (hpos : pos ≤ t.length) {cur' : Option Nat} (hcur : cur' = some 0 → s.cur = some 0) {next' : Nat} (hn : 0 < next') :
    ReadInv t old { s.setW p (.writing k pos) with inode := Function.update s.inode k c, cur := cur', next := next' } := by
  refine ⟨?_, hn, ?_, ?_, ?_, ?_, h.reads, h.ends⟩
  · simp only [Function.update_of_ne hk.symm]
    exact h.zero
  · intro q k' pos' hq
    rcases update_writer hq with ⟨-, e⟩ | e
    · cases e; exact hk
    · exact h.writes q k' pos' e
  · intro e
    refine ⟨(h.opens (hcur e)).1, fun q hq => ?_⟩
    rcases update_writer hq with ⟨-, e'⟩ | e'
    · cases e'
    · exact (h.opens (hcur e)).2 q e'
  · intro k' hk'
    by_cases e : k' = k
    · subst e; simp only [Function.update_self]; exact hc
    · simp only [Function.update_of_ne e]; exact h.mix k' hk'
  · intro q k' pos' hq
    rcases update_writer hq with ⟨-, e⟩ | e
    · cases e; exact hpos
    · exact h.bound q k' pos' e

/-- A reader moves. -/
theorem readInv_read {t : List Char} {old : Option (List Char)} {s : Shared} (h : ReadInv t old s) (q : Nat) {r : Reader}
    (hr : ∀ k got, r = .reading k got → if k = 0 then old.isSome = true ∧ got <+: old.getD [] else Mix t got)
    (he : ∀ got, r = .finished got → got = none ∨ got = old ∨ ∃ c, got = some c ∧ Mix t c) : ReadInv t old (s.setR q r) := by
  refine ⟨h.zero, h.next, h.writes, h.opens, h.mix, h.bound, ?_, ?_⟩
  · intro q' k got hq
    rcases update_reader hq with ⟨-, e⟩ | e
    · exact hr k got e
    · exact h.reads q' k got e
  · intro q' got hq
    rcases update_reader hq with ⟨-, e⟩ | e
    · exact he got e
    · exact h.ends q' got e

theorem readInv_step {t : List Char} {old : Option (List Char)} {s s' : Shared} (h : ReadInv t old s) (hst : SharedStep (fun _ => t) s s') :
    ReadInv t old s' := by
  cases hst with
  | checkNo p hp hc => exact readInv_move h p (by simp) (cur' := s.cur) (by rw [hc]; simp)
  | checkYes p k hp hc => exact readInv_move h p (by simp) (cur' := s.cur) (fun e => ⟨e, by simp⟩)
  | removeOk p k hp hc => exact readInv_move h p (by simp) (cur' := none) (by simp)
  | removeFails p hp hc => exact readInv_move h p (by simp) (cur' := s.cur) (fun e => ⟨e, by simp⟩)
  | openNew p hp hc =>
    exact readInv_write h p (by have := h.next; omega) (Mix.nil t) (Nat.zero_le _) (cur' := some s.next)
      (fun e => by have := h.next; injection e with e; omega) (Nat.succ_pos _)
  | openOld p k hp hc =>
    refine readInv_write h p ?_ (Mix.nil t) (Nat.zero_le _) (cur' := s.cur) id h.next
    rintro rfl
    exact (h.opens hc).2 p hp
  | write p k pos m hp hm hle =>
    have hk := h.writes p k pos hp
    exact readInv_write h p hk ((h.mix k hk).patched hle) hle (cur' := s.cur) id h.next
  | close p k hp => exact readInv_move h p (by simp) (cur' := s.cur) (fun e => ⟨e, by simp⟩)
  | crash p hp => exact readInv_move h p (by simp) (cur' := s.cur) (fun e => ⟨e, by simp⟩)
  | readOpen q k hq hc =>
    refine readInv_read h q ?_ (by simp)
    intro k' got e
    cases e
    split
    · rename_i hk
      subst hk
      exact ⟨(h.opens hc).1, List.nil_prefix⟩
    · exact Mix.nil t
  | readFails q hq hc => exact readInv_read h q (by simp) (by rintro got e; cases e; exact .inl rfl)
  | readMore q k got m hq hm =>
    refine readInv_read h q ?_ (by simp)
    intro k' got' e
    have hr := h.reads q k got hq
    cases e
    split
    · rename_i hk
      subst hk
      rw [if_pos rfl] at hr
      refine ⟨hr.1, ?_⟩
      rw [h.zero]
      obtain ⟨z, hz⟩ := hr.2
      rw [← hz, List.drop_left, List.prefix_append_right_inj]
      exact List.take_prefix _ _
    · rename_i hk
      rw [if_neg hk] at hr
      exact (h.mix k hk).append hr m
  | readEnd q k got hq hl =>
    refine readInv_read h q (by simp) ?_
    intro got' e
    cases e
    have hr := h.reads q k got hq
    split at hr
    · rename_i hk
      subst hk
      right; left
      rw [h.zero] at hl
      have : got = old.getD [] := hr.2.eq_of_length_le hl
      obtain ⟨c, rfl⟩ := Option.isSome_iff_exists.1 hr.1
      rw [this]
      rfl
    · exact .inr (.inr ⟨got, rfl, hr⟩)

/-! ## Concrete executions -/

/-- The next call of a writer (with a number of characters), or of a reader. -/
inductive Act
  | w (p n : Nat)
  | r (q n : Nat)
  | rEnd (q : Nat)

/-- The state after one call, if it is possible. -/
def Shared.act (text : Nat → List Char) (s : Shared) : Act → Option Shared
  | .w p n => match s.writer p, s.cur with
    | .check, none => some (s.setW p .openFile)
    | .check, some _ => some (s.setW p .remove)
    | .remove, some _ => some { s.setW p .openFile with cur := none }
    | .remove, none => some (s.setW p .failed)
    | .openFile, none => some { s.setW p (.writing s.next 0) with
        inode := Function.update s.inode s.next [], cur := some s.next, next := s.next + 1 }
    | .openFile, some k => some { s.setW p (.writing k 0) with inode := Function.update s.inode k [] }
    | .writing k pos, _ =>
      if 0 < n ∧ pos + n ≤ (text p).length then some { s.setW p (.writing k (pos + n)) with
        inode := Function.update s.inode k (patch (s.inode k) pos (((text p).drop pos).take n)) }
      else if pos = (text p).length then some (s.setW p .done) else none
    | _, _ => none
  | .r q n => match s.reader q, s.cur with
    | .start, some k => some (s.setR q (.reading k []))
    | .start, none => some (s.setR q (.finished none))
    | .reading k got, _ => if 0 < n then some (s.setR q (.reading k (got ++ ((s.inode k).drop got.length).take n))) else none
    | .finished _, _ => none
  | .rEnd q => match s.reader q with
    | .reading k got => if (s.inode k).length ≤ got.length then some (s.setR q (.finished (some got))) else none
    | _ => none

theorem act_step {text : Nat → List Char} {s s' : Shared} {a : Act} (h : s.act text a = some s') : SharedStep text s s' := by
  cases a with
  | w p n =>
    simp only [Shared.act] at h
    split at h
    · rename_i h1 h2; cases h; exact .checkNo s p h1 h2
    · rename_i k h1 h2; cases h; exact .checkYes s p k h1 h2
    · rename_i k h1 h2; cases h; exact .removeOk s p k h1 h2
    · rename_i h1 h2; cases h; exact .removeFails s p h1 h2
    · rename_i h1 h2; cases h; exact .openNew s p h1 h2
    · rename_i k h1 h2; cases h; exact .openOld s p k h1 h2
    · rename_i k pos h1
      split at h
      · rename_i hn; cases h; exact .write s p k pos n h1 hn.1 hn.2
      · split at h
        · rename_i hp; cases h; subst hp; exact .close s p k h1
        · cases h
    · cases h
  | r q n =>
    simp only [Shared.act] at h
    split at h
    · rename_i k h1 h2; cases h; exact .readOpen s q k h1 h2
    · rename_i h1 h2; cases h; exact .readFails s q h1 h2
    · rename_i k got h1
      split at h
      · rename_i hn; cases h; exact .readMore s q k got n h1 hn
      · cases h
    · cases h
  | rEnd q =>
    simp only [Shared.act] at h
    split at h
    · rename_i k got h1
      split at h
      · rename_i hl; cases h; exact .readEnd s q k got h1 hl
      · cases h
    · cases h

theorem acts_reached {text : Nat → List Char} : ∀ (as : List Act) {s s' : Shared}, as.foldlM (Shared.act text) s = some s' →
    Relation.ReflTransGen (SharedStep text) s s'
  | [], s, s', h => by
    simp only [List.foldlM_nil, Option.pure_def, Option.some.injEq] at h
    rw [h]
  | a :: as, s, s', h => by
    simp only [List.foldlM_cons, Option.bind_eq_bind, Option.bind_eq_some_iff] at h
    obtain ⟨m, h1, h2⟩ := h
    exact .head (act_step h1) (acts_reached as h2)

/-- The readable part of a state. -/
def Shared.view (s : Shared) (n : Nat) : Option (List Char) × List Writer × Reader := (s.file, (List.range n).map s.writer, s.reader 0)

theorem exec_view {text : Nat → List Char} {first : Writer} {n : Nat} {old : Option (List Char)} (as : List Act)
    {v : Option (List Char) × List Writer × Reader}
    (h : (as.foldlM (Shared.act text) (Shared.init first n old)).map (fun s => s.view n) = some v) :
    ∃ s : Shared, s.Reached text first n old ∧ s.view n = v := by
  obtain ⟨s, hs, hv⟩ := Option.map_eq_some_iff.1 h
  exact ⟨s, acts_reached as hs, hv⟩

/-- Processes that take no part stay so. -/
theorem stays_idle {text : Nat → List Char} {first : Writer} {n : Nat} {old : Option (List Char)} {s : Shared} (hs : s.Reached text first n old)
    {p : Nat} (hp : n ≤ p) : s.writer p = .idle := by
  induction hs with
  | refl => simp only [Shared.init]; rw [if_neg (by omega)]
  | tail _ hst ih =>
    have key : ∀ (s : Shared) q w, s.writer p = .idle → s.writer q ≠ .idle → Function.update s.writer q w p = .idle := by
      intro s q w h h'
      rw [Function.update_of_ne (by rintro rfl; exact h' h)]
      exact h
    cases hst with
    | checkNo q hq hc => exact key _ q _ ih (by simp [hq])
    | checkYes q k hq hc => exact key _ q _ ih (by simp [hq])
    | removeOk q k hq hc => exact key _ q _ ih (by simp [hq])
    | removeFails q hq hc => exact key _ q _ ih (by simp [hq])
    | openNew q hq hc => exact key _ q _ ih (by simp [hq])
    | openOld q k hq hc => exact key _ q _ ih (by simp [hq])
    | write q k pos m hq hm hle => exact key _ q _ ih (by simp [hq])
    | close q k hq => exact key _ q _ ih (by simp [hq])
    | crash q hq => exact key _ q _ ih hq
    | readOpen q k hq hc => exact ih
    | readFails q hq hc => exact ih
    | readMore q k got m hq hm => exact ih
    | readEnd q k got hq hl => exact ih

/-! ## The properties -/

/-- **Readers.** While any number of processes write the same record, a reader finds no file, or a damaged one, or the file that was there before
the first process started, complete, or the new record, complete: never anything else. -/
theorem C127_readers (pk : Pickle) {g : List Char → List Char} (hg : ∀ t, IsNumberText t → IsNumberText (g t)) {r : Rec}
    {arrays : List (List Nat)} (hr : RecOK r arrays) {t : List Char} (ht : IsJsonText pk g r arrays t) {n : Nat} {old : Option (List Char)}
    {s : Shared} (hs : s.Reached (fun _ => t) .check n old) {q : Nat} {got : Option (List Char)} (hq : s.reader q = .finished got) :
    loadGot pk got arrays = .error .fileNotFound ∨ loadGot pk got arrays = .error .jsonDecode ∨ got = old ∨ got = some t := by
  have hinv : ReadInv t old s := by
    clear hq
    induction hs with
    | refl => exact readInv_init t n old
    | tail _ hst ih => exact readInv_step ih hst
  rw [IsJsonText, dump_json_ok pk _ hr rfl] at ht
  simp only [Function.update_self, Option.some.injEq] at ht
  rcases hinv.ends q got hq with rfl | e | ⟨c, rfl, hm⟩
  · exact .inl rfl
  · exact .inr (.inr (.inl e))
  · rcases hm.cases with e | hz | ⟨z, hz, hne⟩
    · exact .inr (.inr (.inr (by rw [e])))
    · right; left
      unfold loadGot loadDict
      rw [if_pos (show serOf (some sJson) [] = sJson from rfl)]
      dsimp only
      rw [decode_nul hz]
      rfl
    · right; left
      unfold loadGot loadDict
      rw [if_pos (show serOf (some sJson) [] = sJson from rfl)]
      dsimp only
      rw [decode_prefix _ (plainRec_ok hg hr) c z (ht.trans hz) hne]
      rfl

/-- **What is left.** When all processes that write the same text have come to an end, and none was killed, the file is there and complete, and
at least one of them has not raised. -/
theorem C127_left {t : List Char} {first : Writer} (hf : first = .check ∨ first = .openFile) {n : Nat} (hn : 0 < n) {old : Option (List Char)}
    {s : Shared} (hs : s.Reached (fun _ => t) first n old) (hover : s.Over) : s.file = some t ∧ ∃ p, s.writer p = .done := by
  have hinv : LeftInv t n s := by
    clear hover
    induction hs with
    | refl => exact leftInv_init hf n old
    | tail _ hst ih => exact leftInv_step ih hst
  have h0 := hinv.part 0 hn
  cases hc : s.cur with
  | none =>
    exfalso
    rcases hinv.gone hc with ⟨p, hp⟩ | ⟨p, hp⟩ | hp
    · rcases hover p with e | e | e <;> rw [hp] at e <;> cases e
    · rcases hover p with e | e | e <;> rw [hp] at e <;> cases e
    · rcases hp 0 with e | e
      · exact h0 e
      · rcases hover 0 with e' | e' | e' <;> rw [e] at e' <;> cases e'
  | some k =>
    rcases hinv.full k hc with ⟨e, hd⟩ | ⟨p, pos, hp, -⟩ | ⟨p, hp⟩ | hp
    · exact ⟨by rw [Shared.file, hc, Option.map_some, e], hd⟩
    · exfalso
      rcases hover p with e | e | e <;> rw [hp] at e <;> cases e
    · exfalso
      rcases hover p with e | e | e <;> rw [hp] at e <;> cases e
    · exfalso
      have := hp 0
      rcases hover 0 with e | e | e
      · exact h0 e
      · rw [e] at this; simp [Writer.Early] at this
      · rw [e] at this; simp [Writer.Early] at this

/-- **A race.** When the file exists and two processes write it, one of them can raise `FileNotFoundError`: both have seen the file, and the other
one removes it first. -/
theorem C127_race (text : Nat → List Char) (old : List Char) : ∃ s : Shared, s.Reached text .check 2 (some old) ∧ s.writer 1 = .failed := by
  obtain ⟨s, hs, hv⟩ := exec_view (text := text) (first := .check) (n := 2) (old := some old) [.w 0 0, .w 1 0, .w 0 0, .w 1 0]
    (v := (none, [.openFile, .failed], .start)) rfl
  refine ⟨s, hs, ?_⟩
  simp only [Shared.view, Prod.mk.injEq] at hv
  have h1 := congrArg (fun l => l[1]?) hv.2.1
  simpa only [List.range_succ, List.range_zero, List.nil_append, List.cons_append, List.map_cons, List.map_nil, List.getElem?_cons_succ,
    List.getElem?_cons_zero, Option.some.injEq] using h1

/-- **A complete file disappears for a while.** While one process writes the record again, a reader that would have found it complete before gets
`FileNotFoundError`, or finds a damaged file. -/
theorem C127_disappears (pk : Pickle) (t : List Char) (arrays : List (List Nat)) :
    (∃ s : Shared, s.Reached (fun _ => t) .check 1 (some t) ∧ s.reader 0 = .finished none ∧ loadGot pk none arrays = .error .fileNotFound) ∧
    (∃ s : Shared, s.Reached (fun _ => t) .check 1 (some t) ∧ s.reader 0 = .finished (some []) ∧
      loadGot pk (some []) arrays = .error .jsonDecode) := by
  obtain ⟨s, hs, hv⟩ := exec_view (text := fun _ => t) (first := .check) (n := 1) (old := some t) [.w 0 0, .w 0 0, .r 0 0]
    (v := (none, [.openFile], .finished none)) rfl
  obtain ⟨s', hs', hv'⟩ := exec_view (text := fun _ => t) (first := .check) (n := 1) (old := some t) [.w 0 0, .w 0 0, .w 0 0, .r 0 0, .rEnd 0]
    (v := (some [], [.writing 1 0], .finished (some []))) rfl
  simp only [Shared.view, Prod.mk.injEq] at hv hv'
  exact ⟨⟨s, hs, hv.2.2, rfl⟩, ⟨s', hs', hv'.2.2, rfl⟩⟩

/-- Two records which differ in two places, as two computations of one result do in the times they took. -/
def mixText : Nat → List Char
  | 0 => "{\"a\": 1, \"b\": 1}".toList
  | _ => "{\"a\": 2, \"b\": 2}".toList

theorem mix_loads (pk : Pickle) : loadGot pk (some "{\"a\": 2, \"b\": 1}".toList) [] =
    .ok (.dict [([97], .j (.num ['2'])), ([98], .j (.num ['1']))]) := by
  have hok : (J.obj [([97], .num ['2']), ([98], .num ['1'])]).OK :=
    ⟨by decide, by simp [StrOK], ⟨[], ['2'], [], [], rfl, .inl rfl, .inr ⟨'2', [], rfl, by decide, by decide, by simp [Digits]⟩, .inl rfl, .inl rfl⟩,
      by simp [StrOK], ⟨[], ['1'], [], [], rfl, .inl rfl, .inr ⟨'1', [], rfl, by decide, by decide, by simp [Digits]⟩, .inl rfl, .inl rfl⟩, trivial⟩
  have he : encJ (J.obj [([97], .num ['2']), ([98], .num ['1'])]) = "{\"a\": 2, \"b\": 1}".toList := by decide +kernel
  unfold loadGot loadDict
  rw [if_pos (show serOf (some sJson) [] = sJson from rfl)]
  dsimp only
  rw [← he, decode_encode _ hok _ (Nat.le_add_right _ _)]
  rfl

/-- **Different records are mixed.** If the records differ, the file can be left as a mixture that no process has written, and it is not taken for
damaged. -/
theorem C127_mixed (pk : Pickle) : ∃ s : Shared, s.Reached mixText .check 2 none ∧ s.Over ∧ ∃ t, s.file = some t ∧ t ≠ mixText 0 ∧ t ≠ mixText 1 ∧
    loadGot pk (some t) [] = .ok (.dict [([97], .j (.num ['2'])), ([98], .j (.num ['1']))]) := by
  obtain ⟨s, hs, hv⟩ := exec_view (text := mixText) (first := .check) (n := 2) (old := none)
    [.w 0 0, .w 1 0, .w 0 0, .w 1 0, .w 0 8, .w 1 16, .w 0 8, .w 0 0, .w 1 0]
    (v := (some "{\"a\": 2, \"b\": 1}".toList, [.done, .done], .start)) (by decide +kernel)
  simp only [Shared.view, Prod.mk.injEq, List.range_succ, List.range_zero, List.nil_append, List.cons_append, List.map_cons, List.map_nil,
    List.cons.injEq] at hv
  refine ⟨s, hs, ?_, _, hv.1, by decide +kernel, by decide +kernel, mix_loads pk⟩
  intro p
  match p with
  | 0 => exact .inr (.inl hv.2.1.1)
  | 1 => exact .inr (.inl hv.2.1.2.1)
  | p + 2 => exact .inl (stays_idle hs (by omega))

/-- The hypotheses of `C127_readers` are met. -/
example : RecOK exRec exArrays ∧ (∀ t, IsNumberText t → IsNumberText (exFloat t)) ∧
    ∃ t, IsJsonText exPickle exFloat exRec exArrays t := by
  refine ⟨exRec_ok, exFloat_ok, ?_⟩
  unfold IsJsonText
  rw [dump_json_ok exPickle _ exRec_ok rfl]
  exact ⟨encJ (J.obj (plainRec exFloat exRec)), by simp only [Function.update_self]⟩

/-- The hypotheses of `C127_left` are met: two processes write the same text at the same time into one inode; a reader gets it half written, with
zeros in front, but in the end it is complete. -/
example : ∃ s : Shared, s.Reached (fun _ => mixText 0) .check 2 none ∧ s.Over ∧ s.file = some (mixText 0) ∧
    s.reader 0 = .finished (some ['\x00', '\x00', '\x00', '\x00', ':', ' ', '1', ',']) := by
  obtain ⟨s, hs, hv⟩ := exec_view (text := fun _ => mixText 0) (first := .check) (n := 2) (old := none)
    [.w 0 0, .w 1 0, .w 0 0, .w 0 4, .w 1 0, .w 0 4, .r 0 0, .r 0 20, .rEnd 0, .w 0 8, .w 1 16, .w 0 0, .w 1 0]
    (v := (some (mixText 0), [.done, .done], .finished (some ['\x00', '\x00', '\x00', '\x00', ':', ' ', '1', ',']))) (by decide +kernel)
  simp only [Shared.view, Prod.mk.injEq, List.range_succ, List.range_zero, List.nil_append, List.cons_append, List.map_cons, List.map_nil,
    List.cons.injEq] at hv
  refine ⟨s, hs, ?_, hv.1, hv.2.2⟩
  intro p
  match p with
  | 0 => exact .inr (.inl hv.2.1.1)
  | 1 => exact .inr (.inl hv.2.1.2.1)
  | p + 2 => exact .inl (stays_idle hs (by omega))

end Verif

import Verif.Spec.Json
import Mathlib.Tactic.IntervalCases

namespace Verif

theorem hexVal_hexDigit {n : Nat} (h : n < 16) : hexVal (hexDigit n) = some n := by
  interval_cases n <;> decide

theorem scanHex4_hex4 {n : Nat} (h : n < 65536) (r : List Char) :
    scanHex4 (hexDigit (n / 4096 % 16) :: hexDigit (n / 256 % 16) :: hexDigit (n / 16 % 16) :: hexDigit (n % 16) :: r)
      = some (n, r) := by
  have h1 : n / 4096 % 16 < 16 := Nat.mod_lt _ (by omega)
  have h2 : n / 256 % 16 < 16 := Nat.mod_lt _ (by omega)
  have h3 : n / 16 % 16 < 16 := Nat.mod_lt _ (by omega)
  have h4 : n % 16 < 16 := Nat.mod_lt _ (by omega)
  simp only [scanHex4, hexVal_hexDigit h1, hexVal_hexDigit h2, hexVal_hexDigit h3, hexVal_hexDigit h4,
    Option.bind_eq_bind, Option.bind_some]
  congr 2
  omega

theorem ofNat_toNat {c : Nat} (h : c ≤ 126) : (Char.ofNat c).toNat = c := by
  have : c.isValidChar := by left; omega
  simp [Char.ofNat, this, Char.toNat, Char.ofNatAux]

/-- The text after a string's code point never looks like a low-surrogate escape unless the next code point is one. -/
def NoLow (s : List Char) : Prop :=
  ∀ rest2, s = '\\' :: 'u' :: rest2 → ∃ u2 r, scanHex4 rest2 = some (u2, r) ∧ ¬ (56320 ≤ u2 ∧ u2 ≤ 57343)

theorem scanUnicode_plain {n : Nat} (h : n < 65536) (r : List Char)
    (hr : 55296 ≤ n ∧ n ≤ 56319 → NoLow r) :
    scanUnicode (hexDigit (n / 4096 % 16) :: hexDigit (n / 256 % 16) :: hexDigit (n / 16 % 16) ::
      hexDigit (n % 16) :: r) = some (n, r) := by
  unfold scanUnicode
  rw [scanHex4_hex4 h]
  dsimp only
  split
  · rename_i hs
    split
    · rename_i rest2
      obtain ⟨u2, r2, e, hlow⟩ := hr hs rest2 rfl
      rw [e]
      dsimp only
      rw [if_neg hlow]
    · rfl
  · rfl

theorem scanUnicode_pair {hi lo : Nat} (h1 : 55296 ≤ hi ∧ hi ≤ 56319) (h2 : 56320 ≤ lo ∧ lo ≤ 57343)
    (r : List Char) :
    scanUnicode (hexDigit (hi / 4096 % 16) :: hexDigit (hi / 256 % 16) :: hexDigit (hi / 16 % 16) ::
      hexDigit (hi % 16) :: '\\' :: 'u' :: hexDigit (lo / 4096 % 16) :: hexDigit (lo / 256 % 16) ::
      hexDigit (lo / 16 % 16) :: hexDigit (lo % 16) :: r) =
      some (65536 + (hi - 55296) * 1024 + (lo - 56320), r) := by
  unfold scanUnicode
  rw [scanHex4_hex4 (by omega)]
  dsimp only
  rw [if_pos h1]
  split
  · rename_i rest2 heq
    injection heq with _ heq
    injection heq with _ heq
    rw [← heq, scanHex4_hex4 (by omega)]
    dsimp only
    rw [if_pos h2]
  · rename_i hne
    exact absurd rfl (hne _)

/-- What follows a string whose first code point is not a low surrogate. -/
theorem noLow_enc (s : List Nat) (r : List Char)
    (h : ∀ d s', s = d :: s' → d < 1114112 ∧ ¬ (56320 ≤ d ∧ d ≤ 57343)) :
    NoLow (s.flatMap encChar ++ '"' :: r) := by
  intro rest2 he
  cases s with
  | nil => simp at he
  | cons d s' =>
    obtain ⟨hd, hl⟩ := h d s' rfl
    simp only [List.flatMap_cons, List.append_assoc] at he
    generalize List.flatMap encChar s' ++ '"' :: r = tl at he
    unfold encChar at he
    split at he
    · simp at he
    split at he
    · simp at he
    split at he
    · simp at he
    split at he
    · simp at he
    split at he
    · simp at he
    split at he
    · simp at he
    split at he
    · simp at he
    split at he
    · rename_i h92 _ _ _ _ _ hr
      simp only [List.cons_append, List.nil_append] at he
      injection he with he _
      exfalso
      apply h92
      have := ofNat_toNat (c := d) hr.2
      rw [he] at this
      exact this.symm
    split at he
    · rename_i hlt
      simp only [hex4, List.cons_append, List.nil_append] at he
      injection he with _ he
      injection he with _ he
      subst he
      exact ⟨_, _, scanHex4_hex4 hlt _, hl⟩
    · rename_i hbig
      have r1 : 55296 ≤ 55296 + (d - 65536) / 1024 ∧ 55296 + (d - 65536) / 1024 ≤ 56319 := by omega
      generalize 55296 + (d - 65536) / 1024 = hi at r1 he
      simp only [hex4, List.cons_append, List.nil_append] at he
      injection he with _ he
      injection he with _ he
      subst he
      exact ⟨_, _, scanHex4_hex4 (by omega) _, by omega⟩

theorem strOK_head {c : Nat} {s : List Nat} (h : StrOK (c :: s)) : c < 1114112 := by
  cases s with
  | nil => exact h
  | cons d s => exact h.1

theorem strOK_tail {c : Nat} {s : List Nat} (h : StrOK (c :: s)) : StrOK s := by
  cases s with
  | nil => trivial
  | cons d s => exact h.2.2

theorem strOK_noLow {c : Nat} {s : List Nat} (h : StrOK (c :: s)) (hc : 55296 ≤ c ∧ c ≤ 56319) (r : List Char) :
    NoLow (s.flatMap encChar ++ '"' :: r) := by
  apply noLow_enc
  intro d s' e
  subst e
  exact ⟨strOK_head (strOK_tail h), fun hd => h.2.1 ⟨hc, hd⟩⟩

/-- Reading back an encoded string. -/
theorem scanStr_enc (s : List Nat) : ∀ (f : Nat) (r : List Char), StrOK s →
    (s.flatMap encChar).length + 1 ≤ f → scanStr f (s.flatMap encChar ++ '"' :: r) = some (s, r) := by
  induction s with
  | nil =>
    intro f r _ hf
    obtain ⟨g, rfl⟩ : ∃ g, f = g + 1 := ⟨f - 1, by simp at hf; omega⟩
    simp [scanStr]
  | cons c s ih =>
    intro f r hok hf
    obtain ⟨g, rfl⟩ : ∃ g, f = g + 1 := ⟨f - 1, by omega⟩
    have hc := strOK_head hok
    have hs := strOK_tail hok
    simp only [List.flatMap_cons, List.length_append] at hf
    have hpos : 1 ≤ (encChar c).length := by
      unfold encChar
      repeat' split
      all_goals simp [hex4]
    have ih' := ih g r hs (by omega)
    have hnl := fun h => strOK_noLow hok h r
    simp only [List.flatMap_cons, List.append_assoc]
    generalize List.flatMap encChar s ++ '"' :: r = tl at ih' hnl ⊢
    unfold encChar
    split
    · subst c; simp [scanStr, escVal, ih']
    split
    · subst c; simp [scanStr, escVal, ih']
    split
    · subst c; simp [scanStr, escVal, ih']
    split
    · subst c; simp [scanStr, escVal, ih']
    split
    · subst c; simp [scanStr, escVal, ih']
    split
    · subst c; simp [scanStr, escVal, ih']
    split
    · subst c; simp [scanStr, escVal, ih']
    split
    · rename_i h34 h92 _ _ _ _ _ hr
      have e := ofNat_toNat (c := c) hr.2
      have n1 : Char.ofNat c ≠ '"' := by
        intro h; rw [h] at e; exact h34 e.symm
      have n2 : Char.ofNat c ≠ '\\' := by
        intro h; rw [h] at e; exact h92 e.symm
      simp only [List.cons_append, List.nil_append, scanStr]
      rw [if_neg n1, if_neg n2, e, if_neg (by omega), ih']
      rfl
    split
    · rename_i hlt
      simp only [hex4, List.cons_append, List.nil_append, scanStr]
      rw [if_neg (by decide), if_pos trivial, if_pos trivial, scanUnicode_plain hlt _ hnl]
      dsimp only
      rw [ih']
      rfl
    · rename_i hbig
      have e : 65536 + ((55296 + (c - 65536) / 1024) - 55296) * 1024 + ((56320 + (c - 65536) % 1024) - 56320) = c := by
        omega
      have r1 : 55296 ≤ 55296 + (c - 65536) / 1024 ∧ 55296 + (c - 65536) / 1024 ≤ 56319 := by omega
      have r2 : 56320 ≤ 56320 + (c - 65536) % 1024 ∧ 56320 + (c - 65536) % 1024 ≤ 57343 := by omega
      generalize 55296 + (c - 65536) / 1024 = hi at e r1 ⊢
      generalize 56320 + (c - 65536) % 1024 = lo at e r2 ⊢
      simp only [hex4, List.cons_append, List.nil_append, scanStr]
      rw [if_neg (by decide), if_pos trivial, if_pos trivial, scanUnicode_pair r1 r2]
      dsimp only
      rw [ih', e]
      rfl

end Verif

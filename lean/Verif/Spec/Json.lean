import Verif.Model.Json

/-!
# What counts as a storable record

Independent description of the values Python can hand to `json.dumps`: texts of numbers follow the JSON grammar (every
`repr` of a finite Python number does), strings are sequences of code points, dictionaries have distinct keys.
-/

namespace Verif

/-- A decimal digit. -/
abbrev DecDigit (c : Char) : Prop := c ∈ ['0', '1', '2', '3', '4', '5', '6', '7', '8', '9']

/-- Only decimal digits. -/
def Digits (s : List Char) : Prop := ∀ c ∈ s, DecDigit c

/-- The number grammar: optional minus, integer part without leading zeros, optional fraction, optional exponent. -/
def IsNumberText (t : List Char) : Prop :=
  ∃ sg ip fp ep : List Char, t = sg ++ (ip ++ (fp ++ ep)) ∧
    (sg = [] ∨ sg = ['-']) ∧
    (ip = ['0'] ∨ ∃ d ds, ip = d :: ds ∧ d ≠ '0' ∧ DecDigit d ∧ Digits ds) ∧
    (fp = [] ∨ ∃ d ds, fp = '.' :: d :: ds ∧ DecDigit d ∧ Digits ds) ∧
    (ep = [] ∨ ∃ e s d ds, ep = e :: (s ++ d :: ds) ∧ (e = 'e' ∨ e = 'E') ∧
      (s = [] ∨ s = ['+'] ∨ s = ['-']) ∧ DecDigit d ∧ Digits ds)

/-- A string without a high surrogate directly followed by a low surrogate, made of code points. -/
def StrOK : List Nat → Prop
  | [] => True
  | [c] => c < 1114112
  | c :: d :: s => c < 1114112 ∧ ¬ ((55296 ≤ c ∧ c ≤ 56319) ∧ (56320 ≤ d ∧ d ≤ 57343)) ∧ StrOK (d :: s)

mutual
/-- A value that can be stored. -/
def J.OK : J → Prop
  | .num t => IsNumberText t
  | .str s => StrOK s
  | .arr xs => elemsOK xs
  | .obj kvs => (kvs.map Prod.fst).Nodup ∧ membersOK kvs
  | _ => True
/-- All elements can be stored. -/
def elemsOK : List J → Prop
  | [] => True
  | x :: xs => x.OK ∧ elemsOK xs
/-- All members can be stored. -/
def membersOK : List (List Nat × J) → Prop
  | [] => True
  | (k, v) :: kvs => StrOK k ∧ v.OK ∧ membersOK kvs
end

end Verif

import Verif.Py

/-!
# Model of Python's `json.dumps` / `json.loads` (default arguments)

The library stores its cached records with these two functions (base/_base.py:217, 254). The model follows the pure
Python implementation in the standard library (`json/encoder.py`, `json/decoder.py`, `json/scanner.py`). Python strings
are lists of code points; the text of a file is a list of characters (all ASCII, because `ensure_ascii` is on).
Numbers are kept as their decimal text: that `float(repr(x)) == x` is trusted. `fuel` bounds the nesting depth of the
parser and is the only deviation (Python recurses freely up to its recursion limit).
-/

namespace Verif

/-- A value of the `json` module. Numbers carry their text. Used for base/_base.py:216-220. -/
inductive J
  | null
  | bool (b : Bool)
  | num (text : List Char)
  | nan | inf | ninf
  | str (s : List Nat)
  | arr (xs : List J)
  | obj (kvs : List (List Nat × J))
  deriving Repr

/-! ## Encoder -/

/-- Hexadecimal digit (lower case), as produced by `'\\u{0:04x}'`. Used for base/_base.py:231-266. -/
def hexDigit (n : Nat) : Char := Char.ofNat (if n < 10 then 48 + n else 87 + n)

/-- `\uXXXX`. Used for base/_base.py:231-266. -/
def hex4 (n : Nat) : List Char :=
  ['\\', 'u', hexDigit (n / 4096 % 16), hexDigit (n / 256 % 16), hexDigit (n / 16 % 16), hexDigit (n % 16)]

/-- One code point, `py_encode_basestring_ascii` (json/encoder.py). -/
def encChar (c : Nat) : List Char :=
  if c = 34 then ['\\', '"']
  else if c = 92 then ['\\', '\\']
  else if c = 10 then ['\\', 'n']
  else if c = 13 then ['\\', 'r']
  else if c = 9 then ['\\', 't']
  else if c = 12 then ['\\', 'f']
  else if c = 8 then ['\\', 'b']
  else if 32 ≤ c ∧ c ≤ 126 then [Char.ofNat c]
  else if c < 65536 then hex4 c
  else hex4 (55296 + (c - 65536) / 1024) ++ hex4 (56320 + (c - 65536) % 1024)

/-- A string with its quotes. Used for base/_base.py:231-266. -/
def encStr (s : List Nat) : List Char := '"' :: (s.flatMap encChar ++ ['"'])

mutual
/-- `json.dumps(v)`. Used for base/_base.py:231-266. -/
def encJ : J → List Char
  | .null => ['n', 'u', 'l', 'l']
  | .bool true => ['t', 'r', 'u', 'e']
  | .bool false => ['f', 'a', 'l', 's', 'e']
  | .num t => t
  | .nan => ['N', 'a', 'N']
  | .inf => ['I', 'n', 'f', 'i', 'n', 'i', 't', 'y']
  | .ninf => ['-', 'I', 'n', 'f', 'i', 'n', 'i', 't', 'y']
  | .str s => encStr s
  | .arr xs => '[' :: encElems xs
  | .obj kvs => '{' :: encMembers kvs
/-- The elements of a list, after `[`. Used for base/_base.py:231-266. -/
def encElems : List J → List Char
  | [] => [']']
  | x :: xs => encJ x ++ encElemsTail xs
/-- Further elements. Used for base/_base.py:231-266. -/
def encElemsTail : List J → List Char
  | [] => [']']
  | x :: xs => ',' :: ' ' :: (encJ x ++ encElemsTail xs)
/-- The members of a dictionary, after `{`. Used for base/_base.py:231-266. -/
def encMembers : List (List Nat × J) → List Char
  | [] => ['}']
  | (k, v) :: kvs => encStr k ++ ':' :: ' ' :: (encJ v ++ encMembersTail kvs)
/-- Further members. Used for base/_base.py:231-266. -/
def encMembersTail : List (List Nat × J) → List Char
  | [] => ['}']
  | (k, v) :: kvs => ',' :: ' ' :: (encStr k ++ ':' :: ' ' :: (encJ v ++ encMembersTail kvs))
end

/-! ## Decoder. `none` stands for `JSONDecodeError`. -/

/-- Whitespace of the decoder: `[ \t\n\r]*`. Used for base/_base.py:197-228. -/
def isWs (c : Char) : Bool := c == ' ' || c == '\t' || c == '\n' || c == '\r'

/-- Skip whitespace. Used for base/_base.py:197-228. -/
def skipWs : List Char → List Char
  | [] => []
  | c :: cs => if isWs c then skipWs cs else c :: cs

/-- Decimal digit. Used for base/_base.py:197-228. -/
def isDig (c : Char) : Bool := decide (48 ≤ c.toNat) && decide (c.toNat ≤ 57)

/-- Longest run of digits and the rest. Used for base/_base.py:197-228. -/
def spanDigits : List Char → List Char × List Char
  | [] => ([], [])
  | c :: cs => if isDig c then ((spanDigits cs).1.cons c, (spanDigits cs).2) else ([], c :: cs)

/-- `0|[1-9]\d*`. Used for base/_base.py:197-228. -/
def scanNat : List Char → Option (List Char × List Char)
  | [] => none
  | c :: cs =>
    if c = '0' then some (['0'], cs)
    else if isDig c then some (c :: (spanDigits cs).1, (spanDigits cs).2)
    else none

/-- `-?(?:0|[1-9]\d*)`. Used for base/_base.py:197-228. -/
def scanInt (s : List Char) : Option (List Char × List Char) :=
  match s with
  | '-' :: cs => (scanNat cs).map (fun r => ('-' :: r.1, r.2))
  | _ => scanNat s

/-- `(\.\d+)?`. Used for base/_base.py:197-228. -/
def scanFrac (s : List Char) : List Char × List Char :=
  match s with
  | '.' :: cs => if (spanDigits cs).1 = [] then ([], s) else ('.' :: (spanDigits cs).1, (spanDigits cs).2)
  | _ => ([], s)

/-- Optional sign of the exponent. Used for base/_base.py:197-228. -/
def scanSign (s : List Char) : List Char × List Char :=
  match s with
  | '+' :: cs => (['+'], cs)
  | '-' :: cs => (['-'], cs)
  | _ => ([], s)

/-- `([eE][-+]?\d+)?`. Used for base/_base.py:197-228. -/
def scanExp (s : List Char) : List Char × List Char :=
  match s with
  | [] => ([], [])
  | c :: cs =>
    if c = 'e' ∨ c = 'E' then
      if (spanDigits (scanSign cs).2).1 = [] then ([], c :: cs)
      else (c :: ((scanSign cs).1 ++ (spanDigits (scanSign cs).2).1), (spanDigits (scanSign cs).2).2)
    else ([], c :: cs)

/-- `NUMBER_RE` (json/scanner.py). -/
def scanNumber (s : List Char) : Option (List Char × List Char) :=
  (scanInt s).map (fun i =>
    (i.1 ++ (scanFrac i.2).1 ++ (scanExp (scanFrac i.2).2).1, (scanExp (scanFrac i.2).2).2))

/-- Value of a hexadecimal digit. Used for base/_base.py:197-228. -/
def hexVal (c : Char) : Option Nat :=
  if 48 ≤ c.toNat ∧ c.toNat ≤ 57 then some (c.toNat - 48)
  else if 97 ≤ c.toNat ∧ c.toNat ≤ 102 then some (c.toNat - 87)
  else if 65 ≤ c.toNat ∧ c.toNat ≤ 70 then some (c.toNat - 55)
  else none

/-- `_decode_uXXXX` (json/decoder.py): four hexadecimal digits. -/
def scanHex4 (s : List Char) : Option (Nat × List Char) :=
  match s with
  | a :: b :: c :: d :: rest => do
    let a ← hexVal a; let b ← hexVal b; let c ← hexVal c; let d ← hexVal d
    some (a * 4096 + b * 256 + c * 16 + d, rest)
  | _ => none

/-- Value of a one-letter escape. Used for base/_base.py:197-228. -/
def escVal (c : Char) : Option Nat :=
  if c = '"' then some 34 else if c = '\\' then some 92 else if c = '/' then some 47
  else if c = 'b' then some 8 else if c = 'f' then some 12 else if c = 'n' then some 10
  else if c = 'r' then some 13 else if c = 't' then some 9 else none

/-- A `\u` escape, after `\u`: surrogate pairs are combined (`py_scanstring`). Used for base/_base.py:197-228. -/
def scanUnicode (s : List Char) : Option (Nat × List Char) :=
  match scanHex4 s with
  | none => none
  | some (u, rest) =>
    if 55296 ≤ u ∧ u ≤ 56319 then
      match rest with
      | '\\' :: 'u' :: rest2 =>
        match scanHex4 rest2 with
        | none => none
        | some (u2, rest3) =>
          if 56320 ≤ u2 ∧ u2 ≤ 57343 then some (65536 + (u - 55296) * 1024 + (u2 - 56320), rest3)
          else some (u, rest)
      | _ => some (u, rest)
    else some (u, rest)

/-- `py_scanstring` after the opening quote. Used for base/_base.py:197-228. -/
def scanStr : Nat → List Char → Option (List Nat × List Char)
  | 0, _ => none
  | _ + 1, [] => none
  | f + 1, c :: cs =>
    if c = '"' then some ([], cs)
    else if c = '\\' then
      match cs with
      | [] => none
      | e :: rest =>
        if e = 'u' then
          match scanUnicode rest with
          | none => none
          | some (u, rest) => (scanStr f rest).map (fun r => (u :: r.1, r.2))
        else
          match escVal e with
          | none => none
          | some v => (scanStr f rest).map (fun r => (v :: r.1, r.2))
    else if c.toNat < 32 then none
    else (scanStr f cs).map (fun r => (c.toNat :: r.1, r.2))

/-- `dict(pairs)`: a later pair with the same key replaces the value. Used for base/_base.py:197-228. -/
def dictOf (pairs : List (List Nat × J)) : List (List Nat × J) :=
  pairs.foldl (fun d p =>
    if d.any (fun q => q.1 == p.1) then d.map (fun q => if q.1 == p.1 then p else q) else d ++ [p]) []

/-- A literal and the rest. Used for base/_base.py:197-228. -/
def scanLit (lit : List Char) (v : J) (s : List Char) : Option (J × List Char) :=
  if lit.isPrefixOf s then some (v, s.drop lit.length) else none

mutual
/-- `scan_once` (json/scanner.py). -/
def parseJ : Nat → List Char → Option (J × List Char)
  | 0, _ => none
  | _ + 1, [] => none
  | f + 1, c :: cs =>
    if c = '"' then (scanStr (f + 1) cs).map (fun r => (.str r.1, r.2))
    else if c = '{' then (parseMembers f (skipWs cs)).map (fun r => (.obj (dictOf r.1), r.2))
    else if c = '[' then (parseElems f (skipWs cs)).map (fun r => (.arr r.1, r.2))
    else if c = 'n' then scanLit ['n', 'u', 'l', 'l'] .null (c :: cs)
    else if c = 't' then scanLit ['t', 'r', 'u', 'e'] (.bool true) (c :: cs)
    else if c = 'f' then scanLit ['f', 'a', 'l', 's', 'e'] (.bool false) (c :: cs)
    else match scanNumber (c :: cs) with
      | some (t, rest) => some (.num t, rest)
      | none =>
        if c = 'N' then scanLit ['N', 'a', 'N'] .nan (c :: cs)
        else if c = 'I' then scanLit ['I', 'n', 'f', 'i', 'n', 'i', 't', 'y'] .inf (c :: cs)
        else if c = '-' then scanLit ['-', 'I', 'n', 'f', 'i', 'n', 'i', 't', 'y'] .ninf (c :: cs)
        else none
/-- `JSONArray` (json/decoder.py) after `[` and whitespace. -/
def parseElems : Nat → List Char → Option (List J × List Char)
  | 0, _ => none
  | _ + 1, [] => none
  | f + 1, c :: cs =>
    if c = ']' then some ([], cs)
    else match parseJ f (c :: cs) with
      | none => none
      | some (v, rest) => (parseElemsTail f (skipWs rest)).map (fun r => (v :: r.1, r.2))
/-- `JSONArray` after an element and whitespace. Used for base/_base.py:197-228. -/
def parseElemsTail : Nat → List Char → Option (List J × List Char)
  | 0, _ => none
  | _ + 1, [] => none
  | f + 1, c :: cs =>
    if c = ']' then some ([], cs)
    else if c = ',' then
      match parseJ f (skipWs cs) with
      | none => none
      | some (v, rest) => (parseElemsTail f (skipWs rest)).map (fun r => (v :: r.1, r.2))
    else none
/-- `JSONObject` (json/decoder.py) after `{` and whitespace. -/
def parseMembers : Nat → List Char → Option (List (List Nat × J) × List Char)
  | 0, _ => none
  | _ + 1, [] => none
  | f + 1, c :: cs =>
    if c = '}' then some ([], cs)
    else if c = '"' then parseMember f cs
    else none
/-- A member after the opening quote of its key, and the members following it. Used for base/_base.py:197-228. -/
def parseMember : Nat → List Char → Option (List (List Nat × J) × List Char)
  | 0, _ => none
  | f + 1, cs =>
    match scanStr (f + 1) cs with
    | none => none
    | some (k, rest) =>
      match skipWs rest with
      | [] => none
      | d :: rest =>
        if d = ':' then
          match parseJ f (skipWs rest) with
          | none => none
          | some (v, rest) => (parseMembersTail f (skipWs rest)).map (fun r => ((k, v) :: r.1, r.2))
        else none
/-- `JSONObject` after a member and whitespace. Used for base/_base.py:197-228. -/
def parseMembersTail : Nat → List Char → Option (List (List Nat × J) × List Char)
  | 0, _ => none
  | _ + 1, [] => none
  | f + 1, c :: cs =>
    if c = '}' then some ([], cs)
    else if c = ',' then
      match skipWs cs with
      | [] => none
      | d :: rest => if d = '"' then parseMember f rest else none
    else none
end

/-- `json.loads(text)`: leading and trailing whitespace, nothing else after the value. Used for base/_base.py:197-228. -/
def decodeJ (fuel : Nat) (text : List Char) : Option J :=
  match parseJ fuel (skipWs text) with
  | none => none
  | some (v, rest) => if skipWs rest = [] then some v else none

end Verif

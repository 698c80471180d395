import Verif.Py
import Mathlib.Data.List.Sort
import Mathlib.Data.List.ProdSigma

/-!
# Model of the dictionary helpers of `smote_variants/base/_base.py`

A Python dictionary is an association list in insertion order with distinct keys.
-/

namespace Verif

/-- Python dictionaries. Used for base/_base.py:146-164 and base/_base.py:661-674. -/
abbrev Dict (κ V : Type) := List (κ × V)

/-- `d[key] = value`: overwrite in place or append. Used for base/_base.py:146-164. -/
def Dict.set {κ V : Type} [DecidableEq κ] : Dict κ V → κ → V → Dict κ V
  | [], k, v => [(k, v)]
  | (k', v') :: d, k, v => if k' = k then (k', v) :: d else (k', v') :: Dict.set d k v

/-- `d.get(key)`. Used for base/_base.py:661-674. -/
def Dict.get {κ V : Type} [DecidableEq κ] : Dict κ V → κ → Option V
  | [], _ => none
  | (k', v') :: d, k => if k' = k then some v' else Dict.get d k

/-- `d.keys()`. Used for base/_base.py:146-164. -/
def Dict.keys {κ V : Type} (d : Dict κ V) : List κ := d.map Prod.fst

/-- `coalesce`, base/_base.py:130-143 (`None` is `none`). -/
def coalesce {α : Type} (a b : Option α) : Option α :=
  match a with
  | none => b
  | some x => some x

/-- `coalesce_dict`, base/_base.py:146-164. -/
def coalesceDict {κ V : Type} [DecidableEq κ] (d0 : Option (Dict κ V)) (d1 : Dict κ V) : Dict κ V :=
  match d0 with
  | none => d1
  | some d0 => d0.foldl (fun r kv => r.set kv.1 kv.2) d1

mutual
/-- Literal values: numbers (also `None` and booleans, by a code), strings, dictionaries. Used for base/_base.py:120-125 and base/_base.py:119-127. -/
inductive PyVal
  | num (n : Int)
  | str (s : String)
  | dict (d : PyDict)
/-- Literal dictionaries with string keys, in insertion order. Used for base/_base.py:119-127 and base/_base.py:105-127. -/
inductive PyDict
  | nil
  | cons (k : String) (v : PyVal) (rest : PyDict)
end

/-- `len(d)`. Used for base/_base.py:120-125. -/
def PyDict.size : PyDict → Nat
  | .nil => 0
  | .cons _ _ r => r.size + 1

/-- `d.get(key)`. Used for base/_base.py:119-127. -/
def PyDict.lookup : PyDict → String → Option PyVal
  | .nil, _ => none
  | .cons k v r, q => if k = q then some v else r.lookup q

/-- `d[key]`. Used for base/_base.py:119-127. -/
def PyDict.getItem (d : PyDict) (k : String) : Res PyVal :=
  match d.lookup k with
  | some v => .ok v
  | none => .error .keyError

/-- `len(dict_1)` for an arbitrary literal: numbers have no length. Used for base/_base.py:120-125. -/
def PyVal.len : PyVal → Res Nat
  | .num _ => .error .typeError
  | .str s => .ok s.length
  | .dict d => .ok d.size

/-- `dict_1[key]` for an arbitrary literal: a string cannot be indexed by a string. Used for base/_base.py:119-127. -/
def PyVal.getItem : PyVal → String → Res PyVal
  | .num _, _ => .error .typeError
  | .str _, _ => .error .typeError
  | .dict d, k => d.getItem k

/-- Python `==` of a number or a string with an arbitrary literal. Used for base/_base.py:120-125. -/
def PyVal.atomEq : PyVal → PyVal → Bool
  | .num a, .num b => a == b
  | .str a, .str b => a == b
  | _, _ => false

mutual
/-- One iteration of the loop of `equal_dicts` for the value `v`, compared to `w = dict_1[key]`
(base/_base.py:120-125). -/
def equalVal : PyVal → PyVal → Res Bool
  | .dict d, w => do
      let n ← w.len
      if d.size ≠ n then return false
      equalItems d w
  | .num a, w => .ok (PyVal.atomEq (.num a) w)
  | .str a, w => .ok (PyVal.atomEq (.str a) w)
/-- The loop of `equal_dicts` over `dict_0.items()`, base/_base.py:119-127. -/
def equalItems : PyDict → PyVal → Res Bool
  | .nil, _ => .ok true
  | .cons k v r, e => do
      let w ← e.getItem k
      let b ← equalVal v w
      if b then equalItems r e else return false
end

/-- `equal_dicts`, base/_base.py:105-127. -/
def equalDicts (d e : PyDict) : Res Bool := equalVal (.dict d) (.dict e)

/-- `itertools.product(*values)`. Used for base/_base.py:661-674. -/
def product {V : Type} : List (List V) → List (List V)
  | [] => [[]]
  | vs :: rest => vs.flatMap (fun v => (product rest).map (v :: ·))

/-- `generate_parameter_combinations(dictionary, raw=False)`, base/_base.py:661-674. -/
def generateCombinations {κ V : Type} [LinearOrder κ] (d : Dict κ (List V)) : List (Dict κ V) :=
  let keys := d.keys.insertionSort (· ≤ ·)
  let values := keys.map (fun k => (Dict.get d k).getD [])
  (product values).map (fun p => List.zip keys p)

/-- `generate_parameter_combinations`, base/_base.py:661-674: `raw` returns the dictionary itself. -/
def generateParameterCombinations {κ V : Type} [LinearOrder κ] (d : Dict κ (List V)) (raw : Bool) :
    Dict κ (List V) ⊕ List (Dict κ V) :=
  if raw then .inl d else .inr (generateCombinations d)

end Verif

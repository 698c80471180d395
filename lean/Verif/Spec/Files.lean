import Verif.Model.Files
import Verif.Spec.Json

/-!
# Storable records and the contract of `pickle`
-/

namespace Verif

/-- A record the library stores: distinct keys; `arrays` lists exactly the keys holding arrays; everything inside is
storable. -/
structure RecOK (r : Rec) (arrays : List (List Nat)) : Prop where
  keys : (r.map Prod.fst).Nodup
  strs : ∀ p ∈ r, StrOK p.1
  plain : ∀ p ∈ r, ∀ v, p.2 = PV.j v → v.OK
  entries : ∀ p ∈ r, ∀ e, p.2 = PV.nd e → e.OK
  arraysNodup : arrays.Nodup
  arraysIn : ∀ k ∈ arrays, ∃ e, (k, PV.nd e) ∈ r
  arraysAll : ∀ p ∈ r, ∀ e, p.2 = PV.nd e → p.1 ∈ arrays

/-- What a store followed by a load should give back: the same keys in the same order, plain values unchanged, arrays
with the same entries as floats. -/
def SameRecord (g : List Char → List Char) (r r' : Rec) : Prop :=
  List.Forall₂ (fun p q => q.1 = p.1 ∧
    ((∃ v, p.2 = PV.j v ∧ q.2 = PV.j v) ∨ (∃ e, p.2 = PV.nd e ∧ q.2 = PV.nd (mapNum g e)))) r r'

/-- Contract of `pickle` used here, for a given record: the complete file loads, every strictly shorter file fails, and
not with one of the two exceptions `check_if_damaged` catches (`EOFError` or `UnpicklingError` in reality). -/
structure Pickle.OK (pk : Pickle) (r : Rec) : Prop where
  full : pk.loads (pk.dumps r) = .ok (.dict r)
  torn : ∀ t, t <+: pk.dumps r → t ≠ pk.dumps r →
    ∃ e, pk.loads t = .error e ∧ e ≠ .fileNotFound ∧ e ≠ .jsonDecode

end Verif

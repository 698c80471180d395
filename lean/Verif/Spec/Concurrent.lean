import Verif.Model.Concurrent
import Mathlib.Logic.Relation

/-!
# Specification: what several processes at one cache file can see and leave
-/

namespace Verif

/-- A state that can be reached, by any interleaving of the calls of the processes, from `n` writers starting at `first`. -/
def Shared.Reached (text : Nat → List Char) (first : Writer) (n : Nat) (old : Option (List Char)) (s : Shared) : Prop :=
  Relation.ReflTransGen (SharedStep text) (Shared.init first n old) s

/-- Every writer has come to an end, and none was killed. -/
def Shared.Over (s : Shared) : Prop := ∀ p, s.writer p = .idle ∨ s.writer p = .done ∨ s.writer p = .failed

/-- What `load_dict` gives for the text a reader has got. -/
def loadGot (pk : Pickle) (got : Option (List Char)) (arrays : List (List Nat)) : Res Loaded :=
  loadDict pk (fun _ => got) [] (some sJson) arrays

/-- The text json writes for a record: that of `dump_dict`. -/
def IsJsonText (pk : Pickle) (g : List Char → List Char) (r : Rec) (arrays : List (List Nat)) (t : List Char) : Prop :=
  (dumpDict pk g (fun _ => none) r [] (some sJson) arrays).final [] = some t

end Verif

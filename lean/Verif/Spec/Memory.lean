import Verif.Model.Heap

/-! # Specification vocabulary: what a call does to the arrays in memory -/

namespace Verif

/-- The first `n` arrays are the same in both states of the memory. -/
def SameArrays (n : Nat) (h h' : Heap) : Prop := ∀ a, a < n → h'[a]? = h[a]?

/-- The call `p`, started in memory `h`, changes none of the arrays there, also if it raises; it raises what `r` says, and otherwise it
returns two different arrays which did not exist before, with the contents `r`. -/
def Separate (h : Heap) (p : Mem (Nat × Nat)) (r : Res (List Row × List Int)) : Prop :=
  SameArrays h.length h (p h).2 ∧
    match (p h).1 with
    | .error e => r = .error e
    | .ok (x', y') => ∃ X' Y', r = .ok (X', Y') ∧ h.length ≤ x' ∧ h.length ≤ y' ∧ x' ≠ y' ∧
        (p h).2[x']? = some (.rows X') ∧ (p h).2[y']? = some (.labels Y')

/-- Writing new contents into arrays, one after the other. -/
def writes (ws : List (Nat × Arr)) (h : Heap) : Heap := ws.foldl (fun h w => h.set w.1 w.2) h

end Verif

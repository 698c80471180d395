import Verif.Model.Distances

/-!
# Settings of the package
-/

namespace Verif

/-- The dictionary `flags`, config.py:18-22. Values of other types than `bool` and (non-negative) `int` are left out. -/
structure Flags where
  external : Bool
  internal : Bool
  memory : Nat
  deriving DecidableEq

/-- The initial values, config.py:14-22. -/
def Flags.default : Flags := ⟨true, true, 50000000⟩

/-- A call of one of the functions of the module; `none` is a call without argument. Used for config.py:25-70. -/
inductive ConfigCall
  | external (flag : Option Bool)
  | internal (flag : Option Bool)
  | memory (value : Option Nat)
  deriving DecidableEq

/-- What such a call returns. Used for config.py:25-70. -/
inductive ConfigValue
  | flag (b : Bool)
  | size (n : Nat)
  deriving DecidableEq

/-- `suppress_external_warnings`, config.py:25-38. -/
def suppressExternal (flag : Option Bool) (f : Flags) : Bool × Flags :=
  let f := match flag with
    | some b => { f with external := b }
    | none => f
  (f.external, f)

/-- `suppress_internal_warnings`, config.py:41-54. -/
def suppressInternal (flag : Option Bool) (f : Flags) : Bool × Flags :=
  let f := match flag with
    | some b => { f with internal := b }
    | none => f
  (f.internal, f)

/-- `distance_matrix_max_memory_chunk`, config.py:57-70. -/
def maxMemoryChunk (value : Option Nat) (f : Flags) : Nat × Flags :=
  let f := match value with
    | some n => { f with memory := n }
    | none => f
  (f.memory, f)

/-- One call, config.py:25-70. -/
def ConfigCall.run (c : ConfigCall) (f : Flags) : ConfigValue × Flags :=
  match c with
  | .external flag => ((.flag (suppressExternal flag f).1), (suppressExternal flag f).2)
  | .internal flag => ((.flag (suppressInternal flag f).1), (suppressInternal flag f).2)
  | .memory value => ((.size (maxMemoryChunk value f).1), (maxMemoryChunk value f).2)

/-- The settings after a list of calls. Used for config.py:25-70. -/
def configAfter (cs : List ConfigCall) (f : Flags) : Flags := cs.foldl (fun f c => (c.run f).2) f

/-- `return_copies`, base/_oversampling.py:249-266: the copies and whether there is a warning. -/
def returnCopiesWarned (f : Flags) (X : List Row) (y : List Int) : (List Row × List Int) × Bool :=
  ((X, y), !(suppressInternal none f).1)

/-- `pairwise_distances_mahalanobis` with the limit taken from the settings, base/_metrictensor.py:61. -/
def distancesUnder {β : Type} (f : Flags) (sqrt : ℚ → β) (d : Nat) (t : Option (List Row)) (o : Bool) (X Y : List Row) (depth : Nat) :
    Res (List (List β)) := pairwiseDistances (maxMemoryChunk none f).1 sqrt d t o Y depth X

end Verif

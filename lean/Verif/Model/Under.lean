import Verif.Model.Base

/-!
# Model of `smote_variants/undersampling`

The numpy generator is a parameter: `choice n size` is what `random_state.choice(np.arange(n), size,
replace=False)` returns once its arguments are accepted, `choiceP p size` the same with probabilities. numpy
rejects a sample larger than the population, or than the number of non-zero probabilities, with `ValueError`.
-/

namespace Verif

/-- `np.bincount(y)`: `ValueError` on negative entries.
Used for undersampling/_random_undersampling.py:33-53 and undersampling/_oversampling_driven_undersampling.py:48-85. -/
def bincount (y : List Int) : Res (List Nat) :=
  if y.any (fun l => decide (l < 0)) then .error .valueError
  else .ok ((List.range (y.foldl (fun m l => max m (l.toNat + 1)) 0)).map (fun (v : Nat) => y.count (v : Int)))

/-- `n_maj, n_min = np.bincount(y)`: unpacking fails with `ValueError` unless there are two counts.
Used for undersampling/_random_undersampling.py:33-53 and undersampling/_oversampling_driven_undersampling.py:48-85. -/
def binCounts2 (y : List Int) : Res (Nat × Nat) := do
  let c ← bincount y
  match c with
  | [a, b] => pure (a, b)
  | _ => throw .valueError

/-- `np.vstack([X_maj, X_min])` with labels 0 and 1, undersampling/_random_undersampling.py:50-53. -/
def stackMajMin (Xmaj Xmin : List Row) : List Row × List Int :=
  (Xmaj ++ Xmin, List.replicate Xmaj.length 0 ++ List.replicate Xmin.length 1)

/-- `RandomUndersampling.sample`, undersampling/_random_undersampling.py:33-53. -/
def randomUndersample (choice : Nat → Nat → List Nat) (X : List Row) (y : List Int) :
    Res (List Row × List Int) := do
  let (nMaj, nMin) ← binCounts2 y
  if nMaj < nMin then throw .valueError
  let mask := choice nMaj nMin
  let Xmaj ← takeRows (selectLabel X y 0) mask
  pure (stackMajMin Xmaj (selectLabel X y 1))

/-- Smallest element of a non-empty list of numbers; `np.min` of an empty array raises `ValueError`.
Used for undersampling/_oversampling_driven_undersampling.py:66-68 and undersampling/_oversampling_driven_undersampling.py:71-74. -/
def npMin : List ℚ → Res ℚ
  | [] => .error .valueError
  | x :: xs => .ok (xs.foldl min x)

/-- Largest element, as `npMin`. Used for undersampling/_oversampling_driven_undersampling.py:71-74. -/
def npMax : List ℚ → Res ℚ
  | [] => .error .valueError
  | x :: xs => .ok (xs.foldl max x)

/-- undersampling/_oversampling_driven_undersampling.py:66-68: distance of every majority row to the
closest synthetic row. The Euclidean distance is the parameter `dist`. -/
def distToNew (dist : Row → Row → ℚ) (Xnew Xmaj : List Row) : Res (List ℚ) :=
  Xmaj.mapM (fun m => npMin (Xnew.map (fun r => dist m r)))

/-- undersampling/_oversampling_driven_undersampling.py:71-74: the probabilities of the random mode. If all
distances are equal the division 0/0 gives NaN, which `choice` rejects with `ValueError`. -/
def inverseDistanceProbs (dists : List ℚ) : Res (List ℚ) := do
  let lo ← npMin dists
  let hi ← npMax dists
  if hi - lo = 0 then throw .valueError
  let inv := dists.map (fun d => 1 - (d - lo) / (hi - lo))
  pure (inv.map (· / inv.sum))

/-- `random_state.choice(np.arange(n), size, p=p, replace=False)` with its argument checks.
Used for undersampling/_oversampling_driven_undersampling.py:70-80. -/
def npChoiceP (choiceP : List ℚ → Nat → List Nat) (p : List ℚ) (size : Nat) : Res (List Nat) :=
  if p.countP (fun q => decide (q ≠ 0)) < size then .error .valueError else .ok (choiceP p size)

/-- The `mode` argument of `OversamplingDrivenUndersampling`.
Used for undersampling/_oversampling_driven_undersampling.py:70-80 and undersampling/_oversampling_driven_undersampling.py:48-85. -/
inductive UnderMode
  | random | farthest | other
  deriving DecidableEq, Repr

/-- undersampling/_oversampling_driven_undersampling.py:70-80: the majority rows that are kept. -/
def odusMajority (mode : UnderMode) (argsort : List ℚ → List Nat) (choiceP : List ℚ → Nat → List Nat)
    (dists : List ℚ) (nMin : Nat) (Xmaj : List Row) : Res (List Row) :=
  match mode with
  | .random => do
    let p ← inverseDistanceProbs dists
    let mask ← npChoiceP choiceP p nMin
    takeRows Xmaj mask
  | .farthest => do
    let sorted ← takeRows Xmaj (argsort dists)
    pure (sorted.take nMin)
  | .other => pure Xmaj

/-- `OversamplingDrivenUndersampling.sample`, undersampling/_oversampling_driven_undersampling.py:48-85.
`over` returns the rows of the oversampled data set. -/
def odusSample (mode : UnderMode) (over : List Row → List Int → Res (List Row)) (dist : Row → Row → ℚ)
    (argsort : List ℚ → List Nat) (choiceP : List ℚ → Nat → List Nat) (X : List Row) (y : List Int) :
    Res (List Row × List Int) := do
  let (_, nMin) ← binCounts2 y
  let Xsamp ← over X y
  let Xnew := Xsamp.drop X.length
  let dists ← distToNew dist Xnew (selectLabel X y 0)
  let Xmaj ← odusMajority mode argsort choiceP dists nMin (selectLabel X y 0)
  pure (stackMajMin Xmaj (selectLabel X y 1))

end Verif

import Verif.Model.Smote
import Mathlib.Data.List.Sort

/-!
# Model of `smote_variants/multiclassoversampling/_multiclassoversampling.py`

The inner binary oversampler is the parameter `over`: `over i p X y` is what the `i`-th instantiated
oversampler with `proportion = p` returns from `sample(X, y)`. The class counts are numpy integers, so a
division by zero gives NaN or infinity (`XF`) instead of an exception.
-/

namespace Verif

/-- A binary oversampler as seen by `MulticlassOversampling`.
Used for multiclassoversampling/_multiclassoversampling.py:128-302 and base/_oversampling.py:229-235. -/
abbrev BinOver := Nat → XF → List Row → List Int → Res (List Row × List Int)

/-- Division of two numpy integers.
Used for multiclassoversampling/_multiclassoversampling.py:17-33 and multiclassoversampling/_multiclassoversampling.py:36-55. -/
def npDiv (a b : Int) : XF :=
  if b = 0 then (if a = 0 then .nan else if 0 < a then .posInf else .negInf)
  else .fin ((a : ℚ) / (b : ℚ))

/-- `proportion_1_vs_many`, multiclassoversampling/_multiclassoversampling.py:17-33. -/
def proportion1VsMany (nMaj nI : Nat) : XF := npDiv ((nMaj : Int) - nI) ((nMaj : Int) - nI)

/-- `proportion_1_vs_many_succ`, multiclassoversampling/_multiclassoversampling.py:36-55. -/
def proportion1VsManySucc (nMaj nI classIdx : Nat) : XF :=
  npDiv ((nMaj : Int) - nI) ((classIdx : Int) * nMaj - nI)

/-- `sorted(class_stats.keys(), key=lambda x: -class_stats[x])` with the counts, lines 152-153: stable sort by
decreasing count of the ascending label list. Used for multiclassoversampling/_multiclassoversampling.py:128-302. -/
def sortedClasses (s : Stats) : List (Int × Nat) :=
  s.classStats.insertionSort (fun a b => b.2 ≤ a.2)

/-- `X[y != label]`. Used for multiclassoversampling/_multiclassoversampling.py:128-302. -/
def selectNotLabel {α : Type} (X : List α) (y : List Int) (label : Int) : List α :=
  maskRows X (y.map (· != label))

/-- `X_samp[len(X_train):][y_samp[len(X_train):] == 1]`, lines 192-194 and 272-273.
Used for multiclassoversampling/_multiclassoversampling.py:128-302. -/
def newOnes (n : Nat) (r : List Row × List Int) : List Row := selectLabel (r.1.drop n) (r.2.drop n) 1

/-- The loop of `sample_equalize_1_vs_many`, lines 161-194. `idx` is `class_idx`.
Used for multiclassoversampling/_multiclassoversampling.py:128-302. -/
def equalizeLoop (over : BinOver) (X : List Row) (y : List Int) (nMaj : Nat) :
    Nat → List (Int × Nat) → Res (List (Int × List Row))
  | _, [] => .ok []
  | idx, c :: cs => do
    let rest := selectNotLabel X y c.1
    let own := selectLabel X y c.1
    let r ← over idx (proportion1VsMany nMaj c.2) (rest ++ own)
      (List.replicate rest.length 0 ++ List.replicate own.length 1)
    let more ← equalizeLoop over X y nMaj (idx + 1) cs
    pure ((c.1, newOnes (rest ++ own).length r) :: more)

/-- The loop of `sample_equalize_1_vs_many_successive`, lines 243-273. Used for multiclassoversampling/_multiclassoversampling.py:128-302. -/
def successiveLoop (over : BinOver) (X : List Row) (y : List Int) (nMaj : Nat) :
    Nat → List Row → List (Int × Nat) → Res (List (Int × List Row))
  | _, _, [] => .ok []
  | idx, Xmaj, c :: cs => do
    let own := selectLabel X y c.1
    let r ← over idx (proportion1VsManySucc nMaj c.2 idx) (Xmaj ++ own)
      (List.replicate Xmaj.length 0 ++ List.replicate own.length 1)
    let more ← successiveLoop over X y nMaj (idx + 1) (Xmaj ++ selectLabel r.1 r.2 1) cs
    pure ((c.1, newOnes (Xmaj ++ own).length r) :: more)

/-- Lines 197-206 and 276-285: the results stacked below the data. Used for multiclassoversampling/_multiclassoversampling.py:128-302. -/
def stackResults (X : List Row) (y : List Int) (results : List (Int × List Row)) :
    List Row × List Int :=
  (X ++ (results.map Prod.snd).flatten,
   y ++ (results.map (fun r => List.replicate r.2.length r.1)).flatten)

/-- The `strategy` argument (anything else is rejected by the constructor, lines 123-126).
Used for multiclassoversampling/_multiclassoversampling.py:128-302. -/
inductive MultiStrategy
  | equalize | successive
  deriving DecidableEq, Repr

/-- `MulticlassOversampling.sample`, multiclassoversampling/_multiclassoversampling.py:128-302. -/
def multiclassSample (strategy : MultiStrategy) (over : BinOver) (X : List Row) (y : List Int) :
    Res (List Row × List Int) := do
  let s ← classLabelStatistics y
  match sortedClasses s with
  | [] => throw .indexError
  | maj :: cs =>
    let results ← (match strategy with
      | .equalize => equalizeLoop over X y maj.2 1 cs
      | .successive => successiveLoop over X y maj.2 1 (selectLabel X y maj.1) cs)
    pure (stackResults X y results)

/-- SMOTE as inner oversampler: `int(NaN)` raises `ValueError`, an infinite product `OverflowError` (not reached,
written as `ValueError` too); the size check of `sample` (base/_oversampling.py:229-235) comes first. -/
def smoteOver (par : SmoteParams) (vol : List Row → ℚ) (dr : Nat → Draws) (d : Nat)
    (knn : Nat → List Row → List (List Nat)) : BinOver := fun i p X y =>
  match p with
  | .fin q => smoteSample { par with proportion := q } vol (dr i) d knn X y
  | _ => sample defaultChecks d (fun _ _ _ => .error .valueError) X y

end Verif

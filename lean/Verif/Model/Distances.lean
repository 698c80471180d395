import Verif.Model.Base

/-!
# Distance matrices and neighbour searches of `smote_variants/base/_metrictensor.py`

The square root is a parameter `sqrt : ℚ → β`, `np.argsort` a parameter.
-/

namespace Verif

/-- `np.eye(d)`. Used for base/_metrictensor.py:85-94 and base/_metrictensor.py:97-112. -/
def eyeRows (d : Nat) : List Row :=
  (List.range d).map (fun i => (List.range d).map (fun j => if i = j then 1 else 0))

/-- Scalar product of two rows. Used for base/_metrictensor.py:94. -/
def dotRow (a b : Row) : ℚ := (List.zipWith (· * ·) a b).sum

/-- `einsum("k,kl,l", v, tensor, v)`: one entry of base/_metrictensor.py:94. -/
def quadForm (T : List Row) (v : Row) : ℚ := (List.zipWith (fun a row => a * dotRow row v) v T).sum

/-- `np.abs`. Used for base/_metrictensor.py:85-94. -/
def absQ (q : ℚ) : ℚ := if q < 0 then -q else q

/-- `np.allclose(a, b)` for two numbers: `|a - b| <= atol + rtol * |b|`. Used for base/_metrictensor.py:85-94. -/
def closeQ (a b : ℚ) : Bool := decide (absQ (a - b) ≤ 1 / 100000000 + 1 / 100000 * absQ b)

/-- `np.allclose(tensor, np.eye(d))`. Used for base/_metrictensor.py:85-94. -/
def allcloseEye (T : List Row) (d : Nat) : Bool :=
  (List.zipWith (fun r e => (List.zipWith closeQ r e).all id) T (eyeRows d)).all id

/-- `np.sum((x - y) ** 2)`. Used for base/_metrictensor.py:85-94. -/
def sumSquares (v : Row) : ℚ := (v.map (fun t => t * t)).sum

/-- base/_metrictensor.py:85-94, the part after the memory check; `d = X.shape[1]`. -/
def directDistances {β : Type} (sqrt : ℚ → β) (d : Nat) (tensor : Option (List Row)) (optimized : Bool)
    (X Y : List Row) : List (List β) :=
  match tensor with
  | none =>
    if optimized then X.map (fun x => Y.map (fun y => sqrt (sumSquares (Row.sub x y))))
    else X.map (fun x => Y.map (fun y => sqrt (quadForm (eyeRows d) (Row.sub x y))))
  | some T =>
    if allcloseEye T d then
      if optimized then X.map (fun x => Y.map (fun y => sqrt (sumSquares (Row.sub x y))))
      else X.map (fun x => Y.map (fun y => sqrt (quadForm (eyeRows d) (Row.sub x y))))
    else X.map (fun x => Y.map (fun y => sqrt (quadForm T (Row.sub x y))))

/-- base/_metrictensor.py:72-81: the slices `X[start:end]` of the loop with blocks of `size + 1` rows. -/
def rowBlocks (size : Nat) (X : List Row) : List (List Row) :=
  if X.length = 0 then []
  else X.take (size + 1) :: rowBlocks size (X.drop (size + 1))
termination_by X.length
decreasing_by simp [List.length_drop]; omega

/-- base/_metrictensor.py:64-70: the block size. Simplification: exact instead of float division. -/
def rowBlockSize (n d m maxMem : Nat) : Nat := max (n / ((n * d * m + maxMem - 1) / maxMem)) 1

/-- `pairwise_distances_mahalanobis`, base/_metrictensor.py:42-94. `depth` is what is left of Python's recursion limit. -/
def pairwiseDistances {β : Type} (maxMem : Nat) (sqrt : ℚ → β) (d : Nat) (tensor : Option (List Row)) (optimized : Bool)
    (Y : List Row) : Nat → List Row → Res (List (List β))
  | 0, _ => .error .recursionError
  | depth + 1, X =>
    if X.length * d * Y.length > maxMem then
      if maxMem = 0 then .error .zeroDivision
      else do
        let blocks ← (rowBlocks (rowBlockSize X.length d Y.length maxMem - 1) X).mapM
          (pairwiseDistances maxMem sqrt d tensor optimized Y depth)
        return blocks.flatten
    else .ok (directDistances sqrt d tensor optimized X Y)

/-- `distances_mahalanobis`, base/_metrictensor.py:97-112. -/
def rowwiseDistances {β : Type} (sqrt : ℚ → β) (d : Nat) (tensor : Option (List Row)) (X Y : List Row) : List β :=
  List.zipWith (fun x y => sqrt (quadForm (tensor.getD (eyeRows d)) (Row.sub x y))) X Y

/-- `n_neighbors_func`, base/_metrictensor.py:475-505, on a finished distance matrix: positions and distances. -/
def nearestOf {β : Type} (argsort : List β → List Nat) (k : Nat) (distm : List (List β)) : List (List Nat) :=
  distm.map (fun row => (argsort row).take k)

/-- `kneighbors` of a searcher with a metric tensor, base/_metrictensor.py:774-799. -/
def tensorKneighbors {β : Type} (maxMem depth : Nat) (sqrt : ℚ → β) (argsort : List β → List Nat) (d : Nat)
    (T : List Row) (fitted X : List Row) (k : Nat) : Res (List (List Nat)) := do
  let distm ← pairwiseDistances maxMem sqrt d (some T) true fitted depth X
  return nearestOf argsort k distm

/-- `radius_neighbors` of a searcher with a metric tensor, base/_metrictensor.py:801-840. Without an explicit radius the
comparison with `None` raises `TypeError` (the radius of the constructor is not used); with an empty query the loop does
not run. -/
def tensorRadiusNeighbors {β : Type} (le : β → β → Bool) (maxMem depth : Nat) (sqrt : ℚ → β) (d : Nat)
    (T : List Row) (fitted X : List Row) (radius : Option β) : Res (List (List Nat)) := do
  let distm ← pairwiseDistances maxMem sqrt d (some T) true fitted depth X
  match radius with
  | none => if distm.length = 0 then return [] else throw .typeError
  | some r => return distm.map (fun row => (List.range row.length).filter (fun j =>
      match row[j]? with
      | some x => le x r
      | none => false))

/-- `np.all(y[ind] == label)`. Used for base/_metrictensor.py:355-381. -/
def allLabels (y : List Int) (label : Int) (ind : List Nat) : Bool :=
  ind.all (fun i => decide (y[i]? = some label))

/-- `ClosestNeighborsInClasses.fit_transform`, base/_metrictensor.py:355-381. `ind l` are the neighbour lists of the rows
with label `l`. -/
def closestInClasses (ind : Int → List (List Nat)) (X : List Row) (y : List Int) : List Row × List Int :=
  let labelMin := (ind 1).map (allLabels y 1)
  let labelMaj := (ind 0).map (allLabels y 0)
  (maskRows (selectLabel X y 0) (labelMaj.map (fun b => !b)) ++ maskRows (selectLabel X y 1) (labelMin.map (fun b => !b)),
    List.replicate (labelMaj.countP id) 0 ++ List.replicate (labelMin.countP id) 1)

end Verif

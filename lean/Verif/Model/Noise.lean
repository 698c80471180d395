import Verif.Model.Base


/-!
# Model of `smote_variants/noise_removal`

The answer of the nearest neighbour search is the parameter `knn` (see `KnnOK`); asking for more
neighbours than there are rows raises `ValueError` as sklearn does. The metric tensor (an optional
change of metric) is part of `knn`.
-/

namespace Verif

/-- `NearestNeighborsWithMetricTensor(n_neighbors=k).fit(X).kneighbors(X)`.
Used for noise_removal/_tomeklinkremoval.py:77-121 and noise_removal/_editednn.py:74-112. -/
def kneighbors (knn : Nat → List Row → List (List Nat)) (k : Nat) (X : List Row) :
    Res (List (List Nat)) :=
  if k ≤ X.length then .ok (knn k X) else .error .valueError

/-- `np.delete(X, to_remove, axis=0)`. Used for noise_removal/_tomeklinkremoval.py:77-121 and noise_removal/_editednn.py:74-112. -/
def npDelete {α : Type} (X : List α) (rem : List Nat) : List α :=
  (X.zipIdx.filter (fun p => ! rem.contains p.2)).map Prod.fst

/-- Largest element of a list of counts; `max([])` raises `ValueError`. Used for base/_base.py:183-194. -/
def pyMax : List Nat → Res Nat
  | [] => .error .valueError
  | x :: xs => .ok (xs.foldl max x)

/-- `mode`, base/_base.py:183-194: the first (smallest) of the most frequent values. -/
def pyMode (data : List Int) : Res Int := do
  let uc := npUniqueCounts data
  let m ← pyMax (uc.map Prod.snd)
  match uc.find? (fun p => p.2 == m) with
  | some p => pure p.1
  | none => throw .indexError

/-- The inner part of the loop over the neighbour table in `TomekLinkRemoval.remove_noise`,
noise_removal/_tomeklinkremoval.py:101-105: the list of links (both orientations are found). -/
def tomekLinks (indices : List (List Nat)) (y : List Int) : Res (List (Nat × Nat)) := do
  let found ← indices.zipIdx.mapM (fun (rowi : List Nat × Nat) => do
    let j ← getRow rowi.1 1
    let rowj ← getRow indices j
    let back ← getRow rowj 1
    if back = rowi.2 then
      let yj ← getRow y j
      let yi ← getRow y back
      pure (if ¬ yj = yi then [(rowi.2, j)] else [])
    else pure [])
  pure found.flatten

/-- Strategy of `TomekLinkRemoval`. Used for noise_removal/_tomeklinkremoval.py:110-117 and noise_removal/_tomeklinkremoval.py:108-117. -/
inductive TomekStrategy
  | removeMajority
  | removeBoth
  deriving DecidableEq, Repr

/-- noise_removal/_tomeklinkremoval.py:110-117: the positions to be removed because of one link. -/
def tomekStep (strategy : TomekStrategy) (minLabel : Int) (y : List Int) (l : Nat × Nat) :
    Res (List Nat) :=
  match strategy with
  | .removeMajority => do
    let y0 ← getRow y l.1
    pure (if y0 = minLabel then [l.2] else [l.1])
  | .removeBoth => pure [l.1, l.2]

/-- noise_removal/_tomeklinkremoval.py:108-117: the positions to be removed. -/
def tomekToRemove (strategy : TomekStrategy) (minLabel : Int) (y : List Int)
    (links : List (Nat × Nat)) : Res (List Nat) := do
  let parts ← links.mapM (tomekStep strategy minLabel y)
  pure parts.flatten

/-- `TomekLinkRemoval.remove_noise`, noise_removal/_tomeklinkremoval.py:77-121. -/
def tomekRemove (strategy : TomekStrategy) (knn : Nat → List Row → List (List Nat))
    (X : List Row) (y : List Int) : Res (List Row × List Int) := do
  let s ← classLabelStatistics y
  let indices ← kneighbors knn 2 X
  let links ← tomekLinks indices y
  let rem ← tomekToRemove strategy s.minLabel y links
  pure (npDelete X rem, npDelete y rem)

/-- The `remove` argument of `EditedNearestNeighbors`. Used for noise_removal/_editednn.py:102-110 and noise_removal/_editednn.py:74-112. -/
inductive EnnRemove
  | both | min | maj
  deriving DecidableEq, Repr

/-- The condition in lines 105-109 of noise_removal/_editednn.py. -/
def EnnRemove.applies (r : EnnRemove) (s : Stats) (l : Int) : Bool :=
  match r with
  | .both => true
  | .min => decide (l = s.minLabel)
  | .maj => decide (l = s.majLabel)

/-- `mode(y[indices[idx][1:]])`. Used for noise_removal/_editednn.py:102-110 and noise_removal/_neighborhoodcleaningrule.py:97-110. -/
def neighborMode (indices : List (List Nat)) (y : List Int) (idx : Nat) : Res Int := do
  let row ← getRow indices idx
  let labels ← takeRows y (row.drop 1)
  pyMode labels

/-- noise_removal/_editednn.py:102-110. -/
def ennToRemove (r : EnnRemove) (s : Stats) (indices : List (List Nat)) (y : List Int) (n : Nat) :
    Res (List Nat) := do
  let parts ← (List.range n).mapM (fun idx => do
    let l ← getRow y idx
    let m ← neighborMode indices y idx
    pure (if ¬ l = m ∧ r.applies s l = true then [idx] else []))
  pure parts.flatten

/-- `EditedNearestNeighbors.remove_noise`, noise_removal/_editednn.py:74-112. -/
def ennRemove (r : EnnRemove) (knn : Nat → List Row → List (List Nat)) (X : List Row) (y : List Int) :
    Res (List Row × List Int) := do
  let s ← classLabelStatistics y
  if X.length < 4 then return (X, y)
  let indices ← kneighbors knn 4 X
  let rem ← ennToRemove r s indices y X.length
  pure (npDelete X rem, npDelete y rem)

/-- noise_removal/_neighborhoodcleaningrule.py:97-110. -/
def ncrToRemove (s : Stats) (indices : List (List Nat)) (y : List Int) (n : Nat) :
    Res (List Nat) := do
  let parts ← (List.range n).mapM (fun idx => do
    let l ← getRow y idx
    let m ← neighborMode indices y idx
    if l = s.majLabel ∧ m = s.minLabel then pure [idx]
    else if l = s.minLabel ∧ m = s.majLabel then
      let row ← getRow indices idx
      let sel ← (row.drop 1).mapM (fun j => do
        let lj ← getRow y j
        pure (if lj = s.majLabel then [j] else []))
      pure sel.flatten
    else pure [])
  pure parts.flatten

/-- `NeighborhoodCleaningRule.remove_noise`, noise_removal/_neighborhoodcleaningrule.py:71-114. -/
def ncrRemove (knn : Nat → List Row → List (List Nat)) (X : List Row) (y : List Int) :
    Res (List Row × List Int) := do
  let s ← classLabelStatistics y
  let indices ← kneighbors knn 4 X
  let rem ← ncrToRemove s indices y X.length
  pure (npDelete X rem, npDelete y rem)

/-- `pred != maj_label` for one row. Used for noise_removal/_condensednn.py:81-98. -/
def cnnWrong (predict : List Row → List Int → Row → Int) (maj : Int) (Xhat : List Row) (yhat : List Int)
    (x : Row) : Bool := decide (predict Xhat yhat x ≠ maj)

set_option wf.preprocess false in
/-- The `while` loop of `CondensedNearestNeighbors`, noise_removal/_condensednn.py:81-98. `predict X y x` is
the answer of the fitted 1-NN classifier. The loop terminates because `X_maj` shrinks. -/
def cnnLoop (predict : List Row → List Int → Row → Int) (maj : Int) (Xhat : List Row) (yhat : List Int)
    (Xmaj : List Row) : List Row × List Int :=
  if Xmaj.length = 0 then (Xhat, yhat)
  else if _h : Xmaj.all (fun x => ! cnnWrong predict maj Xhat yhat x) = true then (Xhat, yhat)
  else
    let Xhat' := Xhat ++ Xmaj.filter (cnnWrong predict maj Xhat yhat)
    let yhat' := yhat ++ List.replicate (Xhat'.length - yhat.length) maj
    cnnLoop predict maj Xhat' yhat' (Xmaj.filter (fun x => ! cnnWrong predict maj Xhat yhat x))
termination_by Xmaj.length
decreasing_by
  rw [List.all_eq_true] at _h
  push Not at _h
  obtain ⟨x, hx, hw⟩ := _h
  rw [List.length_filter_lt_length_iff_exists]
  exact ⟨x, hx, hw⟩

/-- `CondensedNearestNeighbors.remove_noise`, noise_removal/_condensednn.py:55-98. -/
def cnnRemove (predict : List Row → List Int → Row → Int) (X : List Row) (y : List Int) :
    Res (List Row × List Int) := do
  let s ← classLabelStatistics y
  let Xmaj := selectLabel X y s.majLabel
  let first ← getRow Xmaj 0
  let Xhat := selectLabel X y s.minLabel ++ [first]
  let yhat := List.replicate (Xhat.length - 1) s.minLabel ++ [s.majLabel]
  pure (cnnLoop predict s.majLabel Xhat yhat (Xmaj.drop 1))

/-- `OneSidedSelection.remove_noise`, noise_removal/_onesidedselection.py:59-77. -/
def ossRemove (knn : Nat → List Row → List (List Nat)) (predict : List Row → List Int → Row → Int)
    (X : List Row) (y : List Int) : Res (List Row × List Int) := do
  let _ ← classLabelStatistics y
  let r ← tomekRemove .removeMajority knn X y
  cnnRemove predict r.1 r.2

/-- `CNNTomekLinks.remove_noise`, noise_removal/_cnntomeklinks.py:59-77. -/
def cnnTomekRemove (knn : Nat → List Row → List (List Nat)) (predict : List Row → List Int → Row → Int)
    (X : List Row) (y : List Int) : Res (List Row × List Int) := do
  let _ ← classLabelStatistics y
  let r ← cnnRemove predict X y
  tomekRemove .removeMajority knn r.1 r.2

end Verif

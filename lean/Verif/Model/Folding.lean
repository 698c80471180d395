import Verif.Model.Base
import Verif.Model.Files
import Mathlib.Data.Nat.Digits.Defs
import Mathlib.Data.List.Sort

/-!
# Model of `smote_variants/evaluation/_folding.py`

`validator.split` (sklearn) is a parameter: the list of (train, test) index lists it yields. The directory of the cache
is the list of file names in it; what the files contain is the subject of `Verif.Model.Files`.
-/

namespace Verif

/-- numpy `a[i]` for an arbitrary integer index: negative indices count from the end. Used for evaluation/_folding.py:51-57. -/
def npAt {α : Type} (a : List α) (i : Int) : Res α :=
  if 0 ≤ i then getRow a i.toNat
  else if 0 ≤ (a.length : Int) + i then getRow a ((a.length : Int) + i).toNat
  else throw .indexError

/-- The label statistics of a `Folding` object. Used for evaluation/_folding.py:51-57. -/
structure LabelStats where
  minLabel : Int
  majLabel : Int
  nMin : Nat
  nMaj : Nat
  deriving DecidableEq, Repr

/-- evaluation/_folding.py:53: `labels[counts == np.min(counts)]`, given the minimum. -/
def labelsWithCount (lc : List (Int × Nat)) (m : Nat) : List Int := (lc.filter (fun p => p.2 == m)).map Prod.fst

/-- `np.max` of a list of labels (`ValueError` when empty). Used for evaluation/_folding.py:51-57. -/
def maxLabel : List Int → Res Int
  | [] => throw .valueError
  | a :: as => pure (as.foldl max a)

/-- `np.min` of a list of counts (`ValueError` when empty). Used for evaluation/_folding.py:51-57. -/
def minCount : List Nat → Res Nat
  | [] => throw .valueError
  | a :: as => pure (as.foldl min a)

/-- evaluation/_folding.py:51-57, the statistics in `Folding.__init__`. `counts` is indexed by the label itself. -/
def foldingStats (target : List Int) : Res LabelStats := do
  let lc := npUniqueCounts target
  let m ← minCount (lc.map Prod.snd)
  let minLabel ← maxLabel (labelsWithCount lc m)
  let majLabel ← getRow ((lc.map Prod.fst).filter (fun l => l ≠ minLabel)) 0
  let nMin ← npAt (lc.map Prod.snd) minLabel
  let nMaj ← npAt (lc.map Prod.snd) majLabel
  pure ⟨minLabel, majLabel, nMin, nMaj⟩

/-- The part of the fold descriptor that `fold` writes. Used for evaluation/_folding.py:120-122 and evaluation/_folding.py:119-132. -/
structure Desc where
  splitIdx : Nat
  repeatIdx : Nat
  foldIdx : Nat
  deriving DecidableEq, Repr

/-- One item yielded by `fold`. The descriptor is not part of it: the item holds a reference to the one dictionary
`self.properties`. Used for evaluation/_folding.py:124-130 and evaluation/_folding.py:119-132. -/
structure FoldItem where
  xTrain : List Row
  yTrain : List Int
  xTest : List Row
  yTest : List Int
  deriving DecidableEq, Repr

/-- evaluation/_folding.py:120-122: the update of the shared dictionary. -/
def descOf (nSplits idx : Nat) : Desc := ⟨idx, idx / nSplits, idx - (idx / nSplits) * nSplits⟩

/-- evaluation/_folding.py:124-130: `data[train]` etc. -/
def foldItem (data : List Row) (target : List Int) (sp : List Nat × List Nat) : Res FoldItem := do
  pure ⟨← takeRows data sp.1, ← takeRows target sp.1, ← takeRows data sp.2, ← takeRows target sp.2⟩

/-- evaluation/_folding.py:119-132, consumed by a loop: `body` runs at every yield and may read the dictionary the item
refers to, as it is at that moment. The result holds the dictionary as the generator leaves it. -/
def forEachFold {β : Type} (data : List Row) (target : List Int) (nSplits : Nat) (body : β → Desc → FoldItem → β) :
    Nat → Desc → β → List (List Nat × List Nat) → Res (Desc × β)
  | _, cell, acc, [] => pure (cell, acc)
  | idx, _, acc, sp :: sps => do
    let item ← foldItem data target sp
    forEachFold data target nSplits body (idx + 1) (descOf nSplits idx) (body acc (descOf nSplits idx) item) sps

/-- A consumer that looks at every descriptor when the item is yielded (as `cache_foldings` does). Used for evaluation/_folding.py:101-150. -/
def foldSnapshots (data : List Row) (target : List Int) (nSplits : Nat) (cell : Desc)
    (sps : List (List Nat × List Nat)) : Res (List (Desc × FoldItem)) := do
  let r ← forEachFold data target nSplits (fun acc d item => acc ++ [(d, item)]) 0 cell [] sps
  pure r.2

/-- `list(folding.fold())`, after which the descriptors are read through the references in the items. Used for evaluation/_folding.py:101-132. -/
def foldList (data : List Row) (target : List Int) (nSplits : Nat) (cell : Desc)
    (sps : List (List Nat × List Nat)) : Res (List (Desc × FoldItem)) := do
  let r ← forEachFold data target nSplits (fun acc _ item => acc ++ [item]) 0 cell [] sps
  pure (r.2.map (fun item => (r.1, item)))

/-- Decimal digit. Used for evaluation/_folding.py:141. -/
def digitChar (n : Nat) : Char := Char.ofNat (48 + n)

/-- `f"{n:04}"`. Used for evaluation/_folding.py:141. -/
def pad4 (n : Nat) : List Char :=
  ((Nat.digits 10 n ++ List.replicate (4 - (Nat.digits 10 n).length) 0).reverse).map digitChar

/-- evaluation/_folding.py:141: `f"fold_{repeat_idx:04}_{fold_idx:04}" f".{self.serialization}"`. -/
def foldFileName (ser : List Char) (d : Desc) : Path :=
  ['f', 'o', 'l', 'd', '_'] ++ (pad4 d.repeatIdx ++ '_' :: (pad4 d.foldIdx ++ '.' :: ser))

/-- evaluation/_folding.py:134-149: the names written by `cache_foldings`, in order. -/
def cacheNames (ser : List Char) (nSplits nFolds : Nat) : List Path :=
  (List.range nFolds).map (fun i => foldFileName ser (descOf nSplits i))

/-- The glob pattern `fold_*.<ser>`. Used for evaluation/_folding.py:84-99. -/
def matchesFold (ser : List Char) (name : Path) : Bool :=
  ['f', 'o', 'l', 'd', '_'].isPrefixOf name && ('.' :: ser).isSuffixOf (name.drop 5)

/-- Python's order on strings. Used for evaluation/_folding.py:84-99. -/
def strLe : List Char → List Char → Bool
  | [], _ => true
  | _ :: _, [] => false
  | a :: as, b :: bs => if a.toNat < b.toNat then true else if b.toNat < a.toNat then false else strLe as bs

/-- `sorted` on file names. Used for evaluation/_folding.py:84-99. -/
def sortNames (l : List Path) : List Path := l.insertionSort (fun a b => strLe a b = true)

/-- evaluation/_folding.py:84-99, `folding_files` on a directory: the files returned and the directory afterwards. A
serialization other than json and pickle leaves `path` unset (`UnboundLocalError`, a
`NameError`). -/
def foldingFiles (ser : List Char) (nSplits nFolds : Nat) (dir : List Path) : Res (List Path × List Path) :=
  if ser = sJson ∨ ser = sPickle then
    if dir.filter (matchesFold ser) = [] then
      pure (sortNames ((dir ++ cacheNames ser nSplits nFolds).filter (matchesFold ser)),
        dir ++ cacheNames ser nSplits nFolds)
    else pure (sortNames (dir.filter (matchesFold ser)), dir)
  else throw .nameError

end Verif

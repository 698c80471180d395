import Verif.Model.Interp

/-!
# LN_SMOTE

`ix t m` is the choice of a pair from `m`, `gap t j` the number drawn for coordinate `j`. The dictionary of pairs is the list of its keys
in the order of insertion; the value is a function of the key.
-/

namespace Verif

/-- `indices[i][1:-1]`. Used for oversampling/_ln_smote.py:118 and oversampling/_ln_smote.py:121-129. -/
def innerPart (row : List Nat) : List Nat := (row.drop 1).dropLast

/-- `np.sum(y[indices[i][1:-1]] == min_label)`, oversampling/_ln_smote.py:118. -/
def lnCount (minL : Int) (y : List Int) (row : List Nat) : Res Int := do
  let ls ← (innerPart row).mapM (getRow y)
  return (ls.count minL : Int)

/-- `safe_level` with `n_idx`, oversampling/_ln_smote.py:121-129. -/
def lnLevel (minL majL : Int) (y : List Int) (indices : List (List Nat)) (p n : Nat) : Res Int := do
  let ly ← getRow y n
  let row ← getRow indices n
  if ly = majL ∧ p ∈ innerPart row then
    let c ← lnCount minL y row
    match row.getLast? with
    | none => .error .indexError
    | some q => do
      let lq ← getRow y q
      return if lq = minL then c - 1 + 1 else c - 1
  else lnCount minL y row

/-- A key of the dictionary and its value. Used for oversampling/_ln_smote.py:164-185 and oversampling/_ln_smote.py:207-221. -/
structure LnPair where
  p : Nat
  n : Nat
  slp : Int
  sln : Int
  deriving DecidableEq

/-- `calculate_slp_sln`, oversampling/_ln_smote.py:164-185. -/
def lnPairs (minL majL : Int) (y : List Int) (indices : List (List Nat)) (minority : List Nat) : Res (List LnPair) := do
  let parts ← minority.mapM (fun p => do
    let row ← getRow indices p
    let slp ← lnCount minL y row
    (innerPart row).mapM (fun n => do
      let sln ← lnLevel minL majL y indices p n
      return LnPair.mk p n slp sln))
  return parts.flatten.eraseDups

/-- `random_gap` for one coordinate, oversampling/_ln_smote.py:131-162. -/
def lnGap (minL : Int) (slp sln : Int) (label : Int) (k : Nat) (u : ℚ) : Res ℚ :=
  if sln = 0 ∧ 0 < slp then .ok 0
  else if sln = 0 then .error .zeroDivision
  else
    let ratio : ℚ := (slp : ℚ) / (sln : ℚ)
    let delta := if ratio = 1 then u else if 1 < ratio then u / ratio else 1 - u * ratio
    .ok (if label ≠ minL then delta * (sln : ℚ) / (k : ℚ) else delta)

/-- One turn of `generate_samples`, oversampling/_ln_smote.py:207-221. -/
def lnRow (minL : Int) (ix : Nat → Nat → Nat) (gap : Nat → Nat → ℚ) (pairs : List LnPair) (X : List Row) (y : List Int) (k : Nat) (t : Nat) :
    Res Row := do
  let q ← getRow pairs (ix t pairs.length)
  let l ← getRow y q.n
  let x ← getRow X q.p
  let nb ← getRow X q.n
  let deltas ← (List.range x.length).mapM (fun j => lnGap minL q.slp q.sln l k (gap t j))
  return mixRow x nb (fun j => deltas.getD j 0)

/-- `LN_SMOTE.sampling_algorithm`, oversampling/_ln_smote.py:225-274. -/
def lnSmoteAlg (proportion : ℚ) (nNeighbors : Nat) (ix : Nat → Nat → Nat) (gap : Nat → Nat → ℚ) (knn : Nat → List Row → List (List Nat))
    (s : Stats) (X : List Row) (y : List Int) : Res (List Row × List Int) := do
  let n ← detNToSample (.num proportion) (s.count s.majLabel) (s.count s.minLabel)
  if n = 0 then return (X, y)
  let k := min (X.length - 2) nNeighbors
  if k < 2 then return (X, y)
  let indices := knn (k + 2) X
  let minority := (List.range y.length).filter (fun i => decide (y[i]? = some s.minLabel))
  let all ← lnPairs s.minLabel s.majLabel y indices minority
  let pairs := all.filter (fun q => decide (0 < q.slp ∧ 0 < q.sln))
  if pairs.length = 0 then return withSamples X y s.minLabel []
  let samples ← (List.range n).mapM (lnRow s.minLabel ix gap pairs X y k)
  return withSamples X y s.minLabel samples

end Verif

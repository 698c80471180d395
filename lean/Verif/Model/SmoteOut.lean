import Verif.Model.Regions
import Verif.Model.ProWSyn

/-!
# SMOTE_OUT and SMOTE_Cosine

`ix t m i` is the number drawn for sample `i` by `choice(m, n)` number `t`, `un t i j` the number drawn for coordinate `j` of sample `i`
by `random_sample` number `t`.
-/

namespace Verif

/-- The formula of oversampling/_smote_out.py:124-131 and oversampling/_smote_cosine.py:87-91. -/
def outFormula (u v x : Row) (r1 r2 : Nat → ℚ) : Row :=
  mixRow x (mixRow u v (fun j => -(r1 j * (3 / 10)))) (fun j => r2 j * (1 / 2))

/-- One row of `generate_samples`, oversampling/_smote_out.py:115-131 and oversampling/_smote_cosine.py:111-129. `width` is the number of columns of
the table of the majority neighbours, `width'` that of the minority neighbours. -/
def outRow (ix : Nat → Nat → Nat → Nat) (un : Nat → Nat → Nat → ℚ) (X Xmaj Xmin : List Row) (positions : List Nat) (width width' : Nat)
    (majInd minInd : List (List Nat)) (i : Nat) : Res Row := do
  let b := ix 0 positions.length i
  let p ← getRow positions b
  let u ← getRow X p
  let majRow ← getRow majInd b
  let q ← getRow majRow (ix 1 width i)
  let v ← getRow Xmaj q
  let minRow ← getRow minInd b
  let r ← getRow minRow (1 + ix 2 (width' - 1) i)
  let x ← getRow Xmin r
  return outFormula u v x (un 0 i) (un 1 i)

/-- The rest of both oversamplers, once the tables are known.
Used for oversampling/_smote_out.py:133-204 and oversampling/_smote_cosine.py:131-185. -/
def outGenerate (ix : Nat → Nat → Nat → Nat) (un : Nat → Nat → Nat → ℚ) (s : Stats) (X : List Row) (y : List Int) (n width width' : Nat)
    (majInd minInd : List (List Nat)) : Res (List Row × List Int) := do
  let positions := labelPositions y s.minLabel
  let Xmin := selectLabel X y s.minLabel
  let Xmaj := selectLabel X y s.majLabel
  let _ ← choiceFrom positions.length n (ix 0 positions.length)
  let _ ← choiceFrom width n (ix 1 width)
  let _ ← choiceFrom (width' - 1) n (ix 2 (width' - 1))
  let samples ← (List.range n).mapM (outRow ix un X Xmaj Xmin positions width width' majInd minInd)
  return withSamples X y s.minLabel samples

/-- `SMOTE_OUT.sampling_algorithm`, oversampling/_smote_out.py:133-204. -/
def smoteOutAlg (proportion : ℚ) (nNeighbors : Nat) (ix : Nat → Nat → Nat → Nat) (un : Nat → Nat → Nat → ℚ)
    (knn : Nat → List Row → List Row → List (List Nat)) (s : Stats) (X : List Row) (y : List Int) : Res (List Row × List Int) := do
  let n ← detNToSample (.num proportion) (s.count s.majLabel) (s.count s.minLabel)
  if n = 0 then return (X, y)
  let Xmin := selectLabel X y s.minLabel
  let Xmaj := selectLabel X y s.majLabel
  let kMin := min Xmin.length (nNeighbors + 1)
  let kMaj := min Xmaj.length (nNeighbors + 1)
  outGenerate ix un s X y n kMaj kMin (knn kMaj Xmaj Xmin) (knn kMin Xmin Xmin)

/-- One row of `composite_ind`, oversampling/_smote_cosine.py:168-170. -/
def compositeRow (argsort : List ℚ → List Nat) (euc cos : List Nat) : List Nat :=
  argsort (List.zipWith (fun (a b : Nat) => (a : ℚ) + (b : ℚ)) (argsort (euc.map (fun (i : Nat) => (i : ℚ))))
    (argsort (cos.map (fun (i : Nat) => (i : ℚ)))))

/-- `SMOTE_Cosine.sampling_algorithm`, oversampling/_smote_cosine.py:131-185. `knn` searches by the Euclidean distance, `cosKnn` by the
cosine distance. -/
def smoteCosineAlg (proportion : ℚ) (nNeighbors : Nat) (ix : Nat → Nat → Nat → Nat) (un : Nat → Nat → Nat → ℚ)
    (knn cosKnn : Nat → List Row → List Row → List (List Nat)) (argsort : List ℚ → List Nat) (s : Stats) (X : List Row) (y : List Int) :
    Res (List Row × List Int) := do
  let n ← detNToSample (.num proportion) (s.count s.majLabel) (s.count s.minLabel)
  if n = 0 then return (X, y)
  let Xmin := selectLabel X y s.minLabel
  let Xmaj := selectLabel X y s.majLabel
  let m := Xmin.length
  let kMaj := min Xmaj.length nNeighbors
  let composite := List.zipWith (compositeRow argsort) (knn m Xmin Xmin) (cosKnn m Xmin Xmin)
  outGenerate ix un s X y n kMaj m (knn kMaj Xmaj Xmin) composite

end Verif

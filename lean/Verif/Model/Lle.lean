import Verif.Model.Clusters
import Verif.Model.Distances

/-!
# LLE_SMOTE

`lle k m rows` are the rows in the locally linear embedding with `k` neighbours and `m` components, `solve C b` the answer of
`np.linalg.solve`, none for `LinAlgError`.
-/

namespace Verif

/-- `np.dot(weights, rows)` for rows with `d` features. Used for oversampling/_lle_smote.py:188-190. -/
def weightedSum (d : Nat) (w : List ℚ) (rows : List Row) : Row :=
  (List.range d).map (fun k => (List.zipWith (fun c (r : Row) => c * r.getD k 0) w rows).sum)

/-- `solve_for_weights`, oversampling/_lle_smote.py:139-164. The norm of the weights is compared by its square. A division by zero
gives NaN. -/
def lleWeights (solve : List Row → Row → Option Row) (x : Row) (Z : List Row) : Res (List ℚ) :=
  let Z' := Z.map (fun r => Row.sub r x)
  let C := Z'.map (fun r => Z'.map (dotRow r))
  let ones := List.replicate C.length (1 : ℚ)
  let w := match solve C ones with
    | none => ones
    | some w => if 10 ^ 16 < dotRow w w then ones else w
  if w.sum = 0 then .error .nan else .ok (w.map (fun c => c / w.sum))

/-- One turn of the loop in `embed_in_original_space`, oversampling/_lle_smote.py:188-190. -/
def lleEmbed (solve : List Row → Row → Option Row) (d : Nat) (T A : List Row) (z : Row) (idx : List Nat) : Res Row := do
  let Z ← takeRows T idx
  let w ← lleWeights solve z Z
  let R ← takeRows A idx
  return weightedSum d w R

/-- `LLE_SMOTE.sampling_algorithm`, oversampling/_lle_smote.py:194-264, with `embed_in_original_space` (166-192). -/
def lleAlg (par : NbParams) (nComp : Nat) (lle : Nat → Nat → List Row → List Row) (solve : List Row → Row → Option Row)
    (vol : List Row → ℚ) (dr : Draws) (d : Nat) (knn : Nat → List Row → List Row → List (List Nat)) (s : Stats)
    (X : List Row) (y : List Int) : Res (List Row × List Int) := do
  let n ← detNToSample (.num par.proportion) (s.count s.majLabel) (s.count s.minLabel)
  if n = 0 then return (X, y)
  let A := selectLabel X y s.minLabel
  let m := min nComp d
  let T := lle (min par.nNeighbors (A.length - 1)) m A
  let k := min (par.nNeighbors + 1) T.length
  let raw ← sampleSimplex par.ss vol dr m T (knn k T T) k n {}
  let samples ← (raw.zip (knn k T raw)).mapM (fun p => lleEmbed solve d T A p.1 p.2)
  if samples.length = 0 then throw .valueError
  return withSamples X y s.minLabel samples

end Verif

import Verif.Model.GSmote

/-!
# G_SMOTE, the non-linear method

`exp` is `np.exp`, `none` for `inf`; the other external functions are those of `Verif.Model.GSmote`.
-/

namespace Verif

/-- A squared entry of `pairwise_distances`, and `np.linalg.norm(P, axis=3) ** 2`. The square root is not taken and squared again.
Used for oversampling/_g_smote.py:181 and oversampling/_g_smote.py:254. -/
def gSq (p q : Row) : ℚ := ((List.zipWith (· - ·) p q).map (fun t => t * t)).sum

/-- The matrix of `determine_H` for the non-linear method, oversampling/_g_smote.py:181-183. -/
def gKernel (exp : ℚ → Option ℚ) (sigma : ℚ) (X : List Row) : List (List (Option ℚ)) :=
  X.map (fun p => X.map (fun q => exp (gSq p q / (2 * sigma ^ 2))))

/-- `determine_H` for the non-linear method, oversampling/_g_smote.py:174-187. `np.linalg.eig` raises `LinAlgError`, a `ValueError`, for a
matrix with infinite entries. -/
def gDirectionNl (exp : ℚ → Option ℚ) (sigma : ℚ) (eig : List Row → List ℚ × List Row) (X : List Row) : Res Row := do
  let K := gKernel exp sigma X
  if K.any (fun r => r.any Option.isNone) then throw .valueError
  let e := eig (K.map (fun r => r.map (fun x => x.getD 0)))
  let i ← firstMax e.1
  getRow e.2 i

/-- One row of `angles_non_linear`, oversampling/_g_smote.py:252-259. A division by zero makes NaN. -/
def gAngleRowNl (norm : Row → ℚ) (arccos : ℚ → ℚ) (sigma : ℚ) (H : Row) (X : List Row) (row : List Nat) : Res (List ℚ) := do
  let b ← getRow row 0
  let base ← getRow X b
  (row.drop 1).mapM (fun j => do
    let r ← getRow X j
    let diff := List.zipWith (· - ·) r base
    let gram := X.map (fun z => -gSq diff z / (2 * sigma ^ 2))
    if norm H * norm gram = 0 then throw .nan
    return arccos (|dotRow gram H| / (norm H * norm gram)))

/-- `angles_non_linear` with `determine_H`, for the non-linear method.
Used for oversampling/_g_smote.py:174-187 and oversampling/_g_smote.py:236-259. -/
def gNonLinear (norm : Row → ℚ) (arccos : ℚ → ℚ) (exp : ℚ → Option ℚ) (sigma : ℚ) (eig : List Row → List ℚ × List Row) (X : List Row)
    (ind : List (List Nat)) : Res (List (List ℚ)) := do
  let H ← gDirectionNl exp sigma eig X
  ind.mapM (gAngleRowNl norm arccos sigma H X)

end Verif

import Verif.Model.Rounded

/-!
# Safe_Level_SMOTE with rounding
-/

namespace Verif

/-- oversampling/_safe_level_smote.py:166-178: the factor of one coordinate with rounding. The multiplication of the draw by `0.0` or `1.0` is exact;
levels are small integers and converted without an error. -/
def flSafeGap (fl : ℚ → ℚ) (slp sln : Nat) (u : ℚ) : ℚ :=
  let g := u * (if sln = 0 ∧ slp > 0 then 0 else 1)
  let g := if slp > sln then fl (fl (g * (sln : ℚ)) / (slp : ℚ)) else g
  if slp < sln then fl (fl (fl (g * (slp : ℚ)) / (sln : ℚ)) + fl (1 - fl ((slp : ℚ) / (sln : ℚ)))) else g

/-- One row of oversampling/_safe_level_smote.py:180-182. -/
def flSafeLevelRow (fl : ℚ → ℚ) (dr : SlDraws) (pairs : List SafePair) (X : List Row) (i : Nat) : Res Row := do
  let t ← getRow pairs (dr.pair i)
  let base ← getRow X t.p
  let nb ← getRow X t.q
  return flMixRow fl base nb (fun j => flSafeGap fl t.slp t.sln (dr.u i j))

/-- `Safe_Level_SMOTE.sampling_algorithm`, oversampling/_safe_level_smote.py:189-219 with `generate_samples`, 146-187. -/
def flSafeLevelAlg (fl : ℚ → ℚ) (proportion : ℚ) (nNeighbors : Nat) (dr : SlDraws) (knn : Nat → List Row → List (List Nat))
    (s : Stats) (X : List Row) (y : List Int) : Res (List Row × List Int) := do
  let n ← flDetN fl proportion (s.count s.majLabel) (s.count s.minLabel)
  if n = 0 then return (X, y)
  let k := min (nNeighbors + 1) X.length
  let pairs ← slpSln s.minLabel y (knn k X)
  if pairs.length = 0 then return (X, y)
  let samples ← (List.range n).mapM (flSafeLevelRow fl dr pairs X)
  return withSamples X y s.minLabel samples

end Verif

import Verif.Model.Smote
import Verif.Model.Borderline

/-!
# NEATER

`dist p q` is the (Mahalanobis) distance. A row of probabilities is a pair: the majority first, the minority second.
-/

namespace Verif

/-- Parameters of `NEATER`, oversampling/_neater.py:63-120. `ADASYN` is run with its defaults `d_th = 0.9` and `beta = 1`. -/
structure NeaterParams where
  proportion : ℚ
  smoteNeighbors : Nat
  ss : SSParams
  b : Nat
  alpha : ℚ
  h : Nat

/-- `distm[distm == 0] = 1e-8; distm = 1.0 / distm; distm[distm > alpha] = alpha`, oversampling/_neater.py:387-389, for one entry. -/
def neaterWeight (alpha dist : ℚ) : ℚ :=
  let q := 1 / (if dist = 0 then 1 / 100000000 else dist)
  if q > alpha then alpha else q

/-- `wprob_mixed_vectorized`, oversampling/_neater.py:148-169, for a new row with the probabilities `p`; `nb` are the weights and the
probabilities of its neighbours. -/
def neaterMixed (p : ℚ × ℚ) (nb : List (ℚ × (ℚ × ℚ))) : ℚ :=
  (nb.map (fun q => 1 * p.1 * q.2.1 + q.1 * (p.2 * q.2.1 + p.1 * q.2.2) + 1 * p.2 * q.2.2)).sum

/-- `wprob_min_vectorized`, oversampling/_neater.py:178-197. -/
def neaterMin (nb : List (ℚ × (ℚ × ℚ))) : ℚ := (nb.map (fun q => 0 * q.2.1 + q.1 * (1 * q.2.1 + 0 * q.2.2) + 1 * q.2.2)).sum

/-- `wprob_maj_vectorized`, oversampling/_neater.py:206-225. -/
def neaterMaj (nb : List (ℚ × (ℚ × ℚ))) : ℚ := (nb.map (fun q => 1 * q.2.1 + q.1 * (0 * q.2.1 + 1 * q.2.2) + 0 * q.2.2)).sum

/-- `evolution`, oversampling/_neater.py:260-305, for one row; `nb` is `none` for the rows of the input. A division by zero makes NaN. -/
def neaterRow (alpha : ℚ) (p : ℚ × ℚ) (nb : Option (List (ℚ × (ℚ × ℚ)))) : Res (ℚ × ℚ) := do
  let q ← match nb with
    | none => pure p
    | some nb =>
      if alpha + neaterMixed p nb = 0 then throw .nan
      else pure (p.1 * (alpha + neaterMaj nb) / (alpha + neaterMixed p nb), p.2 * (alpha + neaterMin nb) / (alpha + neaterMixed p nb))
  if q.1 + q.2 = 0 then throw .nan
  return (q.1 / (q.1 + q.2), q.2 / (q.1 + q.2))

/-- One round, oversampling/_neater.py:260-305: `off` rows are of the input, `weights i j` is `distm[i, j]`. -/
def neaterRound (alpha : ℚ) (off : Nat) (indices : List (List Nat)) (weights : Nat → Nat → ℚ) (prob : List (ℚ × ℚ)) : Res (List (ℚ × ℚ)) :=
  (List.range prob.length).mapM (fun i => neaterRow alpha (prob.getD i (0, 0))
    (if i < off then none
     else some (((indices.getD (i - off) []).drop 1).map (fun j => (weights (i - off) j, prob.getD j (0, 0))))))

/-- `for _ in range(h)`, oversampling/_neater.py:392-395. -/
def neaterLoop (alpha : ℚ) (off : Nat) (indices : List (List Nat)) (weights : Nat → Nat → ℚ) : Nat → List (ℚ × ℚ) → Res (List (ℚ × ℚ))
  | 0, prob => .ok prob
  | h + 1, prob => do
    let prob ← neaterRound alpha off indices weights prob
    neaterLoop alpha off indices weights h prob

/-- `NEATER.sampling_algorithm`, oversampling/_neater.py:342-400. `np.argmax` of equal entries is 0. A query of more neighbours than rows
raises `ValueError`. -/
def neaterAlg (par : NeaterParams) (vol : List Row → ℚ) (drS drA : Draws) (d : Nat) (knnS : Nat → List Row → List (List Nat))
    (knn : Nat → List Row → List Row → List (List Nat)) (dist : Row → Row → ℚ) (s : Stats) (X : List Row) (y : List Int) :
    Res (List Row × List Int) := do
  let n ← detNToSample (.num par.proportion) (s.count s.majLabel) (s.count s.minLabel)
  if n = 0 then return (X, y)
  let r0 ← smoteSample ⟨par.proportion, par.smoteNeighbors, par.ss⟩ vol drS d knnS X y
  let r1 ← sample defaultChecks d (adasynAlg ⟨par.b, 9 / 10, 1, par.ss⟩ vol drA d knn) X y
  let Xall := r0.1 ++ r1.1.drop X.length
  let yall := r0.2 ++ r1.2.drop y.length
  let Xsyn := Xall.drop X.length
  let prob := (List.range Xall.length).map (fun i =>
    if i < X.length then (if y.getD i 0 = s.minLabel then ((0 : ℚ), (1 : ℚ)) else (1, 0)) else (1 / 2, 1 / 2))
  if par.b + 1 > Xall.length then throw .valueError
  let indices := knn (par.b + 1) Xall Xsyn
  let weights := fun i j => neaterWeight par.alpha (dist (Xsyn.getD i []) (Xall.getD j []))
  let prob ← neaterLoop par.alpha X.length indices weights par.h prob
  return (Xall, yall.take X.length ++ (prob.drop X.length).map (fun p => if p.1 < p.2 then (1 : Int) else 0))

end Verif

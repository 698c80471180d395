import Verif.Model.Smote

/-!
# Model of `smote_variants/oversampling/_lee.py`

The `while` loop of `generate_samples` is modelled as a round function iterated on a state; `leeLoop f` performs at most `f`
rounds and returns `none` when the loop condition still holds after them. That enough rounds always exist is a theorem, not
part of the model. Round `r` consumes the draws `dr r`.
-/

namespace Verif

/-- Parameters of `Lee` (oversampling/_lee.py:57-113). -/
structure LeeParams where
  proportion : ℚ
  nNeighbors : Nat
  rejection : ℚ
  ss : SSParams

/-- Local variables of the loop, oversampling/_lee.py:144-148; `round` counts the iterations. -/
structure LeeState where
  samples : List Row
  level : ℚ
  tries : Nat
  round : Nat

/-- `np.sum(y[ind_new] == self.maj_label, axis=1) / self.n_neighbors` for one new row,
oversampling/_lee.py:156-157. `query` is the answer of `nnmt.kneighbors` for one row. -/
def majFrac (y : List Int) (maj : Int) (nNeighbors : Nat) (query : Row → List Nat) (x : Row) : Res ℚ := do
  let labels ← takeRows y (query x)
  return (labels.count maj : ℚ) / (nNeighbors : ℚ)

/-- The candidates together with their majority fraction. Used for oversampling/_lee.py:149-165. -/
def withFrac (y : List Int) (maj : Int) (nNeighbors : Nat) (query : Row → List Nat) (rows : List Row) :
    Res (List (Row × ℚ)) :=
  rows.mapM (fun x => do
    let f ← majFrac y maj nNeighbors query x
    return (x, f))

/-- `samples_new[maj_frac < rejection_level]`, oversampling/_lee.py:165. -/
def accepted (level : ℚ) (cand : List (Row × ℚ)) : List Row :=
  (cand.filter (fun c => decide (c.2 < level))).map Prod.fst

/-- The bookkeeping of one round, oversampling/_lee.py:158-165: a round without an acceptable candidate is a failed try, more
than five failed tries raise the level by 0.1 and reset the counter, then the acceptable candidates are appended. -/
def leeUpdate (st : LeeState) (cand : List (Row × ℚ)) : LeeState :=
  let tries := if (accepted st.level cand).length = 0 then st.tries + 1 else st.tries
  let level := if tries > 5 then st.level + 1 / 10 else st.level
  { samples := st.samples ++ accepted level cand
    level := level
    tries := if tries > 5 then 0 else tries
    round := st.round + 1 }

/-- One round of the loop, oversampling/_lee.py:149-165: `n_missing = max(n_to_sample - len(samples), 20)` candidates. -/
def leeRound (par : LeeParams) (vol : List Row → ℚ) (dr : Nat → Draws) (d : Nat) (y : List Int) (maj : Int)
    (Xmin : List Row) (ind : List (List Nat)) (k n : Nat) (query : Row → List Nat) (st : LeeState) : Res LeeState := do
  let new ← sampleSimplex par.ss vol (dr st.round) d Xmin ind k (max (n - st.samples.length) 20) {}
  let cand ← withFrac y maj par.nNeighbors query new
  return leeUpdate st cand

/-- At most `fuel` rounds of `while samples.shape[0] < n_to_sample`, oversampling/_lee.py:148-169. -/
def leeLoop (round : LeeState → Res LeeState) (n : Nat) : Nat → LeeState → Res (Option (List Row))
  | 0, st => .ok (if st.samples.length < n then none else some (st.samples.take n))
  | f + 1, st =>
    if st.samples.length < n then do
      let st' ← round st
      leeLoop round n f st'
    else .ok (some (st.samples.take n))

/-- `Lee.sampling_algorithm`, oversampling/_lee.py:171-245, with at most `fuel` rounds; `none`: still in the loop.
`knn` answers the queries within the minority class, `query k rows x` the ones in the complete data set. -/
def leeAlg (fuel : Nat) (par : LeeParams) (vol : List Row → ℚ) (dr : Nat → Draws) (d : Nat)
    (knn : Nat → List Row → List (List Nat)) (query : Nat → List Row → Row → List Nat)
    (s : Stats) (X : List Row) (y : List Int) : Res (Option (List Row × List Int)) := do
  let n ← detNToSample (.num par.proportion) (s.count s.majLabel) (s.count s.minLabel)
  if n = 0 then return some (X, y)
  let Xmin := selectLabel X y s.minLabel
  let q := query (min Xmin.length par.nNeighbors) X
  let k := min Xmin.length (par.nNeighbors + 1)
  let out ← leeLoop (leeRound par vol dr d y s.majLabel Xmin (knn k Xmin) k n q) n fuel ⟨[], par.rejection, 0, 0⟩
  return out.map (fun samples => (X ++ samples, y ++ List.replicate samples.length s.minLabel))

/-- `Lee.sample`: the default checks of `OverSamplingBase.sample` (base/_base.py) in front of the algorithm. -/
def leeSample (fuel : Nat) (par : LeeParams) (vol : List Row → ℚ) (dr : Nat → Draws) (d : Nat)
    (knn : Nat → List Row → List (List Nat)) (query : Nat → List Row → Row → List Nat)
    (X : List Row) (y : List Int) : Res (Option (List Row × List Int)) := do
  let s ← classLabelStatistics y
  if checksFire (s.count s.minLabel) d defaultChecks then return some (X, y)
  leeAlg fuel par vol dr d knn query s X y

end Verif

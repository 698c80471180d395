import Verif.Model.Smote
import Verif.Model.Noise
import Verif.Model.Rejection
import Verif.Model.Ccr
import Verif.Model.Dbsmote

/-!
# SMOTE_FRST_2T

The draws and the neighbour query of the `t`-th call of SMOTE are `dr t` and `knn`.
-/

namespace Verif

/-- Parameters of `SMOTE_FRST_2T`, oversampling/_smote_frst_2t.py:57-110. -/
structure FrstParams where
  nNeighbors : Nat
  ss : SSParams
  gammaS : ℚ
  gammaM : ℚ

/-- One entry of `pos_cache`, oversampling/_smote_frst_2t.py:146-154. -/
def frstPos (d : Nat) (p q : Row) : ℚ :=
  let r := (d : ℚ) - l1Dist p q
  let r := r - d + 1
  1 - (if r < 0 then 0 else r)

/-- `pos_cache`, oversampling/_smote_frst_2t.py:131-154. `pairwise_distances` raises `ValueError` for an array without rows. -/
def frstTable (d : Nat) (X0 X1 : List Row) : Res (List (List ℚ)) :=
  if X0.isEmpty || X1.isEmpty then .error .valueError else .ok (X0.map (fun p => X1.map (frstPos d p)))

/-- `np.where(np.min(table, axis=0) < gamma)[0]` for a table with `n` columns. Used for oversampling/_smote_frst_2t.py:186-226. -/
def frstBelow (table : List (List ℚ)) (n : Nat) (gamma : ℚ) : List Nat :=
  (List.range n).filter (fun j => decide (minL (table.map (fun row => row.getD j 0)) < gamma))

/-- The variables of the loop, oversampling/_smote_frst_2t.py:169-178. -/
structure FrstState where
  maj : List Row
  synth : List Row
  removed : List Row
  gammaS : ℚ
  gammaM : ℚ
  table : List (List ℚ)

/-- The body of the loop, oversampling/_smote_frst_2t.py:186-226; `it` is the number of the round, `samp` the new rows of SMOTE. -/
def frstRound (d it : Nat) (Xmin samp : List Row) (s : FrstState) : Res FrstState := do
  let gS := if s.synth.length < it then s.gammaS * (11 / 10) else s.gammaS
  let tableSynth ← frstTable d Xmin samp
  let toAdd := frstBelow tableSynth samp.length gS
  let added := toAdd.map (fun j => samp.getD j [])
  let synth := s.synth ++ added
  let toRemove := frstBelow s.table s.maj.length s.gammaM
  let s1 ←
    if ((toRemove.length : ℕ) : ℚ) > ((s.maj.length : ℚ) - Xmin.length) / 2 then
      pure { s with synth := synth, gammaS := gS, gammaM := s.gammaM * (9 / 10) }
    else if 0 < toRemove.length then do
      let removed := s.removed ++ toRemove.map (fun j => s.maj.getD j [])
      let maj := npDelete s.maj toRemove
      let table := s.table.map (fun row => npDelete row toRemove)
      let more ← frstTable d (removed.drop (removed.length - toRemove.length)) maj
      pure { maj := maj, synth := synth, removed := removed, gammaS := gS, gammaM := s.gammaM, table := table ++ more }
    else pure { s with synth := synth, gammaS := gS }
  if 0 < toAdd.length then do
    let more ← frstTable d added s1.maj
    pure { s1 with table := s1.table ++ more }
  else pure s1

/-- The loop, oversampling/_smote_frst_2t.py:180-234, with `fuel` rounds left; `smote it` is the result of `smote.sample(X, y)` in round
`it`. -/
def frstLoop (d n : Nat) (smote : Nat → Res (List Row × List Int)) (Xmin : List Row) : Nat → Nat → FrstState → Res FrstState
  | 0, _, s => .ok s
  | fuel + 1, it, s =>
    if Xmin.length + s.synth.length + s.removed.length < s.maj.length then do
      let r ← smote it
      let s' ← frstRound d it Xmin (r.1.drop n) s
      frstLoop d n smote Xmin fuel (it + 1) s'
    else .ok s

/-- `data_min_` of `MinMaxScaler` for the column `j`. Used for oversampling/_smote_frst_2t.py:238-284. -/
def frstMin (X : List Row) (j : Nat) : ℚ := minL (X.map (fun r => r.getD j 0))

/-- The range of the column `j` for `MinMaxScaler`: a constant column counts as having range 1. Used for oversampling/_smote_frst_2t.py:238-284. -/
def frstRange (X : List Row) (j : Nat) : ℚ :=
  let range := maxL (X.map (fun r => r.getD j 0)) - minL (X.map (fun r => r.getD j 0))
  if range = 0 then 1 else range

/-- `SMOTE_FRST_2T.sampling_algorithm`, oversampling/_smote_frst_2t.py:238-284. -/
def frstAlg (par : FrstParams) (vol : List Row → ℚ) (dr : Nat → Draws) (d : Nat) (knn : Nat → List Row → List (List Nat))
    (s : Stats) (X : List Row) (y : List Int) : Res (List Row × List Int) := do
  if s.count s.majLabel ≤ s.count s.minLabel then return (X, y)
  let low := (List.range d).map (frstMin X)
  let range := (List.range d).map (frstRange X)
  let Xs := X.map (scaleRow low range)
  let Xmin := selectLabel Xs y s.minLabel
  let diff : ℚ := (s.count s.majLabel : ℚ) - s.count s.minLabel
  let prop := max (11 / 10 / diff) (1 / 5)
  let Xmaj := selectLabel Xs y s.majLabel
  let table ← frstTable d Xmin Xmaj
  let st ← frstLoop d X.length (fun it => smoteSample ⟨prop, par.nNeighbors, par.ss⟩ vol (dr it) d knn Xs y) Xmin 100 0
    { maj := Xmaj, synth := [], removed := [], gammaS := par.gammaS, gammaM := par.gammaM, table := table }
  let Xres := st.maj ++ Xmin ++ (st.synth ++ st.removed)
  let yres := List.replicate st.maj.length s.majLabel ++ List.replicate (Xres.length - st.maj.length) s.minLabel
  return (Xres.map (unscaleRow low range), yres)

end Verif

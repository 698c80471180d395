import Verif.Model.Smote
import Verif.Model.Interp

/-!
# Model of `smote_variants/oversampling/_smotewb.py`

The decision tree, the square root `exp(0.5 log x)`, the neighbour searcher and the generator are parameters.
-/

namespace Verif

/-- What SMOTEWB calls. `tree X y w`: the labels predicted for `X` by the tree fitted to `(X, y)` with the weights `w`; `factor e` =
`exp(0.5 * log((1 - e) / e))`; `drop g t`: positions drawn without replacement, `t` out of `g`; `pick i t m`: the `t`-th draw for the `i`-th
row out of `m` neighbours; `u i t`: the number `random_sample()` used for that draw.
Used for oversampling/_smotewb.py:128-143 and oversampling/_smotewb.py:331-347. -/
structure WbEnv where
  tree : List Row → List Int → List ℚ → Res (List Int)
  factor : ℚ → ℚ
  knn : Nat → List Row → List Row → List (List Nat)
  drop : Nat → Nat → List Nat
  pick : Nat → Nat → Nat → Nat
  u : Nat → Nat → ℚ

/-- Parameters of `SMOTEWB` (oversampling/_smotewb.py:46-90); `max_depth` belongs to the tree. -/
structure WbParams where
  proportion : ℚ
  nIters : Nat

/-- The rounds of `boosted_weights`, oversampling/_smotewb.py:128-143. `sum(w) = 0` (the division gives NaN) is an error value here. -/
def wbBoost (env : WbEnv) (X : List Row) (y : List Int) : Nat → List ℚ → Res (List ℚ)
  | 0, w => .ok w
  | k + 1, w => do
    let pred ← env.tree X y w
    let t := (pred.zip y).zip w
    let e := ((t.filter (fun q => decide (q.1.1 ≠ q.1.2))).map Prod.snd).sum
    if e = 0 then return List.replicate X.length 0
    let w' := t.map (fun q => if q.1.1 ≠ q.1.2 then q.2 * env.factor e else q.2)
    if w'.sum = 0 then throw .nan
    wbBoost env X y k (w'.map (fun q => q / w'.sum))

/-- `noise_detection` for one class and `noise_threshold`, oversampling/_smotewb.py:145-188: the weight exceeds `2 * other / n ** 2`. -/
def wbNoise (other total : Nat) (w : List ℚ) : List Bool := w.map (fun q => decide ((2 * other : ℚ) / total ^ 2 < q))

/-- `X_min[~noise_mask_min]`, oversampling/_smotewb.py:247-248. -/
def wbKept (rows : List Row) (noise : List Bool) : List Row := ((rows.zip noise).filter (fun p => ! p.2)).map Prod.fst

/-- `first_majority_index`, oversampling/_smotewb.py:190-203, for one row. -/
def wbFirst (majLabel : Int) (labels : List Int) (dflt : Nat) : Nat :=
  if labels.contains majLabel then labels.findIdx (fun l => decide (l = majLabel)) else dflt

/-- The new rows of one good or lonely row, oversampling/_smotewb.py:331-347. -/
def wbRow (env : WbEnv) (K : List Row) (i : Nat) (base : Row) (row : List Nat) (noisy : Bool) (k c : Nat) : Res (List Row) :=
  if k = 0 then .ok (List.replicate c base)
  else
    let nn := if noisy then row.take k else (row.drop 1).take k
    if nn.length = 0 then .ok []
    else (List.range c).mapM (fun t => do
      let j ← getRow nn (env.pick i t nn.length)
      let q ← getRow K j
      return sampleBetweenPoints base q (env.u i t))

/-- The default `ss_params` of `SMOTE`, oversampling/_smote.py:71-76. -/
def wbSmoteSs : SSParams := ⟨2, .random, .random, .none⟩

/-- `SMOTE(proportion=self.proportion, nn_params=self.nn_params).sample(X, y)`, oversampling/_smotewb.py:266-267 and 308-309: the other
parameters have their default values; `random_state` is not passed on, so the draws `dr` are not those of the seeded generator. -/
def wbSmote (env : WbEnv) (par : WbParams) (vol : List Row → ℚ) (dr : Draws) (d : Nat) (X : List Row) (y : List Int) :
    Res (List Row × List Int) :=
  smoteSample ⟨par.proportion, 5, wbSmoteSs⟩ vol dr d (fun k R => env.knn k R R) X y

/-- `SMOTEWB.sampling_algorithm`, oversampling/_smotewb.py:205-356. `k_arr == -1` is replaced by 0 there (line 285): truncated subtraction
here. The code goes through all minority rows; those flagged bad contribute nothing, so the model goes through the others only, and
`drop` yields positions in the list of these. Without a new row `np.vstack` raises `ValueError` (line 351). -/
def wbAlg (env : WbEnv) (par : WbParams) (vol : List Row → ℚ) (dr : Draws) (d : Nat) (s : Stats) (X : List Row) (y : List Int) :
    Res (List Row × List Int) := do
  let n ← detNToSample (.num par.proportion) (s.count s.majLabel) (s.count s.minLabel)
  if n = 0 then return (X, y)
  let Xmin := selectLabel X y s.minLabel
  let Xmaj := selectLabel X y s.majLabel
  let w ← wbBoost env X y par.nIters (List.replicate X.length (1 / (X.length : ℚ)))
  let noiseMin := wbNoise Xmaj.length y.length (selectLabel w y s.minLabel)
  let noiseMaj := wbNoise Xmin.length y.length (selectLabel w y s.majLabel)
  let kmax := Xmaj.length / Xmin.length
  let Kmin := wbKept Xmin noiseMin
  let Kmaj := wbKept Xmaj noiseMaj
  let K := Kmin ++ Kmaj
  let yK := List.replicate Kmin.length s.minLabel ++ List.replicate Kmaj.length s.majLabel
  if K.length = 0 then wbSmote env par vol dr d X y
  else
    let nn := min K.length (kmax + 1)
    let indices := env.knn nn K Xmin
    let first ← indices.mapM (fun row => do
      let labels ← takeRows yK row
      return wbFirst s.majLabel labels (kmax + 1))
    let karr := (List.range Xmin.length).map (fun i =>
      min (if noiseMin.getD i false then first.getD i 0 else first.getD i 0 - 1) (min nn kmax))
    let U := (List.range Xmin.length).filter (fun i => decide (0 < karr.getD i 0) || ! noiseMin.getD i false)
    if U.length = 0 then wbSmote env par vol dr d X y
    else
      let m := (n + U.length - 1) / U.length
      let diff := m * U.length - n
      let less := if 0 < diff then env.drop U.length diff else []
      let blocks ← U.zipIdx.mapM (fun p =>
        wbRow env K p.1 (Xmin.getD p.1 []) (indices.getD p.1 []) (noiseMin.getD p.1 false) (karr.getD p.1 0)
          (if less.contains p.2 then m - 1 else m))
      if blocks.flatten.length = 0 then throw .valueError
      else return withSamples X y s.minLabel blocks.flatten

end Verif

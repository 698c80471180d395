import Verif.Model.Rounded
import Verif.Model.VisRst
import Verif.Model.CeNras

/-!
# Scaling and scaling back with rounding

Some oversamplers scale the whole data set, sample, and return the scaled data set transformed back. What happens in between (neighbours, new rows) is a
parameter here, with whatever arithmetic.
-/

namespace Verif

/-- One number: `StandardScaler.transform` and then `inverse_transform`, with rounding; `m` is an entry of `mean_`, `s` of `scale_`.
Used for oversampling/_vis_rst.py:465-480. -/
def flStdScale (fl : ℚ → ℚ) (m s x : ℚ) : ℚ := fl (fl (x - m) / s)

/-- One number: `StandardScaler.inverse_transform` with rounding. Used for oversampling/_vis_rst.py:465-480. -/
def flStdUnscale (fl : ℚ → ℚ) (m s z : ℚ) : ℚ := fl (fl (z * s) + m)

/-- One number: `MinMaxScaler.transform` with rounding; `b` is an entry of `min_`, `s` of `scale_`. Used for oversampling/_nras.py:212-283. -/
def flMinScale (fl : ℚ → ℚ) (b s x : ℚ) : ℚ := fl (fl (x * s) + b)

/-- One number: `MinMaxScaler.inverse_transform` with rounding. Used for oversampling/_nras.py:212-283. -/
def flMinUnscale (fl : ℚ → ℚ) (b s z : ℚ) : ℚ := fl (fl (z - b) / s)

/-- A transformation of every entry of a row with the two parameters of its column. Used for oversampling/_vis_rst.py:465-480 and
oversampling/_nras.py:212-283. -/
def colMap (f : ℚ → ℚ → ℚ → ℚ) (sc : Row × Row) (r : Row) : Row := (r.zip (sc.1.zip sc.2)).map (fun p => f p.2.1 p.2.2 p.1)

/-- `VIS_RST.sampling_algorithm`, oversampling/_vis_rst.py:446-480, with rounding of the scaling. `steps n X y` is the result of `all_steps`: the new
rows and the changed labels. -/
def flVisAlg (fl : ℚ → ℚ) (proportion : ℚ) (fitScaler : List Row → Row × Row) (steps : Nat → List Row → List Int → Int → Int → Res (List Row × List Int))
    (s : Stats) (X : List Row) (y : List Int) : Res (List Row × List Int) := do
  let n ← flDetN fl proportion (s.count s.majLabel) (s.count s.minLabel)
  if n = 0 then return (X, y)
  let Xs := X.map (colMap (flStdScale fl) (fitScaler X))
  match steps n Xs y s.minLabel s.majLabel with
  | .error .valueError => .ok (X, y)
  | .error e => .error e
  | .ok r => .ok ((Xs ++ r.1).map (colMap (flStdUnscale fl) (fitScaler X)), r.2 ++ List.replicate r.1.length s.minLabel)

/-- `t_hat < t * n_neighbors`, oversampling/_nras.py:227-228, with rounding. -/
def flNrasNoise (fl : ℚ → ℚ) (t : ℚ) (k : Nat) (y : List Int) (minL : Int) (ind : List (List Nat)) : Res (List Bool) :=
  ind.mapM (fun row => do
    let ls ← takeRows y (row.drop 1)
    return decide ((ls.count minL : ℚ) < fl (t * (k : ℚ))))

/-- `NRAS.sampling_algorithm`, oversampling/_nras.py:193-283, with rounding of the scaling. `table k X y` are the neighbours of the minority rows
(lines 112-161, with the propensity scores), `gen X ind noise n` the result of `generate_samples` (163-191). -/
def flNrasAlg (fl : ℚ → ℚ) (proportion : ℚ) (nNeighbors : Nat) (t : ℚ) (fitScaler : List Row → Row × Row)
    (table : Nat → List Row → List Int → List (List Nat)) (gen : List Row → List (List Nat) → List Bool → Nat → Res (List Row)) (s : Stats)
    (X : List Row) (y : List Int) : Res (List Row × List Int) := do
  let n ← flDetN fl proportion (s.count s.majLabel) (s.count s.minLabel)
  if n = 0 then return (X, y)
  let Xt := X.map (colMap (flMinScale fl) (fitScaler X))
  let Xmin := selectLabel Xt y s.minLabel
  let k := min X.length (nNeighbors + 1)
  let ind := table k Xt y
  let noise ← flNrasNoise fl t k y s.minLabel ind
  if noise.count true ≥ Xmin.length - 1 then return (X, y)
  let samples ← gen Xt ind noise (n + noise.count true)
  let kept := ((Xmin.zip noise).filter (fun p => !p.2)).map Prod.fst
  return ((selectLabel Xt y s.majLabel ++ kept ++ samples).map (colMap (flMinUnscale fl) (fitScaler X)),
    List.replicate (y.count s.majLabel) s.majLabel ++ List.replicate kept.length s.minLabel ++ List.replicate samples.length s.minLabel)

end Verif

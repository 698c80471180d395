import Verif.Model.Smote
import Verif.Model.Dbsmote
import Verif.Model.Distances
import Verif.Model.Selected
import Verif.Model.Interp

/-!
# DEAGO

The training of the denoising autoencoder is a parameter: it gives the weights of the network. The prediction of the network is modelled.
`fitScaler A` are the means and scales of `StandardScaler().fit(A)`. The environment variables, the thread counts and the seeding of
the global generators (oversampling/_deago.py:258-272) are not modelled.
-/

namespace Verif

/-- The weights of the network of `get_model`, oversampling/_deago.py:175-183: per hidden unit its input weights, bias and output weights,
and the bias of the output layer. -/
structure DeagoNet where
  units : List (Row × ℚ × Row)
  bias : Row

/-- The activation of a hidden unit, `Dense(encoding_d, activation="relu")`, oversampling/_deago.py:177. -/
def deagoAct (u : Row × ℚ × Row) (x : Row) : ℚ := max 0 (dotRow u.1 x + u.2.1)

/-- `dae.predict` for one row, oversampling/_deago.py:175-180 and 236; `GaussianNoise` is not active when predicting. -/
def deagoPredict (d : Nat) (net : DeagoNet) (x : Row) : Row :=
  (List.range d).map (fun k => net.bias.getD k 0 + (net.units.map (fun u => deagoAct u x * u.2.2.getD k 0)).sum)

/-- `encoding_d`, oversampling/_deago.py:202. -/
def deagoUnits (d : Nat) (h : ℚ) : Nat := max 2 (rint ((d : ℚ) * h)).toNat

/-- `actual_epochs`, oversampling/_deago.py:216-218. -/
def deagoEpochs (e n : Nat) : Nat := max e (5000 / n)

/-- The training and the validation rows, oversampling/_deago.py:220-234; `int(0.2 * n)` with exact arithmetic. -/
def deagoSplit (A : List Row) : List Row × Option (List Row) :=
  if 10 < A.length then
    let val := A.length / 5
    (A.take (A.length - val), some (A.drop (A.length - val)))
  else (A, none)

/-- The parameters of DEAGO, oversampling/_deago.py:125-130. -/
structure DeagoParams where
  smote : SmoteParams
  e : Nat
  h : ℚ

/-- `DEAGO.sampling_algorithm`, oversampling/_deago.py:238-301. -/
def deagoAlg (par : DeagoParams) (fitScaler : List Row → Row × Row)
    (fit : (units epochs : Nat) → (train : List Row) → (val : Option (List Row)) → DeagoNet) (vol : List Row → ℚ) (dr : Draws) (d : Nat)
    (knn : Nat → List Row → List (List Nat)) (s : Stats) (X : List Row) (y : List Int) : Res (List Row × List Int) := do
  let n ← detNToSample (.num par.smote.proportion) (s.count s.majLabel) (s.count s.minLabel)
  if n = 0 then return (X, y)
  let r ← smoteSample par.smote vol dr d knn X y
  let init := r.1.drop X.length
  let A := selectLabel X y s.minLabel
  let sc := fitScaler A
  let An := A.map (scaleRow sc.1 sc.2)
  let tv := deagoSplit An
  let net := fit (deagoUnits d par.h) (deagoEpochs par.e An.length) tv.1 tv.2
  let samples := (init.map (scaleRow sc.1 sc.2)).map (fun x => unscaleRow sc.1 sc.2 (deagoPredict d net x))
  return withSamples X y s.minLabel samples

end Verif

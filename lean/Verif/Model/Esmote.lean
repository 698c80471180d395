import Verif.Model.Smote
import Verif.Model.Metrics
import Mathlib.Data.List.Sort

/-!
# Model of `smote_variants/oversampling/_e_smote.py`

The classifier, the neighbour table of the final SMOTE and the generators are parameters.
-/

namespace Verif

/-- What E_SMOTE calls, for generation `g` and round `k` of it. `start d`: the feature of the first mask; `cross g k`: whether two masks are crossed;
`i0`, `i1`: the numbers of the parents out of five; `coin g k i`: `randint(0, 2) == 0` for the feature `i`; `refill g k s d`: the feature drawn
in step `s` of the loop that adds features; `predict`: the labels the classifier fitted to rows and labels gives for these rows.
Used for oversampling/_e_smote.py:218-241 and oversampling/_e_smote.py:216-244. -/
structure EsEnv where
  start : Nat → Nat
  cross : Nat → Nat → Bool
  i0 : Nat → Nat → Nat
  i1 : Nat → Nat → Nat
  coin : Nat → Nat → Nat → Bool
  refill : Nat → Nat → Nat → Nat → Nat
  fuel : Nat
  predict : List Row → List Int → List Int

/-- `X[:, mask]` for one row. Used for oversampling/_e_smote.py:218-241 and oversampling/_e_smote.py:180-258. -/
def esRestrict (mask : List Bool) (r : Row) : Row := (npWhere mask).map (fun i => r.getD i 0)

/-- The loop `while np.sum(mask) < min_features`, oversampling/_e_smote.py:155-156 and 175-176. It ends when the draws hit enough features; the
number of draws is bounded by the fuel. -/
def esFill (minF : Nat) (draw : Nat → Nat) : Nat → Nat → List Bool → Res (List Bool)
  | 0, _, mask => if mask.count true < minF then .error .recursionError else .ok mask
  | fuel + 1, s, mask => if mask.count true < minF then esFill minF draw fuel (s + 1) (mask.set (draw s) true) else .ok mask

/-- `crossover`, oversampling/_e_smote.py:150-158. -/
def esCrossover (coin : Nat → Bool) (draw : Nat → Nat) (fuel minF : Nat) (a b : List Bool) : Res (List Bool) :=
  esFill minF draw fuel 0 ((List.range a.length).map (fun i => if coin i then b.getD i false else a.getD i false))

/-- `mutate`, oversampling/_e_smote.py:170-178. -/
def esMutate (coin : Nat → Bool) (draw : Nat → Nat) (fuel minF : Nat) (a : List Bool) : Res (List Bool) :=
  esFill minF draw fuel 0 ((List.range a.length).map (fun i => if coin i then ! a.getD i false else a.getD i false))

/-- One round, oversampling/_e_smote.py:218-241: a new mask with its score. The parents are among the first five, which are those of the last
generation. -/
def esRound (env : EsEnv) (minF d : Nat) (X : List Row) (y : List Int) (g : Nat) (pop : List (ℚ × List Bool)) (k : Nat) :
    Res (ℚ × List Bool) := do
  let a ← getRow pop (env.i0 g k)
  let mask ←
    if env.cross g k then do
      let b ← getRow pop (env.i1 g k)
      esCrossover (env.coin g k) (fun s => env.refill g k s d) env.fuel minF a.2 b.2
    else esMutate (env.coin g k) (fun s => env.refill g k s d) env.fuel minF a.2
  let pred := env.predict (X.map (esRestrict mask)) y
  return (((List.zipWith (fun p q => decide (p = q)) y pred).count true : ℚ) / y.length, mask)

/-- `sorted(population, key=lambda x: -x[0])[:n_population]` (a stable sort). Used for oversampling/_e_smote.py:216-244. -/
def esSurvivors (l : List (ℚ × List Bool)) : List (ℚ × List Bool) := (l.insertionSort (fun a b => b.1 ≤ a.1)).take 5

/-- One generation, oversampling/_e_smote.py:216-244. -/
def esGeneration (env : EsEnv) (minF d : Nat) (X : List Row) (y : List Int) (pop : List (ℚ × List Bool)) (g : Nat) :
    Res (List (ℚ × List Bool)) := do
  let new ← (List.range 5).mapM (esRound env minF d X y g pop)
  return esSurvivors (pop ++ new)

/-- The search, oversampling/_e_smote.py:197-246: the mask found. -/
def esSearch (env : EsEnv) (minFeatures d : Nat) (X : List Row) (y : List Int) : Res (List Bool) := do
  let minF := min minFeatures d
  let mask := (List.replicate d false).set (env.start d) true
  let pop ← (List.range 50).foldlM (esGeneration env minF d X y) (List.replicate 5 (0, mask))
  let best ← getRow pop 0
  return best.2

/-- `E_SMOTE.sampling_algorithm`, oversampling/_e_smote.py:180-258. -/
def esAlg (env : EsEnv) (minFeatures : Nat) (par : SmoteParams) (vol : List Row → ℚ) (dr : Draws) (knn : Nat → List Row → List (List Nat))
    (d : Nat) (s : Stats) (X : List Row) (y : List Int) : Res (List Row × List Int) := do
  let n ← detNToSample (.num par.proportion) (s.count s.majLabel) (s.count s.minLabel)
  if n = 0 then return (X, y)
  let mask ← esSearch env minFeatures d X y
  smoteSample par vol dr (mask.count true) knn (X.map (esRestrict mask)) y

/-- The attribute `mask` after `sampling_algorithm`, if it was `old` before (oversampling/_e_smote.py:122, 246). -/
def esMaskAfter (env : EsEnv) (minFeatures : Nat) (par : SmoteParams) (d : Nat) (old : Option (List Bool)) (s : Stats) (X : List Row)
    (y : List Int) : Res (Option (List Bool)) := do
  let n ← detNToSample (.num par.proportion) (s.count s.majLabel) (s.count s.minLabel)
  if n = 0 then return old
  let mask ← esSearch env minFeatures d X y
  return some mask

/-- `preprocessing_transform`, oversampling/_e_smote.py:260-270. With `mask = None` the expression `X[:, None]` is a three-dimensional array, not a
matrix. -/
def esTransform (mask : Option (List Bool)) (X : List Row) : Option (List Row) := mask.map (fun m => X.map (esRestrict m))

end Verif

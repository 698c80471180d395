import Verif.Model.Noise
import Verif.Model.Metrics
import Verif.Model.Smote
import Verif.Model.Polynom
import Verif.Model.ProWSyn

/-!
# Oversamplers that relabel or remove rows: SPY, Stefanowski, SMOTE_ENN, SMOTE_TomekLinks, Gazzah
-/

namespace Verif

/-- The majority rows among the neighbours `nb`: `nb[y[nb] == maj_label]`.
Used for oversampling/_spy.py:135-142 and oversampling/_stefanowski.py:139-145. -/
def majorityAmong (y : List Int) (maj : Int) (nb : List Nat) : Res (List Nat) := do
  let ls ← takeRows y nb
  pure (((nb.zip ls).filter (fun p => decide (p.2 = maj))).map Prod.fst)

/-- The rows relabelled because of one minority row, oversampling/_spy.py:135-142. -/
def spyFlips (threshold : ℚ) (k : Nat) (y : List Int) (maj : Int) (row : List Nat) : Res (List Nat) := do
  let m ← majorityAmong y maj (row.drop 1)
  pure (if (m.length : ℚ) < threshold * k then m else [])

/-- `SPY.sampling_algorithm`, oversampling/_spy.py:108-156. `knn k X Q` is the neighbour query. -/
def spyAlg (threshold : ℚ) (nNeighbors : Nat) (knn : Nat → List Row → List Row → List (List Nat)) (s : Stats)
    (X : List Row) (y : List Int) : Res (List Row × List Int) := do
  let k := min X.length (nNeighbors + 1)
  let ind := knn k X (selectLabel X y s.minLabel)
  let flips ← ind.mapM (spyFlips threshold k y s.majLabel)
  return (X, assignAt y flips.flatten s.minLabel)

/-- The strategies of `Stefanowski`. Used for oversampling/_stefanowski.py:278-303 and oversampling/_stefanowski.py:283-289. -/
inductive StefStrategy
  | weakAmp | weakAmpRelabel | strongAmp
  deriving DecidableEq, Repr

/-- `safe_flag`, oversampling/_stefanowski.py:271-273. -/
def safeFlags (indices : List (List Nat)) (y : List Int) : Res (List Bool) :=
  (List.range y.length).mapM (fun i => do
    let m ← neighborMode indices y i
    let l ← getRow y i
    pure (decide (m = l)))

/-- Number of safe majority rows among the neighbours of row `i`: `k` in oversampling/_stefanowski.py:139-145, 200-206,
216-220 and 225-229. -/
def copiesOf (indices : List (List Nat)) (y : List Int) (safe : List Bool) (maj : Int) (i : Nat) : Res Nat := do
  let row ← getRow indices i
  let m ← majorityAmong y maj (row.drop 1)
  pure (m.filter (fun j => safe.getD j false)).length

/-- `create_multiples`, oversampling/_stefanowski.py:102-117. -/
def createMultiples (X : List Row) (indices : List (List Nat)) (y : List Int) (safe : List Bool) (maj : Int)
    (pos : List Nat) : Res (List Row) := do
  let parts ← pos.mapM (fun i => do
    let r ← getRow X i
    let k ← copiesOf indices y safe maj i
    pure (List.replicate k r))
  pure parts.flatten

/-- `weak_amp`, oversampling/_stefanowski.py:119-149. -/
def weakAmp (X : List Row) (indices : List (List Nat)) (y : List Int) (safe : List Bool) (s : Stats) : Res (List Row) :=
  createMultiples X indices y safe s.majLabel ((labelPositions y s.minLabel).filter (fun i => ! safe.getD i false))

/-- The relabelled rows, `ind` in oversampling/_stefanowski.py:166-174. -/
def relabelled (indices : List (List Nat)) (y : List Int) (safe : List Bool) (s : Stats) : Res (List Nat) := do
  let parts ← ((labelPositions y s.minLabel).filter (fun i => ! safe.getD i false)).mapM (fun i => do
    let row ← getRow indices i
    let m ← majorityAmong y s.majLabel (row.drop 1)
    pure (m.filter (fun j => ! safe.getD j false)))
  pure parts.flatten

/-- The collective test `scipy_mode(y[indices5[minority_masked, 1:]]).mode[:, 0] == y[minority_masked]`,
oversampling/_stefanowski.py:211-214. The call has no `axis=1`: the modes are taken down the columns, `[:, 0]` takes the mode of
the first neighbours of all unsafe minority rows, and the comparison broadcasts this single label. An empty array has no
columns: `[:, 0]` raises `IndexError`. -/
def strongCorrect (indices5 : List (List Nat)) (y : List Int) (minLabel : Int) (unsafePos : List Nat) : Res Bool := do
  if unsafePos = [] then throw .indexError
  let firsts ← unsafePos.mapM (fun i => do
    let row ← getRow indices5 i
    let j ← getRow row 1
    getRow y j)
  let m ← pyMode firsts
  pure (decide (m = minLabel))

/-- `strong_amp`, oversampling/_stefanowski.py:179-234. -/
def strongAmp (X : List Row) (indices indices5 : List (List Nat)) (y : List Int) (safe : List Bool) (s : Stats) :
    Res (List Row) := do
  let first ← createMultiples X indices y safe s.majLabel ((labelPositions y s.minLabel).filter (fun i => safe.getD i false))
  let unsafePos := (labelPositions y s.minLabel).filter (fun i => ! safe.getD i false)
  let correct ← strongCorrect indices5 y s.minLabel unsafePos
  let rest ← createMultiples X (if correct then indices else indices5) y safe s.majLabel unsafePos
  pure (first ++ rest)

/-- The samples of a strategy, oversampling/_stefanowski.py:278-303. -/
def StefStrategy.samples (st : StefStrategy) (X : List Row) (indices indices5 : List (List Nat)) (y : List Int)
    (safe : List Bool) (s : Stats) : Res (List Row) :=
  match st with
  | .strongAmp => Verif.strongAmp X indices indices5 y safe s
  | _ => Verif.weakAmp X indices y safe s

/-- The rows a strategy relabels, oversampling/_stefanowski.py:283-289. -/
def StefStrategy.flips (st : StefStrategy) (indices : List (List Nat)) (y : List Int) (safe : List Bool) (s : Stats) :
    Res (List Nat) :=
  match st with
  | .weakAmpRelabel => relabelled indices y safe s
  | _ => pure []

/-- `Stefanowski.sampling_algorithm`, oversampling/_stefanowski.py:236-320. -/
def stefanowskiAlg (strategy : StefStrategy) (knn : Nat → List Row → List (List Nat)) (s : Stats)
    (X : List Row) (y : List Int) : Res (List Row × List Int) := do
  let indices ← kneighbors knn (min 4 X.length) X
  let indices5 ← kneighbors knn (min 6 X.length) X
  let safe ← safeFlags indices y
  let D := (labelPositions y s.majLabel).filter (fun i => ! safe.getD i false)
  let samples ← strategy.samples X indices indices5 y safe s
  let ind ← strategy.flips indices y safe s
  let y1 := assignAt y ind s.minLabel
  let rem := D.filter (fun i => ! ind.contains i)
  let yk := npDelete y1 rem
  if (npUnique yk).length < 2 then return (X, y)
  return withSamples (npDelete X rem) yk s.minLabel samples

/-- The checks of `Stefanowski`, oversampling/_stefanowski.py:74 (six minority rows are not enough). -/
def stefanowskiChecks : List Check := [.minNMin 6]

/-- `SMOTE_ENN.sampling_algorithm`, oversampling/_smote_enn.py:117-149. -/
def smoteEnnAlg (par : SmoteParams) (vol : List Row → ℚ) (dr : Draws) (d : Nat) (knn : Nat → List Row → List (List Nat))
    (s : Stats) (X : List Row) (y : List Int) : Res (List Row × List Int) := do
  let new ← smoteSample par vol dr d knn X y
  let res ← ennRemove .both knn new.1 new.2
  if res.2.count s.majLabel < res.2.count s.minLabel ∨ (npUnique res.2).length < 2 then return (X, y)
  return res

/-- `SMOTE_TomekLinks.sampling_algorithm`, oversampling/_smote_tomeklinks.py:135-165. -/
def smoteTomekAlg (par : SmoteParams) (vol : List Row → ℚ) (dr : Draws) (d : Nat) (knn : Nat → List Row → List (List Nat))
    (_s : Stats) (X : List Row) (y : List Int) : Res (List Row × List Int) := do
  let new ← smoteSample par vol dr d knn X y
  let res ← tomekRemove .removeBoth knn new.1 new.2
  if res.1.length = 0 then return (X, y)
  return res

/-- `Gazzah.sampling_algorithm`, oversampling/_gazzah.py:107-156. `far maj` are the majority rows whose projection onto the
principal components is longer than the total deviation. -/
def gazzahAlg (proportion : ℚ) (far : List Row → List Nat) (d : Nat) (s : Stats) (X : List Row) (y : List Int) :
    Res (List Row × List Int) := do
  let samp ← polynomClass proportion .star d X y
  let new := samp.1.drop X.length
  if new.length = 0 then return (X, y)
  let Xmaj := selectLabel X y s.majLabel
  let kept := npDelete Xmaj (far Xmaj)
  return (kept ++ new, List.replicate kept.length s.majLabel ++ List.replicate new.length s.minLabel)

end Verif

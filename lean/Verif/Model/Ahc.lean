import Verif.Model.Interp

/-!
# AHC

`children` is `AgglomerativeClustering(n_clusters=1).fit(X).children_`, `kmeans n rows` are the centres of `KMeans(n)`. `depth` is the
number of nested calls the interpreter allows.
-/

namespace Verif

/-- `cluster_centers`, oversampling/_ahc.py:113-139. The two lists filled by the function are one list of pairs. -/
def ahcCenters (X : List Row) (children : List (Nat × Nat)) : Nat → Nat → List (Option (Row × ℚ)) →
    Res ((Row × ℚ) × List (Option (Row × ℚ)))
  | 0, _, _ => .error .recursionError
  | f + 1, idx, st =>
    if idx < X.length then do
      let x ← getRow X idx
      return ((x, 1), st)
    else do
      let c ← getRow st (idx - X.length)
      match c with
      | some v => return (v, st)
      | none => do
        let ch ← getRow children (idx - X.length)
        let a ← ahcCenters X children f ch.1 st
        let b ← ahcCenters X children f ch.2 a.2
        let v := (Row.smul (1 / (a.1.2 + b.1.2)) (Row.add (Row.smul a.1.2 a.1.1) (Row.smul b.1.2 b.1.1)), a.1.2 + b.1.2)
        return (v, b.2.set (idx - X.length) (some v))

/-- `sample_minority`, oversampling/_ahc.py:96-143. Entries left `None` make `vstack` raise. -/
def ahcMinority (children : List Row → List (Nat × Nat)) (depth : Nat) (X : List Row) : Res (List Row) := do
  let ch := children X
  match ch.getLast? with
  | none => .error .indexError
  | some last => do
    let r ← ahcCenters X ch depth (last.2 + 1) (List.replicate ch.length none)
    r.2.mapM (fun c => match c with
      | none => .error .valueError
      | some v => .ok v.1)

/-- The parameter `strategy`, checked by the constructor, oversampling/_ahc.py:61. -/
inductive AhcStrategy
  | min | maj | minmaj

/-- `AHC.sampling_algorithm`, oversampling/_ahc.py:145-201. -/
def ahcAlg (strategy : AhcStrategy) (children : List Row → List (Nat × Nat)) (kmeans : Nat → List Row → List Row) (depth : Nat)
    (s : Stats) (X : List Row) (y : List Int) : Res (List Row × List Int) := do
  let Xmin := selectLabel X y s.minLabel
  let Xmaj := selectLabel X y s.majLabel
  match strategy with
  | .maj =>
    let maj := kmeans Xmin.length Xmaj
    return (Xmin ++ maj, List.replicate Xmin.length s.minLabel ++ List.replicate maj.length s.majLabel)
  | .min => do
    let new ← ahcMinority children depth Xmin
    return (new ++ Xmin ++ Xmaj, List.replicate (new.length + Xmin.length) s.minLabel ++ List.replicate Xmaj.length s.majLabel)
  | .minmaj => do
    let new ← ahcMinority children depth Xmin
    let maj := kmeans (min Xmaj.length (new.length + Xmin.length)) Xmaj
    return (new ++ Xmin ++ maj, List.replicate (new.length + Xmin.length) s.minLabel ++ List.replicate maj.length s.majLabel)

end Verif

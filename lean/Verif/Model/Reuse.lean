import Verif.Model.PsoBat
import Verif.Model.Mot2ld
import Verif.Model.Somo
import Verif.Model.SoiCj
import Verif.Model.Esmote

/-!
# Oversamplers as objects

What a call of `sample` writes into the object: the attributes of `StatisticsMixin`, and the fields some algorithms change.
-/

namespace Verif

/-- `self.class_stats`, `self.min_label`, `self.maj_label`; `none` before the first assignment. Used for base/_base.py:297-307. -/
structure ClassAttrs where
  classStats : Option (List (Int × Nat)) := none
  minLabel : Option Int := none
  majLabel : Option Int := none
deriving DecidableEq

/-- `class_label_statistics`, base/_base.py:297-307, as assignments: `class_stats` is written before the labels are looked for. -/
def setStatistics (y : List Int) (c : ClassAttrs) : Res Unit × ClassAttrs :=
  match npUniqueCounts y with
  | (u0, c0) :: (u1, c1) :: rest =>
    (.ok (), { classStats := some ((u0, c0) :: (u1, c1) :: rest), minLabel := some (if c0 < c1 then u0 else u1),
               majLabel := some (if c0 < c1 then u1 else u0) })
  | l => (.error .indexError, { c with classStats := some l })

/-- The attributes as the algorithms read them; the three are read at once here. Used for base/_oversampling.py:170-176 and
base/_oversampling.py:229-232. -/
def ClassAttrs.read (c : ClassAttrs) : Res Stats :=
  match c.classStats, c.minLabel, c.majLabel with
  | some cs, some a, some b => .ok { classStats := cs, minLabel := a, majLabel := b }
  | _, _, _ => .error .attributeError

/-- An oversampler: the attributes of the statistics and the fields its algorithm may change. Used for base/_oversampling.py:212-247. -/
structure SamplerObj (P : Type) where
  attrs : ClassAttrs := {}
  fields : P

/-- One call of `sample`: the data, with `d` columns, and what `sampling_algorithm` does with the numbers drawn in this call: the outcome and the
fields left behind. Used for base/_oversampling.py:212-247. -/
structure SampleCall (P : Type) where
  d : Nat
  X : List Row
  y : List Int
  alg : P → Stats → List Row → List Int → Res (List Row × List Int) × P

/-- `OverSamplingBase.sample`, base/_oversampling.py:212-247, as a change of the object. -/
def sampleOn {P : Type} (checks : List Check) (c : SampleCall P) (o : SamplerObj P) : Res (List Row × List Int) × SamplerObj P :=
  match setStatistics c.y o.attrs with
  | (.error e, at') => (.error e, { o with attrs := at' })
  | (.ok _, at') =>
    match at'.read with
    | .error e => (.error e, { o with attrs := at' })
    | .ok s =>
      if checksFire (s.count s.minLabel) c.d checks then (.ok (c.X, c.y), { o with attrs := at' })
      else
        let r := c.alg o.fields s c.X c.y
        (r.1, { attrs := at', fields := r.2 })

/-- The object after some calls; the caller goes on after an exception. Used for base/_oversampling.py:212-247. -/
def afterCalls {P : Type} (checks : List Check) : List (SampleCall P) → SamplerObj P → SamplerObj P
  | [], o => o
  | c :: cs, o => afterCalls checks cs (sampleOn checks c o).2

/-- `MOT2LD.sampling_algorithm`, oversampling/_mot2ld.py:457-467: an object with `n_components = nc`. `tsne nc` is the embedding into `nc`
dimensions. -/
def motObjAlg (par : MotParams) (env : MotEnv) (tsne : Nat → List Row → List Row) (vol : List Row → ℚ) (cu : Nat → ℚ) (drs : Nat → Draws) (d : Nat)
    (nc : Nat) (s : Stats) (X : List Row) (y : List Int) : Res (List Row × List Int) × Nat :=
  match detNToSample (.num par.proportion) (s.count s.majLabel) (s.count s.minLabel) with
  | .error e => (.error e, nc)
  | .ok 0 => (.ok (X, y), nc)
  | .ok (_ + 1) =>
    let nc' := if d < nc then min nc d else nc
    (motAlg par { env with tsne := tsne nc' } vol cu drs d s X y, nc')

/-- `SMOTE_PSOBAT.sampling_algorithm`, oversampling/_smote_psobat.py:791-814: an object with `k_range[1] = hi`. -/
def psobatObjAlg (env : PbEnv) (par : PbParams) (ss : SSParams) (vol : List Row → ℚ) (dr : Draws) (d : Nat)
    (knn : Nat → List Row → List (List Nat)) (hi : Nat) (s : Stats) (X : List Row) (y : List Int) : Res (List Row × List Int) × Nat :=
  (psobatAlg env par hi ss vol dr d knn s X y, pbRange hi (s.count s.minLabel))

/-- The loop of `generate_inter` with the assignments to `n_dim`, oversampling/_somo.py:303-312 and 329-346: the pairs of clusters still to do, an
object with `n_dim = nd`. -/
def somoInterLoop (ss : SSParams) (vol : List Row → ℚ) (drs : Nat → Draws) (d : Nat) (task : Nat → Res ClusterTask) (nd : Nat) :
    List ((Nat × Nat) × Nat) → Res (List (List Row)) × Nat
  | [] => (.ok [], nd)
  | p :: ps =>
    match task p.1.1 with
    | .error e => (.error e, nd)
    | .ok t =>
      match sampleSimplex { ss with nDim := 2 } vol (drs p.2) d t.rows t.indices t.k p.1.2 t.args with
      | .error e => (.error e, 2)
      | .ok r =>
        let rest := somoInterLoop ss vol drs d task nd ps
        (rest.1.map (r :: ·), rest.2)

/-- `generate_inter`, oversampling/_somo.py:314-357, of an object with `n_dim = nd`. -/
def somoInterObj (ss : SSParams) (vol : List Row → ℚ) (cu : Nat → ℚ) (drs : Nat → Draws) (d : Nat) (cells : List MapCell)
    (X : List Row) (y : List Int) (a : Int) (ps : List ((MapCell × MapCell) × ℚ)) (n nd : Nat) : Res (List Row) × Nat :=
  if ps.length = 0 then (.ok [], nd)
  else
    match npChoice ps.length n (somoProbs (ps.map Prod.snd)) cu with
    | .error e => (.error e, nd)
    | .ok selected =>
      if selected.length = 0 then (.ok [], nd)
      else
        let r := somoInterLoop ss vol drs d (somoInter cells X y a (ps.map Prod.fst)) nd (npUniqueCounts selected).zipIdx
        (r.1.map List.flatten, r.2)

/-- `SOMO.sampling_algorithm`, oversampling/_somo.py:359-423, of an object with `n_dim = nd`. -/
def somoObjAlg (par : NbParams) (som : List Row → Row → MapCell) (pdist : Row → Row → ℚ) (vol : List Row → ℚ) (cu cu' : Nat → ℚ)
    (drs drs' : Nat → Draws) (d : Nat) (nd : Nat) (s : Stats) (X : List Row) (y : List Int) : Res (List Row × List Int) × Nat :=
  match detNToSample (.num par.proportion) (s.count s.majLabel) (s.count s.minLabel) with
  | .error e => (.error e, nd)
  | .ok n =>
    if n = 0 then (.ok (X, y), nd)
    else
      match somoDensities pdist (X.map (som X)) X y s.minLabel with
      | .error e => (.error e, nd)
      | .ok ds =>
        if ds.length = 0 then (.ok (X, y), nd)
        else
          let half := if 0 < (somoPairs ds).length then n / 2 else n
          match somoGenIntra { par.ss with nDim := nd } vol cu drs d (X.map (som X)) X y s.minLabel ds half with
          | .error e => (.error e, nd)
          | .ok intra =>
            let r := somoInterObj par.ss vol cu' drs' d (X.map (som X)) X y s.minLabel (somoPairs ds) (n - half) nd
            (r.1.map (fun inter => withSamples X y s.minLabel (intra ++ inter)), r.2)

/-- `SOI_CJ.sampling_algorithm`, oversampling/_soi_cj.py:410-467, of an object with `gaussian_component = g`. The component left behind, the standard
deviations of the last cluster sampled by jittering (line 353), is a parameter. -/
def soiObjAlg (par : NbParams) (method : SoiMethod) (env : SoiEnv) (vol : List Row → ℚ) (fuel d : Nat) (left : Gaussian → Stats → List Row → List Int → Gaussian)
    (g : Gaussian) (s : Stats) (X : List Row) (y : List Int) : Res (List Row × List Int) × Gaussian :=
  (soiAlg { par with ss := { par.ss with gaussian := g } } method env vol fuel d s X y, left g s X y)

/-- `E_SMOTE.sampling_algorithm`, oversampling/_e_smote.py:180-258, of an object with the attribute `mask`. -/
def esObjAlg (env : EsEnv) (minFeatures : Nat) (par : SmoteParams) (vol : List Row → ℚ) (dr : Draws) (knn : Nat → List Row → List (List Nat))
    (d : Nat) (mask : Option (List Bool)) (s : Stats) (X : List Row) (y : List Int) : Res (List Row × List Int) × Option (List Bool) :=
  (esAlg env minFeatures par vol dr knn d s X y,
    match esMaskAfter env minFeatures par d mask s X y with
    | .ok m => m
    | .error _ => mask)

end Verif

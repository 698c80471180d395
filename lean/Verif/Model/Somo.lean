import Verif.Model.Mwmote

/-!
# SOMO

`som X x` is the winner cell of the row `x` after the training of the self-organising map with the rows `X`, `pdist` the distance of
two rows (a metric tensor is part of it).
-/

namespace Verif

/-- Used for oversampling/_somo.py:150-156 and oversampling/_somo.py:157-158. -/
abbrev MapCell := Int × Int

/-- The keys of `grid_min` and `grid_maj`, oversampling/_somo.py:150-156: the cells in the order of their first row. -/
def gridKeys (cells : List MapCell) : List MapCell :=
  cells.foldl (fun ks c => if c ∈ ks then ks else ks ++ [c]) []

/-- `grid_min[c]`, oversampling/_somo.py:157-158. -/
def gridMin (cells : List MapCell) (y : List Int) (a : Int) (c : MapCell) : List Nat :=
  (List.range y.length).filter (fun i => decide (cells[i]? = some c) && decide (y[i]? = some a))

/-- `grid_maj[c]`, oversampling/_somo.py:159-160. -/
def gridMaj (cells : List MapCell) (y : List Int) (a : Int) (c : MapCell) : List Nat :=
  (List.range y.length).filter (fun i => decide (cells[i]? = some c) && !decide (y[i]? = some a))

/-- The density of a cell, oversampling/_somo.py:197-202: the mean is over the whole matrix of distances. -/
def somoDensity (pdist : Row → Row → ℚ) (rows : List Row) : ℚ :=
  let mean := (rows.map (fun p => (rows.map (pdist p)).sum)).sum / ((rows.length : ℚ) * (rows.length : ℚ))
  if 1 < rows.length ∧ 0 < mean then (rows.length : ℚ) / mean ^ 2 else 10

/-- `determine_densities`, oversampling/_somo.py:170-204. -/
def somoDensities (pdist : Row → Row → ℚ) (cells : List MapCell) (X : List Row) (y : List Int) (a : Int) : Res (List (MapCell × ℚ)) :=
  ((gridKeys cells).filter (fun c => decide
    ((((gridMaj cells y a c).length : ℚ) + 1) / (((gridMin cells y a c).length : ℚ) + 1) < 1))).mapM (fun c => do
      let rows ← takeRows X (gridMin cells y a c)
      return (c, somoDensity pdist rows))

/-- `determine_pair_densities`, oversampling/_somo.py:206-225. -/
def somoPairs (ds : List (MapCell × ℚ)) : List ((MapCell × MapCell) × ℚ) :=
  ds.flatMap (fun (p : MapCell × ℚ) => [((0 : Int), (1 : Int)), (0, -1), (1, 0), (-1, 0)].filterMap (fun (o : Int × Int) =>
    (ds.lookup (p.1.1 + o.1, p.1.2 + o.2)).map (fun (q : ℚ) => ((p.1, (p.1.1 + o.1, p.1.2 + o.2)), p.2 + q))))

/-- `create_density_from_dict`, oversampling/_somo.py:227-242. The densities are positive, so no division is by zero. -/
def somoProbs (values : List ℚ) : List ℚ := fixDensity (values.map (fun q => XF.fin (1 / q)))

/-- The loop of `generate_intra` (oversampling/_somo.py:258-274) and `generate_inter` (329-346): the samples start with no rows, so
that an empty selection gives none. -/
def somoCalls (ss : SSParams) (vol : List Row → ℚ) (drs : Nat → Draws) (d : Nat) (task : Nat → Res ClusterTask)
    (selected : List Nat) : Res (List Row) :=
  if selected.length = 0 then .ok [] else sampleInClusters ss vol drs d task selected

/-- The call of `sample_simplex` in `generate_intra`, oversampling/_somo.py:266-273. -/
def somoIntra (cells : List MapCell) (X : List Row) (y : List Int) (a : Int) (keys : List MapCell) (i : Nat) : Res ClusterTask := do
  let c ← getRow keys i
  let rows ← takeRows X (gridMin cells y a c)
  return { rows := rows, indices := circulant rows.length, k := rows.length }

/-- The call of `sample_simplex` in `generate_inter_samples`, oversampling/_somo.py:287-312 and 341-345. -/
def somoInter (cells : List MapCell) (X : List Row) (y : List Int) (a : Int) (keys : List (MapCell × MapCell)) (i : Nat) :
    Res ClusterTask := do
  let p ← getRow keys i
  let A ← takeRows X (gridMin cells y a p.1)
  let B ← takeRows X (gridMin cells y a p.2)
  return { rows := A, indices := List.replicate A.length (0 :: List.range B.length), k := B.length + 1, args := { Xv := some B } }

/-- `generate_intra`, oversampling/_somo.py:244-285. -/
def somoGenIntra (ss : SSParams) (vol : List Row → ℚ) (cu : Nat → ℚ) (drs : Nat → Draws) (d : Nat) (cells : List MapCell)
    (X : List Row) (y : List Int) (a : Int) (ds : List (MapCell × ℚ)) (n : Nat) : Res (List Row) := do
  let selected ← npChoice ds.length n (somoProbs (ds.map Prod.snd)) cu
  somoCalls ss vol drs d (somoIntra cells X y a (ds.map Prod.fst)) selected

/-- `generate_inter`, oversampling/_somo.py:314-357, with `n_dim` set to 2 (303-310). -/
def somoGenInter (ss : SSParams) (vol : List Row → ℚ) (cu : Nat → ℚ) (drs : Nat → Draws) (d : Nat) (cells : List MapCell)
    (X : List Row) (y : List Int) (a : Int) (ps : List ((MapCell × MapCell) × ℚ)) (n : Nat) : Res (List Row) :=
  if ps.length = 0 then .ok []
  else do
    let selected ← npChoice ps.length n (somoProbs (ps.map Prod.snd)) cu
    somoCalls { ss with nDim := 2 } vol drs d (somoInter cells X y a (ps.map Prod.fst)) selected

/-- `SOMO.sampling_algorithm`, oversampling/_somo.py:359-423. `cu`, `cu'` are the draws of the two choices, `drs`, `drs'` those of the
calls of `sample_simplex`. -/
def somoAlg (par : NbParams) (som : List Row → Row → MapCell) (pdist : Row → Row → ℚ) (vol : List Row → ℚ) (cu cu' : Nat → ℚ)
    (drs drs' : Nat → Draws) (d : Nat) (s : Stats) (X : List Row) (y : List Int) : Res (List Row × List Int) := do
  let n ← detNToSample (.num par.proportion) (s.count s.majLabel) (s.count s.minLabel)
  if n = 0 then return (X, y)
  let cells := X.map (som X)
  let ds ← somoDensities pdist cells X y s.minLabel
  if ds.length = 0 then return (X, y)
  let ps := somoPairs ds
  let half := if 0 < ps.length then n / 2 else n
  let intra ← somoGenIntra par.ss vol cu drs d cells X y s.minLabel ds half
  let inter ← somoGenInter par.ss vol cu' drs' d cells X y s.minLabel ps (n - half)
  return withSamples X y s.minLabel (intra ++ inter)

end Verif

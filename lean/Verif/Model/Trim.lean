import Verif.Model.Regions
import Mathlib.Data.List.Sort

/-!
# TRIM_SMOTE

A node of the partition is the list of its rows with their labels. `knn k X Q` is the answer of the neighbour search.
-/

namespace Verif

/-- The parameters of `TRIM_SMOTE.__init__`, oversampling/_trim_smote.py:55-105. -/
structure TrimParams where
  proportion : ℚ
  nNeighbors : Nat
  minPrecision : ℚ
  ss : SSParams

/-- A pair `(X, y)` of arrays, row by row. Used for oversampling/_trim_smote.py:122-132 and oversampling/_trim_smote.py:134-144. -/
abbrev TNode := List (Row × Int)

/-- `TRIM_SMOTE.trim`, oversampling/_trim_smote.py:122-132. -/
def trimOf (a : Int) (node : TNode) : ℚ := ((node.map Prod.snd).count a : ℚ) ^ 2 / (node.length : ℚ)

/-- `TRIM_SMOTE.precision`, oversampling/_trim_smote.py:134-144. -/
def trimPrecision (a : Int) (node : TNode) : ℚ := ((node.map Prod.snd).count a : ℚ) / (node.length : ℚ)

/-- The local variables of `determine_splitting_point`. Used for oversampling/_trim_smote.py:178-199. -/
structure TrimScan where
  left : Nat
  right : Nat
  best : ℚ
  split : Option (Nat × ℚ)

/-- The body of the inner loop, oversampling/_trim_smote.py:178-199; `sorted_y[jdx - 1]` is the last label for `jdx = 0`. -/
def trimStep (a : Int) (border : Bool) (idx : Nat) (s : List (ℚ × Int)) (st : TrimScan) (j : Nat) : TrimScan :=
  let st1 := if (s.getD j (0, 0)).2 = a then { st with left := st.left + 1, right := st.right - 1 } else st
  if (border = false ∨ (s.getD (if j = 0 then s.length - 1 else j - 1) (0, 0)).2 ≠ (s.getD j (0, 0)).2) ∧
      (s.getD j (0, 0)).1 ≠ (s.getD (j + 1) (0, 0)).1 then
    let trimLeft := (st1.left : ℚ) ^ 2 / ((j : ℚ) + 1)
    let trimRight := (st1.right : ℚ) ^ 2 / ((s.length : ℚ) - (j : ℚ) - 1)
    if st1.best < max trimLeft trimRight then
      { st1 with best := max trimLeft trimRight, split := some (idx, (s.getD j (0, 0)).1) }
    else st1
  else st1

/-- `sorted(zip(X[:, idx], y), key=lambda pair: pair[0])`, oversampling/_trim_smote.py:167-169 (the sort is stable). -/
def trimSorted (idx : Nat) (node : TNode) : List (ℚ × Int) :=
  (node.map (fun p => (p.1.getD idx 0, p.2))).insertionSort (fun p q => p.1 ≤ q.1)

/-- The body of the loop over the attributes, oversampling/_trim_smote.py:165-199. -/
def trimColumn (a : Int) (border : Bool) (node : TNode) (acc : ℚ × Option (Nat × ℚ)) (idx : Nat) : ℚ × Option (Nat × ℚ) :=
  let s := trimSorted idx node
  let st := (List.range (s.length - 1)).foldl (trimStep a border idx s)
    { left := 0, right := (s.map Prod.snd).count a, best := acc.1, split := acc.2 }
  (st.best, st.split)

/-- `TRIM_SMOTE.determine_splitting_point`, oversampling/_trim_smote.py:146-206. -/
def trimSplit (a : Int) (border : Bool) (d : Nat) (node : TNode) : (Nat × ℚ) × Bool :=
  let r := (List.range d).foldl (trimColumn a border node) (0, none)
  match r.2 with
  | some sp => (sp, decide (trimOf a node < r.1))
  | none => ((0, 0), false)

/-- The two parts of a node which have a minority row, oversampling/_trim_smote.py:232-244 and 275-290. -/
def trimParts (a : Int) (sp : Nat × ℚ) (node : TNode) : List TNode :=
  let left := node.filter (fun p => decide (p.1.getD sp.1 0 ≤ sp.2))
  let right := node.filter (fun p => !decide (p.1.getD sp.1 0 ≤ sp.2))
  [left, right].filter (fun part => decide (0 < (part.map Prod.snd).count a))

/-- `TRIM_SMOTE.leaf_loop`, oversampling/_trim_smote.py:208-249: the candidates and the new leafs. -/
def leafLoop (a : Int) (d : Nat) (leafs candidates : List TNode) : List TNode × List TNode :=
  (leafs.filter (fun leaf => decide (1 < leaf.length))).foldl (fun st leaf =>
    let r := trimSplit a true d leaf
    if r.2 then (st.1, st.2 ++ trimParts a r.1 leaf) else (st.1 ++ [leaf], st.2)) (candidates, [])

/-- `TRIM_SMOTE.candidate_loop`, oversampling/_trim_smote.py:251-295: the leafs and the seeds. -/
def candidateLoop (a : Int) (d : Nat) (leafs candidates seeds : List TNode) : List TNode × List TNode :=
  (candidates.filter (fun cand => decide (1 < cand.length))).foldl (fun st cand =>
    let r := trimSplit a false d cand
    if r.2 then (st.1 ++ trimParts a r.1 cand, st.2) else (st.1, st.2 ++ [cand])) (leafs, seeds)

/-- The loop of `TRIM_SMOTE.trimming`, oversampling/_trim_smote.py:316-327; `candidates` is empty between the rounds. The first
argument bounds the number of rounds (that the bound in use is enough is a theorem). -/
def trimLoop (a : Int) (d : Nat) : Nat → List TNode → List TNode → Res (List TNode)
  | 0, _, _ => .error .recursionError
  | f + 1, leafs, seeds =>
    if 0 < leafs.length then
      let r := leafLoop a d leafs []
      let q := candidateLoop a d r.2 r.1 seeds
      trimLoop a d f q.1 q.2
    else .ok seeds

/-- `TRIM_SMOTE.trimming`, oversampling/_trim_smote.py:297-329. -/
def trimming (a : Int) (d : Nat) (X : List Row) (y : List Int) : Res (List TNode) :=
  trimLoop a d (X.length + 1) [X.zip y] []

/-- The loop which lowers the threshold, oversampling/_trim_smote.py:391-395, bounded by the first argument. -/
def trimFilter (a : Int) (minPrecision : ℚ) (seeds : List TNode) : Nat → ℚ → List TNode → Res (List TNode)
  | 0, _, _ => .error .recursionError
  | f + 1, multiplier, filtered =>
    if filtered.length = 0 then
      trimFilter a minPrecision seeds f (multiplier * (9 / 10))
        (seeds.filter (fun s => decide (minPrecision * multiplier < trimPrecision a s)))
    else .ok filtered

/-- `TRIM_SMOTE.sampling_algorithm`, oversampling/_trim_smote.py:363-411, with `generate_samples` (331-361). -/
def trimSmoteAlg (par : TrimParams) (vol : List Row → ℚ) (dr : Draws) (d : Nat)
    (knn : Nat → List Row → List Row → List (List Nat)) (s : Stats) (X : List Row) (y : List Int) :
    Res (List Row × List Int) := do
  let n ← detNToSample (.num par.proportion) (s.count s.majLabel) (s.count s.minLabel)
  if n = 0 then return (X, y)
  let seeds ← trimming s.minLabel d X y
  if (seeds.filter (fun t => decide (par.minPrecision / 10 < trimPrecision s.minLabel t))).length = 0 then return (X, y)
  let filtered ← trimFilter s.minLabel par.minPrecision seeds 24 (9 / 10)
    (seeds.filter (fun t => decide (par.minPrecision < trimPrecision s.minLabel t)))
  let seedRows := filtered.flatten
  let Xseed := selectLabel (seedRows.map Prod.fst) (seedRows.map Prod.snd) s.minLabel
  let k := min Xseed.length (par.nNeighbors + 1)
  let samples ← sampleSimplex par.ss vol dr d Xseed (knn k Xseed Xseed) k n {}
  return withSamples X y s.minLabel samples

end Verif

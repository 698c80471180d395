import Verif.Py

/-!
# The merging loops of `CBSO`, `Assembled_SMOTE` and `A_SUWO`

A square distance matrix is its size with an entry function (only indices below the size matter); `none` is `np.inf`. Each
loop runs at most `fuel` rounds and returns `none` when it has not ended by then; that enough rounds always exist is a
theorem.
-/

namespace Verif

/-- A square matrix of distances. Used for oversampling/_cbso.py:165-173 and oversampling/_cbso.py:141-147. -/
structure DMat where
  n : Nat
  d : Nat → Nat → Option ℚ

/-- `min` on distances with infinity. Used for oversampling/_cbso.py:150-173 and oversampling/_assembled_smote.py:205-260. -/
def minD : Option ℚ → Option ℚ → Option ℚ
  | none, b => b
  | a, none => a
  | some a, some b => some (min a b)

/-- `a > b` for distances with infinity. Used for oversampling/_cbso.py:150-173 and oversampling/_a_suwo.py:442-451. -/
def gtD : Option ℚ → Option ℚ → Bool
  | none, none => false
  | none, some _ => true
  | some _, none => false
  | some a, some b => decide (b < a)

/-- All index pairs in row-major order. Used for oversampling/_cbso.py:150-173 and oversampling/_assembled_smote.py:205-260. -/
def pairsOf (n : Nat) : List (Nat × Nat) := (List.range n).flatMap (fun i => (List.range n).map (fun j => (i, j)))

/-- `np.min(distm)`; the minimum of an empty array raises `ValueError`.
Used for oversampling/_cbso.py:150-173 and oversampling/_assembled_smote.py:205-260. -/
def DMat.min (m : DMat) : Res (Option ℚ) :=
  if m.n = 0 then .error .valueError else .ok ((pairsOf m.n).foldr (fun p acc => minD (m.d p.1 p.2) acc) none)

/-- `min_coord = np.where(distm == v); (min_coord[0][0], min_coord[1][0])`: the first position of the value, row by row.
Used for oversampling/_cbso.py:150-173 and oversampling/_assembled_smote.py:205-260. -/
def DMat.firstAt (m : DMat) (v : Option ℚ) : Res (Nat × Nat) :=
  match (pairsOf m.n).find? (fun p => decide (m.d p.1 p.2 = v)) with
  | some p => .ok p
  | none => .error .indexError

/-- Index in the old matrix of the index `i` in the matrix without row and column `b`. Used for oversampling/_cbso.py:165-173. -/
def skipIdx (b i : Nat) : Nat := if i < b then i else i + 1

/-- `distm[a] = np.min(np.vstack([distm[a], distm[b]]), axis=0)`. Used for oversampling/_cbso.py:165-173. -/
def minRow (d : Nat → Nat → Option ℚ) (a b : Nat) : Nat → Nat → Option ℚ :=
  fun i j => if i = a then minD (d a j) (d b j) else d i j
/-- `distm[:, a] = distm[a]`. Used for oversampling/_cbso.py:165-173. -/
def copyRowToCol (d : Nat → Nat → Option ℚ) (a : Nat) : Nat → Nat → Option ℚ :=
  fun i j => if j = a then d a i else d i j
/-- `for idx in range(len(distm)): distm[idx, idx] = np.inf`. Used for oversampling/_cbso.py:165-173 and oversampling/_cbso.py:141-147. -/
def infDiag (d : Nat → Nat → Option ℚ) : Nat → Nat → Option ℚ := fun i j => if i = j then none else d i j

/-- The matrix after merging `b` into `a`: oversampling/_cbso.py:165-173, oversampling/_assembled_smote.py:217-226 and 247-256,
oversampling/_a_suwo.py:465-475. -/
def DMat.merge (m : DMat) (a b : Nat) : DMat :=
  { n := m.n - 1
    d := infDiag (fun i j => copyRowToCol (minRow m.d a b) a (skipIdx b i) (skipIdx b j)) }

/-- `distm[a, b] = np.inf; distm[b, a] = np.inf`. Used for oversampling/_assembled_smote.py:205-260 and oversampling/_a_suwo.py:412-483. -/
def DMat.forbid (m : DMat) (a b : Nat) : DMat :=
  { m with d := fun i j => if (i = a ∧ j = b) ∨ (i = b ∧ j = a) then none else m.d i j }

/-- `clusters[a] = np.hstack([clusters[a], clusters[b]]); del clusters[b]`.
Used for oversampling/_cbso.py:150-173 and oversampling/_assembled_smote.py:205-260. -/
def mergeClusters (clusters : List (List Nat)) (a b : Nat) : List (List Nat) :=
  (clusters.set a (clusters.getD a [] ++ clusters.getD b [])).eraseIdx b

/-- `[np.array([i]) for i in range(n)]`. Used for oversampling/_cure_smote.py:123-189 and oversampling/_cbso.py:120-181. -/
def singletons (n : Nat) : List (List Nat) := (List.range n).map (fun i => [i])

/-- The matrix at the start of the loops: pairwise distances with an infinite diagonal, oversampling/_cbso.py:141-147,
oversampling/_assembled_smote.py:198-202, oversampling/_a_suwo.py:205-209. -/
def DMat.start (n : Nat) (D : Nat → Nat → ℚ) : DMat := { n := n, d := infDiag (fun i j => some (D i j)) }

/-- The loop of `CBSO.do_clustering`, oversampling/_cbso.py:150-173, with threshold `T`. -/
def cbsoLoop (T : ℚ) : Nat → List (List Nat) → DMat → Res (Option (List (List Nat)))
  | 0, _, _ => .ok none
  | f + 1, clusters, m => do
    let v ← m.min
    let p ← m.firstAt v
    if gtD v (some T) || m.n == 1 then return some clusters
    cbsoLoop T f (mergeClusters clusters p.1 p.2) (m.merge p.1 p.2)

/-- The cluster index of every point, oversampling/_cbso.py:176-179. -/
def clusterLabels (n : Nat) (clusters : List (List Nat)) : List Nat :=
  clusters.zipIdx.foldl (fun labels ci => ci.1.foldl (fun l j => l.set j ci.2) labels) (List.replicate n 0)

/-- The loop of `Assembled_SMOTE.do_the_clustering`, oversampling/_assembled_smote.py:205-260. `aligned c c'` says whether the
angle between the principal directions of two clusters is above the threshold. -/
def assembledLoop (pop : Nat) (aligned : List Nat → List Nat → Bool) :
    Nat → List (List Nat) → DMat → Res (Option (List (List Nat)))
  | 0, _, _ => .ok none
  | f + 1, clusters, m =>
    if m.n ≤ 1 then .ok (some clusters)
    else do
      let v ← m.min
      if v = none then return some clusters
      let p ← m.firstAt v
      let ca := clusters.getD p.1 []
      let cb := clusters.getD p.2 []
      if ca.length < pop ∨ cb.length < pop ∨ aligned ca cb then
        assembledLoop pop aligned f (mergeClusters clusters p.1 p.2) (m.merge p.1 p.2)
      else assembledLoop pop aligned f clusters (m.forbid p.1 p.2)

/-- `dm_maj[i] = min(dm_maj[i], dm_maj[j]); dm_maj = np.delete(dm_maj, j, axis=0)`, oversampling/_a_suwo.py:478-481. -/
def mergeRows (dmMaj : List Row) (a b : Nat) : List Row :=
  (dmMaj.set a (List.zipWith min (dmMaj.getD a []) (dmMaj.getD b []))).eraseIdx b

/-- Is there a majority cluster closer than `v` to both, oversampling/_a_suwo.py:442-451. -/
def majorityBetween (dmMaj : List Row) (a b : Nat) (v : Option ℚ) : Bool :=
  (List.zip (dmMaj.getD a []) (dmMaj.getD b [])).any (fun q => gtD v (some q.1) && gtD v (some q.2))

/-- `A_SUWO.cluster_minority_samples`, oversampling/_a_suwo.py:412-483. -/
def asuwoLoop (T : ℚ) : Nat → List (List Nat) → List Row → DMat → Res (Option (List (List Nat)))
  | 0, _, _, _ => .ok none
  | f + 1, clusters, dmMaj, m => do
    let v ← m.min
    if gtD v (some T) then return some clusters
    let p ← m.firstAt v
    if majorityBetween dmMaj p.1 p.2 v then asuwoLoop T f clusters dmMaj (m.forbid p.1 p.2)
    else asuwoLoop T f (mergeClusters clusters p.1 p.2) (mergeRows dmMaj p.1 p.2) (m.merge p.1 p.2)

end Verif

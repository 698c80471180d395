import Verif.Py
import Mathlib.Analysis.SpecialFunctions.Log.Basic
import Mathlib.Analysis.SpecialFunctions.Trigonometric.Basic

/-! The choice of the number of clusters in ADG, oversampling/_adg.py:24-106. The rows are exact, the score is a real number because of
the logarithms. `KMeans` is a parameter. -/

namespace Verif

/-- What is read of a fitted `KMeans`: `labels_` and `cluster_centers_`. Used for oversampling/_adg.py:38-49. -/
structure Clustering where
  labels : List Nat
  centers : List Row

/-- `n_clusters`: how many labels occur, oversampling/_adg.py:41. -/
def Clustering.used (cl : Clustering) : Nat := cl.labels.dedup.length

/-- `sum_norm_2(idx)`: the squared Frobenius norm of the differences to the centre, oversampling/_adg.py:47-50. -/
def Clustering.spread (cl : Clustering) (X : List Row) (idx : Nat) : ℚ :=
  (((X.zip cl.labels).filter (fun p => p.2 = idx)).map (fun p =>
    ((List.zipWith (· - ·) p.1 (cl.centers.getD idx [])).map (fun t => t * t)).sum)).sum

/-- `clustering_variance`, oversampling/_adg.py:52-55. The division by zero (as many clusters as rows) is not modelled: `xmeans` asks for
fewer clusters than rows. -/
def Clustering.variance (cl : Clustering) (X : List Row) : ℚ :=
  1 / (((X.length : ℚ) - cl.used) * (X.headD []).length) * ((List.range cl.used).map (cl.spread X)).sum

/-- `bic_comp(idx)` for a variance which is not zero, oversampling/_adg.py:59-69. -/
noncomputable def bicComp (N d n : Nat) (V : ℚ) : ℝ :=
  (n : ℝ) * Real.log n - n * Real.log N - ((n : ℝ) * d / 2) * Real.log (2 * Real.pi * V) - ((n : ℝ) - 1) * d / 2

/-- `bic_score`, oversampling/_adg.py:24-76; `none` is `np.inf`, the sum of components which are infinite when the variance is zero. -/
noncomputable def bicScore (cl : Clustering) (X : List Row) : Option ℝ :=
  let V := cl.variance X
  let d := (X.headD []).length
  let idxs := (List.range cl.used).filter (fun i => 0 < cl.labels.count i)
  if V = 0 ∧ idxs ≠ [] then none
  else some ((idxs.map (fun i => bicComp X.length d (cl.labels.count i) V)).sum -
    1 / 2 * cl.used * Real.log X.length * ((d : ℝ) + 1))

/-- `bic < best_bic` with `none` for `np.inf`, oversampling/_adg.py:102. -/
def bicLess : Option ℝ → Option ℝ → Prop
  | some a, some b => a < b
  | some _, none => True
  | none, _ => False

open Classical in
/-- The loop of `xmeans` over the numbers of clusters, oversampling/_adg.py:94-104. -/
noncomputable def xmeansLoop (fit : Nat → Clustering) (X : List Row) : List Nat → Option ℝ × Option Nat → Option ℝ × Option Nat
  | [], best => best
  | c :: cs, best =>
    xmeansLoop fit X cs (if bicLess (bicScore (fit c) X) best.1 then (bicScore (fit c) X, some c) else best)

/-- `xmeans` with the default range, oversampling/_adg.py:79-106: the number of clusters of the clustering it returns, `none` for `None`. -/
noncomputable def xmeans (fit : Nat → Clustering) (X : List Row) : Option Nat :=
  (xmeansLoop fit X (List.range' 1 (min 10 X.length - 1)) (none, none)).2

end Verif

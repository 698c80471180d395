import Verif.Model.Xmeans
import Mathlib.Analysis.SpecialFunctions.Pow.Real

/-! What a clustering is worth, stated row by row: the pooled variance, the density of a mixture of round Gaussians and the criterion of
Bayes (log-likelihood minus penalty: larger is better). -/

namespace Verif

/-- A partition of the rows into the clusters `0, …, k - 1`, none of them empty. -/
structure Clustering.Partitions (cl : Clustering) (X : List Row) (k : Nat) : Prop where
  len : cl.labels.length = X.length
  used : ∀ i, i ∈ cl.labels ↔ i < k

/-- The squared distance between a row and the centre of its cluster. -/
def Clustering.offset (cl : Clustering) (x : Row) (label : Nat) : ℚ :=
  ((List.zipWith (· - ·) x (cl.centers.getD label [])).map (fun t => t * t)).sum

/-- The pooled variance for `k` clusters of rows with `d` columns. -/
def pooledVariance (cl : Clustering) (X : List Row) (k d : Nat) : ℚ :=
  ((X.zip cl.labels).map (fun p => cl.offset p.1 p.2)).sum / (((X.length : ℚ) - k) * d)

/-- The density of a round Gaussian with variance `V` in `d` dimensions at squared distance `q` from its centre. -/
noncomputable def roundGaussian (d : Nat) (V q : ℝ) : ℝ :=
  (2 * Real.pi * V) ^ (-((d : ℝ) / 2)) * Real.exp (-(q / (2 * V)))

/-- The log-likelihood of the rows: each one has the share of its cluster times the density around the centre of the cluster. -/
noncomputable def clusterLogLikelihood (cl : Clustering) (X : List Row) (d : Nat) (V : ℝ) : ℝ :=
  ((X.zip cl.labels).map (fun p =>
    Real.log ((cl.labels.count p.2 : ℝ) / X.length * roundGaussian d V (cl.offset p.1 p.2)))).sum

/-- The criterion of Schwarz: log-likelihood minus half the number of parameters (`d + 1` per cluster) times `log N`. -/
noncomputable def schwarz (cl : Clustering) (X : List Row) (k d : Nat) : ℝ :=
  clusterLogLikelihood cl X d (pooledVariance cl X k d) - ((k * (d + 1) : Nat) : ℝ) / 2 * Real.log X.length

end Verif

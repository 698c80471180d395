import Verif.Model.Selection

/-! # Specification of model selection -/

namespace Verif

variable {α : Type} [LinearOrder α]

/-- Two results belong to the same candidate: same data set, oversampler and classifier with the same parameters. -/
def SameCandidate (r s : ResRow α) : Prop :=
  r.dataset = s.dataset ∧ r.osModule = s.osModule ∧ r.os = s.os ∧ r.osParams = s.osParams ∧
    r.clfModule = s.clfModule ∧ r.clf = s.clf ∧ r.clfParams = s.clfParams

instance (r s : ResRow α) : Decidable (SameCandidate r s) := inferInstanceAs (Decidable (_ ∧ _))

/-- The valid scores of the candidate that `r` belongs to. -/
def candidateScores (rows : List (ResRow α)) (r : ResRow α) : List ℚ :=
  (rows.filter (fun s => SameCandidate s r)).filterMap (·.score)

/-- `m` is the mean of the valid scores of `r`'s candidate, and there is at least one. -/
def IsCandidateMean (rows : List (ResRow α)) (r : ResRow α) (m : ℚ) : Prop :=
  candidateScores rows r ≠ [] ∧ m * ((candidateScores rows r).length : ℚ) = (candidateScores rows r).sum

end Verif

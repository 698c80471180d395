import Verif.Lemmas.Interp
import Verif.Lemmas.Smote
import Verif.Lemmas.SamplerTotal
import Verif.Lemmas.ClassRows
import Verif.Spec.Interp

/-! # Oversamplers that end in `sample_simplex` -/

namespace Verif

/-- The input followed by exactly `n` rows labelled `l`, each with the property `P`. -/
def OversampledBy (X : List Row) (y : List Int) (l : Int) (n : Nat) (P : Row → Prop) (X' : List Row) (y' : List Int) : Prop :=
  ∃ new : List Row, X' = X ++ new ∧ y' = y ++ List.replicate n l ∧ new.length = n ∧ ∀ x ∈ new, P x

/-- Soundness of `sample_simplex` without noise, with the vertices among the rows themselves. -/
theorem sampleSimplex_plain {ss : SSParams} {vol : List Row → ℚ} {dr : Draws} {d : Nat}
    {X : List Row} {indices : List (List Nat)} {k n : Nat} {a : SSArgs} {out : List Row}
    (hX : ∀ r ∈ X, r.length = d) (hV : ∀ V, a.Xv = some V → ∀ r ∈ V, r.length = d)
    (hvw : ∀ ws, a.vertexWeights = some ws → ∀ c ∈ ws, 0 ≤ c ∧ c ≤ 1)
    (hsame : a.sameVertices = true → a.Xv = some X) (hdr : dr.OK) (hI : indices.length ≤ X.length)
    (hg : ss.gaussian = .none)
    (h : sampleSimplex ss vol dr d X indices k n a = .ok out) :
    out.length = n ∧ ∀ x ∈ out, GeneratedFrom d X (a.Xv.getD X) indices x := by
  obtain ⟨gen, g1, g2, g3⟩ := sampleSimplex_sound hX hV hvw hsame (fun i j => (hdr.simplex i j).1) hI h
  rw [hg] at g3
  simp only [addGaussianNoise] at g3
  subst g3
  exact ⟨g1, g2⟩

theorem withSamples_oversampledBy {X samples : List Row} {y : List Int} {l : Int} {n : Nat} {P : Row → Prop} {X' : List Row}
    {y' : List Int} (hn : samples.length = n) (hP : ∀ x ∈ samples, P x) (h : withSamples X y l samples = (X', y')) :
    OversampledBy X y l n P X' y' := by
  unfold withSamples at h
  obtain ⟨rfl, rfl⟩ := Prod.mk.inj h
  exact ⟨samples, rfl, by rw [hn], hn, hP⟩

theorem oversampledBy_none (X : List Row) (y : List Int) (l : Int) (P : Row → Prop) : OversampledBy X y l 0 P X y :=
  ⟨[], by simp, by simp, rfl, by simp⟩

end Verif

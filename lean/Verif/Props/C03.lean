import Verif.Lemmas.Smote
import Verif.Lemmas.SmoteExample

/-!
# C03 Synthetic SMOTE samples lie in the convex hull of minority points
-/

namespace Verif

/-- Every row SMOTE appends is a convex combination of one minority row and of rows its neighbour list
names; so it is in the convex hull of the minority class and in its bounding box. -/
theorem C03_smote_convex {par : SmoteParams} {vol : List Row → ℚ} {dr : Draws} {d : Nat}
    {knn : Nat → List Row → List (List Nat)} {X : List Row} {y : List Int} {X' : List Row}
    {y' : List Int} {a b : Int} (hwf : WF d X y) (hk : KnnOK knn) (hdr : dr.OK)
    (hmin : IsMinority y a b) (hg : par.ss.gaussian = .none)
    (h : smoteSample par vol dr d knn X y = .ok (X', y')) :
    ∀ x ∈ X'.drop X.length,
      GeneratedFrom d (selectLabel X y a) (selectLabel X y a)
        (knn (min (y.count a) (par.nNeighbors + 1)) (selectLabel X y a)) x ∧
      InHull d (selectLabel X y a) x ∧ InBox d (selectLabel X y a) x := by
  obtain ⟨s, hs, rfl, rfl⟩ := stats_of_isMinority hmin
  obtain ⟨h1, h2⟩ := smote_sound hwf hk hdr hs h
  intro x hx
  by_cases hc : y.count s.minLabel ≤ 2
  · obtain ⟨rfl, rfl⟩ := h1 hc
    simp at hx
  · obtain ⟨gen, _, g2, _, g4⟩ := h2 (by omega)
    rw [g2, hg] at hx
    simp only [addGaussianNoise, List.drop_left] at hx
    have hh := generatedFrom_inHull (g4 x hx) (fun r hr => hr) (fun r hr => hr)
    exact ⟨g4 x hx, hh, hh.inBox⟩

/-- Membership in the selected class, in terms of the input: exactly the rows carrying that label. -/
theorem C03_class_rows {X : List Row} {y : List Int} {l : Int} {r : Row} :
    r ∈ selectLabel X y l ↔ ∃ i : Nat, X[i]? = some r ∧ y[i]? = some l := by
  rw [mem_selectLabel_iff, List.mem_iff_getElem?]
  simp only [List.getElem?_zip_eq_some]

/-- For the general sampler (any base set, separate neighbour set, base weights, simplex weights, and
vertex weights in `[0,1]`): every generated row is a convex combination of a base row and rows of its
neighbour list. -/
theorem C03_sample_simplex_convex {ss : SSParams} {vol : List Row → ℚ} {dr : Draws} {d : Nat}
    {X : List Row} {indices : List (List Nat)} {k n : Nat} {a : SSArgs} {out : List Row}
    (hX : ∀ r ∈ X, r.length = d) (hV : ∀ V, a.Xv = some V → ∀ r ∈ V, r.length = d)
    (hvw : ∀ ws, a.vertexWeights = some ws → ∀ c ∈ ws, 0 ≤ c ∧ c ≤ 1)
    (hsame : a.sameVertices = true → a.Xv = some X) (hdr : dr.OK)
    (hI : indices.length ≤ X.length) (hg : ss.gaussian = .none)
    (h : sampleSimplex ss vol dr d X indices k n a = .ok out) :
    out.length = n ∧ ∀ x ∈ out, GeneratedFrom d X (a.Xv.getD X) indices x := by
  obtain ⟨gen, g1, g2, g3⟩ :=
    sampleSimplex_sound hX hV hvw hsame (fun i j => (hdr.simplex i j).1) hI h
  rw [hg] at g3
  simp only [addGaussianNoise] at g3
  subst g3
  exact ⟨g1, g2⟩

/-- Non-vacuity: the new rows of the concrete call are strictly between two minority rows. -/
example : exPar.ss.gaussian = .none ∧
    (match smoteSample exPar (fun _ => 1) exDraws 2 exKnn exX exY with
     | .ok r => r.1.drop exX.length
     | .error _ => []) = [[3/5, 0], [3/5, 0]] := by decide +kernel
example : (sampleSimplex { nDim := 3, simplexSampling := .volume, within := .random, gaussian := .none }
    (fun _ => 1) exDraws 2 [[0,0],[4,0]] [[0,1,2],[1,2,3]] 3 2
    { Xv := some [[0,8],[8,8],[8,0],[4,4]], vertexWeights := some [1/2, 1, 1/2, 0] }).isOk = true := by
  decide +kernel

end Verif

import Verif.Lemmas.Smote
import Verif.Lemmas.SmoteExample
import Verif.Lemmas.ClassRows
import Verif.Lemmas.SamplerTotal

/-!
# C46: the optional gaussian component
-/

namespace Verif

/-- The standard deviation used for coordinate `k`; the list form needs one entry per coordinate. -/
inductive Deviation (d : Nat) : Gaussian → Nat → ℚ → Prop
  | none (k : Nat) : Deviation d .none k 0
  | sigma (s : ℚ) (k : Nat) : Deviation d (.sigma s) k s
  | sigmas (ss : List ℚ) (k : Nat) (h : ss.length = d) (v : ℚ) (hv : ss[k]? = some v) : Deviation d (.sigmas ss) k v

/-- `r` is `g` with the draws `z`, scaled by the deviation of each coordinate, added. -/
def NoisyVersion (d : Nat) (gc : Gaussian) (z : Nat → ℚ) (g r : Row) : Prop :=
  r.length = d ∧ ∀ k, k < d → ∃ s, Deviation d gc k s ∧ r.getD k 0 = g.getD k 0 + z k * s

theorem addGaussianNoise_spec {d : Nat} {gc : Gaussian} (hgc : ∀ ss, gc = .sigmas ss → ss.length = d) (u : Nat → Nat → ℚ)
    {gen : List Row} (hl : ∀ r ∈ gen, r.length = d) {i : Nat} {g : Row} (hi : gen[i]? = some g) :
    ∃ r, (addGaussianNoise gc u gen)[i]? = some r ∧ NoisyVersion d gc (u i) g r := by
  have hgl := hl g (List.mem_of_getElem? hi)
  cases gc with
  | none => exact ⟨g, hi, hgl, fun k _ => ⟨0, .none k, by simp⟩⟩
  | sigma s =>
    refine ⟨g.zipIdx.map (fun (x, j) => x + u i j * s), ?_, by simpa using hgl, ?_⟩
    · unfold addGaussianNoise
      rw [List.getElem?_map, List.getElem?_zipIdx, hi]
      simp
    · intro k hk
      refine ⟨s, .sigma s k, ?_⟩
      rw [List.getD_eq_getElem?_getD, List.getElem?_map, List.getElem?_zipIdx, List.getElem?_eq_getElem (by omega),
        List.getD_eq_getElem?_getD, List.getElem?_eq_getElem (by omega)]
      simp
  | sigmas ss =>
    have hss := hgc ss rfl
    refine ⟨List.zipWith (· + ·) g (ss.zipIdx.map (fun (s, j) => u i j * s)), ?_, by simp [hgl, hss], ?_⟩
    · unfold addGaussianNoise
      rw [List.getElem?_map, List.getElem?_zipIdx, hi]
      simp
    · intro k hk
      have hks : k < ss.length := by omega
      refine ⟨ss[k], .sigmas ss k hss _ (List.getElem?_eq_getElem hks), ?_⟩
      rw [List.getD_eq_getElem?_getD, List.getElem?_zipWith, List.getElem?_eq_getElem (by omega : k < g.length),
        List.getElem?_map, List.getElem?_zipIdx, List.getElem?_eq_getElem hks, List.getD_eq_getElem?_getD,
        List.getElem?_eq_getElem (by omega : k < g.length)]
      simp

/-- With a gaussian component, the `i`-th new row of SMOTE is a point in the hull of the minority with scaled normal draws
added coordinate by coordinate; the number of rows and their labels do not change. -/
theorem C46_smote_noise {par : SmoteParams} {vol : List Row → ℚ} {dr : Draws} {d : Nat}
    {knn : Nat → List Row → List (List Nat)} {X X' : List Row} {y y' : List Int} {a b : Int} (hwf : WF d X y) (hk : KnnOK knn)
    (hdr : dr.OK) (hmin : IsMinority y a b) (hgc : ∀ ss, par.ss.gaussian = .sigmas ss → ss.length = d)
    (h3 : 2 < y.count a) (h : smoteSample par vol dr d knn X y = .ok (X', y')) :
    ∃ gen new : List Row, X' = X ++ new ∧
      y' = y ++ List.replicate (requested par.proportion (y.count b) (y.count a)) a ∧
      gen.length = requested par.proportion (y.count b) (y.count a) ∧ new.length = gen.length ∧
      (∀ g ∈ gen, InHull d (classRows X y a) g) ∧
      ∀ (i : Nat) (g : Row), gen[i]? = some g →
        ∃ r, new[i]? = some r ∧ NoisyVersion d par.ss.gaussian (dr.normalU i) g r := by
  obtain ⟨s, hs, rfl, rfl⟩ := stats_of_isMinority hmin
  obtain ⟨gen, e1, e2, e3, e4⟩ := (smote_sound hwf hk hdr hs h).2 h3
  have hull : ∀ g ∈ gen, InHull d (classRows X y s.minLabel) g := by
    intro g hg
    rw [← selectLabel_eq_classRows]
    exact generatedFrom_inHull (e4 g hg) (fun _ h => h) (fun _ h => h)
  refine ⟨gen, _, e2, by rw [e3, e1], e1, addGaussianNoise_length _ _ _, hull, ?_⟩
  intro i g hg
  refine addGaussianNoise_spec hgc _ ?_ hg
  intro r hr
  obtain ⟨V, w, _, hc⟩ := hull r hr
  exact hc.2.2.2.1

/-- The draws used for the example: every normal draw is one. -/
example : WF 2 exX exY ∧ IsMinority exY 1 0 ∧ 2 < exY.count 1 ∧ KnnOK exKnn ∧
    (match smoteSample { exPar with ss := { exPar.ss with gaussian := .sigma (1/2) } } (fun _ => 1)
        { exDraws with normalU := fun _ _ => 1 } 2 exKnn exX exY,
      smoteSample exPar (fun _ => 1) exDraws 2 exKnn exX exY with
     | .ok r, .ok r0 => decide (r.1.drop 8 = (r0.1.drop 8).map (fun q => q.map (· + 1/2)) ∧ r.1.length = 10)
     | _, _ => false) = true := by
  refine ⟨⟨by decide, by decide +kernel⟩, exY_min, by decide, exKnn_ok, by decide +kernel⟩

end Verif

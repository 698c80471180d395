import Verif.Model.Regions
import Verif.Lemmas.SelTotal
import Verif.Lemmas.SimplexAlg
import Verif.Lemmas.SmoteExample
import Verif.Props.C34

/-!
# C50: SDSMOTE is SMOTE

`SDSMOTE` is documented to weight the minority rows by a support degree. The length that is meant to count the majority rows
around a minority row is the length of the list of answers, which has one entry for the one queried row.
-/

namespace Verif

/-- Contract of a radius query: one answer for every queried row. -/
def RadiusOK (radius : List Row → List Row → ℚ → List (List Nat)) : Prop :=
  ∀ X Q r, (radius X Q r).length = Q.length

theorem sum_replicate_q (n : Nat) (q : ℚ) : (List.replicate n q).sum = (n : ℚ) * q := by
  induction n with
  | zero => simp
  | succ n ih => rw [List.replicate_succ, List.sum_cons, ih]; push_cast; ring

/-- All minority rows get the same density. -/
theorem C50_density_uniform {knnDist : Nat → List Row → List Row → List (List ℚ)}
    {radius : List Row → List Row → ℚ → List (List Nat)} (hr : RadiusOK radius) (Xmin Xmaj : List Row) :
    sdDensity knnDist radius Xmin Xmaj = List.replicate Xmin.length (1 / (Xmin.length : ℚ)) := by
  unfold sdDensity
  simp only
  have hk : ∀ q : ℚ, Xmin.map (fun x => ((radius Xmaj [x] q).length : ℚ)) = List.replicate Xmin.length 1 := by
    intro q
    rw [List.eq_replicate_iff]
    refine ⟨by simp, ?_⟩
    intro b hb
    rw [List.mem_map] at hb
    obtain ⟨x, _, rfl⟩ := hb
    rw [hr]; simp
  rw [hk, sum_replicate_q, List.map_replicate]
  rcases Nat.eq_zero_or_pos Xmin.length with h0 | h0
  · rw [h0]; simp [fixDensity]
  · have hq : (0:ℚ) < Xmin.length := by exact_mod_cast h0
    rw [if_neg (by simp; intro h; simp [h] at h0)]
    unfold fixDensity
    simp only [List.map_replicate, mul_one, XF.toNum, sum_replicate_q, List.length_replicate]
    have h1 : (Xmin.length : ℚ) * (1 / (Xmin.length : ℚ)) = 1 := by field_simp
    rw [h1, if_neg one_ne_zero, List.map_replicate, sum_replicate_q, h1, div_one]

theorem zipWith_replicate_one (w : List ℚ) : List.zipWith (· * ·) w (List.replicate w.length (1:ℚ)) = w := by
  induction w with
  | nil => rfl
  | cons a w ih => simp [List.replicate_succ, ih]

theorem normalize_replicate {n : Nat} {q : ℚ} (hn : n ≠ 0) (hq : 0 < q) :
    normalize (List.replicate n q) = .ok (List.replicate n (1 / (n : ℚ))) := by
  have h : (0:ℚ) < n := by exact_mod_cast Nat.pos_of_ne_zero hn
  unfold normalize
  rw [sum_replicate_q, if_neg (by positivity), List.map_replicate]
  congr 2
  field_simp

/-- Equal base weights select like no base weights. -/
theorem simplicesSel_uniform {mode : SimplexSampling} {vol : List Row → ℚ} {cu : Nat → ℚ} {X : List Row} {n : Nat}
    {indices : List (List Nat)} {k nDim : Nat} (hm : mode = .random ∨ mode = .deterministic) :
    simplicesSel mode vol cu X n (some (List.replicate indices.length (1 / (indices.length : ℚ)))) indices k none none nDim
      = simplicesSel mode vol cu X n none indices k none none nDim := by
  unfold simplicesSel
  cases hall : allNeighborSimplicesRealIdx nDim indices k with
  | error e => rfl
  | ok all =>
    rw [ok_bind, ok_bind]
    simp only [nodeWeights, ok_bind]
    obtain ⟨hd, _⟩ := allNeighbor_sound hall
    obtain ⟨-, -, hall⟩ := allNeighbor_unfold hall
    have hlen : all.length = indices.length * Nat.choose (k - 1) (nDim - 1) := by
      rw [mapM_ok_length hall, length_posSimplices]
    have hnone : determineWeights mode vol X none none all indices.length
        = .ok (List.replicate all.length (1 / (all.length : ℚ))) := by
      rcases hm with rfl | rfl <;> rfl
    rw [hnone, ok_bind, if_neg (by simp)]
    have hz : ∀ q : ℚ, List.zipWith (· * ·) (List.replicate all.length q) (List.replicate all.length (1:ℚ))
        = List.replicate all.length q := by
      intro q
      have := zipWith_replicate_one (List.replicate all.length q)
      rwa [List.length_replicate] at this
    rcases Nat.eq_zero_or_pos indices.length with h0 | h0
    · have hal : all = [] := by rw [h0] at hlen; simpa using hlen
      rw [h0, hal]
      simp [determineWeights, normalize]
    · have hdiv : all.length / indices.length = Nat.choose (k - 1) (nDim - 1) := by
        rw [hlen]; exact Nat.mul_div_cancel_left _ h0
      have hrep : ∀ (m c : Nat) (q : ℚ), (List.replicate m q).flatMap (fun w => List.replicate c w) = List.replicate (m * c) q := by
        intro m c q
        induction m with
        | zero => simp
        | succ m ih =>
          rw [List.replicate_succ, List.flatMap_cons, ih, List.replicate_append_replicate]
          congr 1; ring
      have hsome : determineWeights mode vol X (some (List.replicate indices.length (1 / (indices.length : ℚ)))) none all
          indices.length = .ok (List.replicate all.length (1 / (indices.length : ℚ))) := by
        simp only [determineWeights, List.length_replicate]
        rw [if_neg (by omega), hdiv, hrep, ← hlen]
      rw [hsome, ok_bind, if_neg (by simp), hz, hz]
      have hiq : (0:ℚ) < 1 / (indices.length : ℚ) := by
        have : (0:ℚ) < indices.length := by exact_mod_cast h0
        positivity
      rcases Nat.eq_zero_or_pos all.length with h1 | h1
      · rw [h1]; rfl
      · have haq : (0:ℚ) < 1 / (all.length : ℚ) := by
          have : (0:ℚ) < all.length := by exact_mod_cast h1
          positivity
        rw [normalize_replicate (by omega) hiq, normalize_replicate (by omega) haq]

/-- **SDSMOTE returns exactly what SMOTE returns**, for every data set, all draws and all answers of the searches, whenever the
simplices are not selected by volume (the default is `random`). -/
theorem C50_sdsmote_is_smote {par : NbParams} {vol : List Row → ℚ} {dr : Draws} {d : Nat}
    {knn : Nat → List Row → List Row → List (List Nat)} {knnDist : Nat → List Row → List Row → List (List ℚ)}
    {radius : List Row → List Row → ℚ → List (List Nat)} {X : List Row} {y : List Int} (hwf : WF d X y) (hk : KnnQueryOK knn)
    (hr : RadiusOK radius) (hdr : dr.OK)
    (hm : par.ss.simplexSampling = .random ∨ par.ss.simplexSampling = .deterministic) :
    sample defaultChecks d (sdsmoteAlg par vol dr d knn knnDist radius) X y
      = smoteSample par vol dr d (fun k rows => knn k rows rows) X y := by
  unfold smoteSample
  cases hs : classLabelStatistics y with
  | error e => unfold sample; rw [hs]; rfl
  | ok s =>
    rw [sample_default hs, sample_default hs]
    split
    · rfl
    · unfold sdsmoteAlg smoteAlg
      cases hn : detNToSample (.num par.proportion) (s.count s.majLabel) (s.count s.minLabel) with
      | error e => rfl
      | ok n =>
        rw [ok_bind, ok_bind]
        split
        · rfl
        · dsimp only
          rw [C50_density_uniform hr]
          set A := selectLabel X y s.minLabel with hA
          obtain ⟨hkl, _⟩ := hk (min A.length (par.nNeighbors + 1)) A A (by omega)
          have hAd : ∀ x ∈ A, x.length = d := fun x hx => hwf.2 x (selectLabel_mem hx)
          have heq : sampleSimplex par.ss vol dr d A (knn (min A.length (par.nNeighbors + 1)) A A)
              (min A.length (par.nNeighbors + 1)) n { baseWeights := some (List.replicate A.length (1 / (A.length : ℚ))) }
              = sampleSimplex par.ss vol dr d A (knn (min A.length (par.nNeighbors + 1)) A A)
              (min A.length (par.nNeighbors + 1)) n {} := by
            unfold sampleSimplex
            have := simplicesSel_uniform (mode := par.ss.simplexSampling) (vol := vol) (cu := dr.choiceU) (X := A) (n := n)
              (indices := knn (min A.length (par.nNeighbors + 1)) A A) (k := min A.length (par.nNeighbors + 1))
              (nDim := min par.ss.nDim (min A.length (par.nNeighbors + 1))) hm
            rw [hkl] at this
            dsimp only
            rw [this]
          rw [heq]
          cases ho : sampleSimplex par.ss vol dr d A (knn (min A.length (par.nNeighbors + 1)) A A)
              (min A.length (par.nNeighbors + 1)) n {} with
          | error e => rfl
          | ok out =>
            obtain ⟨gen, g1, _, g3⟩ := sampleSimplex_sound hAd (by intro V hV; cases hV) (by intro V hV; cases hV)
              (by intro hV; cases hV) (fun i j => (hdr.simplex i j).1) (le_of_eq hkl) ho
            have : out.length = n := by rw [g3, addGaussianNoise_length, g1]
            rw [ok_bind, ok_bind]
            unfold withSamples
            rw [this]

/-! ## A concrete case -/

/-- A radius query by comparing squared distances. -/
def bruteRadius (X Q : List Row) (r : ℚ) : List (List Nat) :=
  Q.map (fun q => (List.range X.length).filter (fun i =>
    decide (((List.zipWith (fun a b => (a - b) ^ 2) (X.getD i []) q).sum) ≤ r * r)))

example : RadiusOK bruteRadius ∧ KnnQueryOK bruteQuery ∧ WF 2 exX exY ∧ exDraws.OK ∧
    -- the numbers of majority rows around the three minority rows differ from row to row ...
    (classRows exX exY 1).map (fun x => (bruteRadius (classRows exX exY 0) [x] (65/10)).map List.length) = [[0], [1], [1]] ∧
    -- ... but each minority row counts once
    sdDensity (fun _ _ _ => []) bruteRadius (classRows exX exY 1) (classRows exX exY 0) = [1/3, 1/3, 1/3] ∧
    (match sample defaultChecks 2 (sdsmoteAlg exPar (fun _ => 1) exDraws 2 bruteQuery (fun _ _ _ => []) bruteRadius) exX exY with
     | .ok r => decide (r.1.length = 10)
     | .error _ => false) = true := by
  refine ⟨fun X Q r => by simp [bruteRadius], bruteQuery_ok, ⟨by decide, by decide +kernel⟩, exDraws_ok, ?_, ?_, ?_⟩
  · decide +kernel
  · decide +kernel
  · decide +kernel

end Verif

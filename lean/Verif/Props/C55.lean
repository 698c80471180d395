import Verif.Model.Regions
import Verif.Props.C33
import Verif.Props.C46
import Verif.Props.C48
import Verif.Lemmas.SimplexAlg

/-!
# C55: Gaussian_SMOTE adds noise in standardised coordinates
-/

namespace Verif

/-! ## Specification -/

/-- `r` is `g` with, in coordinate `k`, the draw `z k` times the deviation times the scale of that coordinate added. -/
def ScaledNoise (d : Nat) (gc : Gaussian) (scale : Row) (z : Nat → ℚ) (g r : Row) : Prop :=
  r.length = d ∧ ∀ k, k < d → ∃ s, Deviation d gc k s ∧ r.getD k 0 = g.getD k 0 + z k * s * scale.getD k 0

/-! ## Helpers -/

theorem wsum_unscale {d : Nat} {m s : Row} (hm : m.length = d) (hs : s.length = d) {k : Nat} (hk : k < d) :
    ∀ (w : List ℚ) (V : List Row), w.length = V.length → (∀ v ∈ V, v.length = d) →
      (List.zipWith (fun c (r : Row) => c * r.getD k 0) w (V.map (unscaleRow m s))).sum =
        (List.zipWith (fun c (r : Row) => c * r.getD k 0) w V).sum * s.getD k 0 + w.sum * m.getD k 0 := by
  intro w
  induction w with
  | nil => intro V _ _; simp
  | cons c w ih =>
    intro V hl hV
    cases V with
    | nil => simp at hl
    | cons v V =>
      rw [List.map_cons, List.zipWith_cons_cons, List.sum_cons, ih V (by simpa using hl) (fun v hv => hV v (by simp [hv])),
        unscaleRow_getD hm hs (hV v (by simp)) hk, List.zipWith_cons_cons, List.sum_cons, List.sum_cons]
      ring

/-- Undoing the scaling of a point of the hull of scaled rows gives a point of the hull of the rows. -/
theorem unscale_inHull {d : Nat} {m s x : Row} {S : List Row} (hm : m.length = d) (hs : s.length = d)
    (hpos : ∀ x ∈ s, 0 < x) (hS : ∀ r ∈ S, r.length = d) (h : InHull d (S.map (scaleRow m s)) x) :
    InHull d S (unscaleRow m s x) := by
  obtain ⟨V, w, hV, h1, h2, h3, h4, h5⟩ := h
  have hVd : ∀ v ∈ V, v.length = d := by
    intro v hv
    obtain ⟨r, hr, rfl⟩ := List.mem_map.1 (hV v hv)
    exact scaleRow_length hm hs (hS r hr)
  refine ⟨V.map (unscaleRow m s), w, ?_, by rw [List.length_map]; exact h1, h2, h3, unscaleRow_length hm hs h4, ?_⟩
  · intro v hv
    obtain ⟨u, hu, rfl⟩ := List.mem_map.1 hv
    obtain ⟨r, hr, rfl⟩ := List.mem_map.1 (hV u hu)
    rw [unscale_scale hm hs hpos (hS r hr)]
    exact hr
  · intro k hk
    rw [wsum_unscale hm hs hk w V h1 hVd, unscaleRow_getD hm hs h4 hk, h5 k hk, h3, one_mul]

/-! ## The oversampler -/

/-- **Gaussian_SMOTE**: the requested number of rows; the `i`-th is a point of the hull of the minority rows, to which normal
draws are added, scaled by sigma and by the standard deviation of the coordinate over all rows. -/
theorem C55_gaussian {par : NbParams} {fitScaler : List Row → Row × Row} {vol : List Row → ℚ} {dr : Draws} {d : Nat}
    {knn : Nat → List Row → List Row → List (List Nat)} {X X' : List Row} {y y' : List Int} {a b : Int} (hwf : WF d X y)
    (hk : KnnQueryOK knn) (hdr : dr.OK) (hmin : IsMinority y a b)
    (hm : (fitScaler X).1.length = d) (hsc : (fitScaler X).2.length = d) (hpos : ∀ x ∈ (fitScaler X).2, 0 < x)
    (hgc : ∀ ss, par.ss.gaussian = .sigmas ss → ss.length = d) (h3 : 2 < y.count a)
    (h : sample defaultChecks d (gaussianSmoteAlg par fitScaler vol dr d knn) X y = .ok (X', y')) :
    ∃ gen new : List Row, X' = X ++ new ∧
      y' = y ++ List.replicate (requested par.proportion (y.count b) (y.count a)) a ∧
      gen.length = requested par.proportion (y.count b) (y.count a) ∧ new.length = gen.length ∧
      (∀ g ∈ gen, InHull d (classRows X y a) g) ∧
      ∀ (i : Nat) (g : Row), gen[i]? = some g →
        ∃ r, new[i]? = some r ∧ ScaledNoise d par.ss.gaussian (fitScaler X).2 (dr.normalU i) g r := by
  obtain ⟨s, hs, rfl, rfl⟩ := stats_of_isMinority hmin
  obtain ⟨hmm, hM, _⟩ := stats_min_mem hs
  rw [sample_default hs, if_neg (by omega)] at h
  unfold gaussianSmoteAlg at h
  rw [stats_count hs hmm, stats_count hs hM, detN_eq_requested, ok_bind] at h
  split at h
  · rename_i h0
    obtain ⟨rfl, rfl⟩ := Prod.mk.inj (pure_ok.1 h)
    exact ⟨[], [], by simp, by rw [h0]; simp, by rw [h0]; rfl, rfl, by simp, by simp⟩
  dsimp only at h
  rw [selectLabel_map, selectLabel_eq_classRows] at h
  have hAd : ∀ r ∈ classRows X y s.minLabel, r.length = d := by
    intro r hr; rw [← selectLabel_eq_classRows] at hr; exact mem_selectLabel_length hwf hr
  set A := classRows X y s.minLabel with hA
  set mu := (fitScaler X).1 with hmu
  set sc := (fitScaler X).2 with hscd
  obtain ⟨out, hout, h⟩ := bind_ok.1 h
  have h := pure_ok.1 h
  have hSd : ∀ r ∈ A.map (scaleRow mu sc), r.length = d := by
    intro r hr
    obtain ⟨q, hq, rfl⟩ := List.mem_map.1 hr
    exact scaleRow_length hm hsc (hAd q hq)
  obtain ⟨gen, g1, g2, g3⟩ := sampleSimplex_sound hSd (by intro V hV; cases hV) (by intro V hV; cases hV)
    (by intro hV; cases hV) (fun i j => (hdr.simplex i j).1)
    (by rw [(hk (min (A.map (scaleRow mu sc)).length (par.nNeighbors + 1)) _ _ (by omega)).1]) hout
  have hgen : ∀ g ∈ gen, InHull d (A.map (scaleRow mu sc)) g :=
    fun g hg => generatedFrom_inHull (g2 g hg) (fun _ h => h) (fun _ h => h)
  have hgd : ∀ g ∈ gen, g.length = d := by
    intro g hg
    obtain ⟨V, w, _, hc⟩ := hgen g hg
    exact hc.2.2.2.1
  unfold withSamples at h
  obtain ⟨rfl, rfl⟩ := Prod.mk.inj h
  have hol : out.length = gen.length := by rw [g3, addGaussianNoise_length]
  refine ⟨gen.map (unscaleRow mu sc), out.map (unscaleRow mu sc), rfl, by rw [List.length_map, hol, g1],
    by rw [List.length_map, g1], by rw [List.length_map, List.length_map, hol], ?_, ?_⟩
  · intro g hg
    obtain ⟨q, hq, rfl⟩ := List.mem_map.1 hg
    exact unscale_inHull hm hsc hpos hAd (hgen q hq)
  · intro i g hg
    rw [List.getElem?_map] at hg
    cases hi : gen[i]? with
    | none => rw [hi] at hg; simp at hg
    | some q =>
      rw [hi] at hg
      simp only [Option.map_some, Option.some.injEq] at hg
      subst hg
      obtain ⟨r, hr, hrl, hrk⟩ := addGaussianNoise_spec hgc dr.normalU hgd hi
      refine ⟨unscaleRow mu sc r, by rw [List.getElem?_map, g3, hr]; rfl, unscaleRow_length hm hsc hrl, ?_⟩
      intro k hk
      obtain ⟨σ, hσ, he⟩ := hrk k hk
      refine ⟨σ, hσ, ?_⟩
      rw [unscaleRow_getD hm hsc hrl hk, unscaleRow_getD hm hsc (hgd q (List.mem_of_getElem? hi)) hk, he]
      ring

/-- Gaussian_SMOTE never raises on a two-class data set. -/
theorem C55_total {par : NbParams} {fitScaler : List Row → Row × Row} {vol : List Row → ℚ} {dr : Draws} {d : Nat}
    {knn : Nat → List Row → List Row → List (List Nat)} {X : List Row} {y : List Int} {a b : Int} (hwf : WF d X y)
    (hk : KnnQueryOK knn) (hdr : dr.OK) (hu : ∀ i j, 0 < dr.simplexU i j) (hmin : IsMinority y a b) (hd : 1 ≤ par.ss.nDim)
    (hmode : par.ss.simplexSampling = .random ∨ par.ss.simplexSampling = .deterministic ∨
      (par.ss.simplexSampling = .volume ∧ ∀ vs, 0 < vol vs))
    (hwi : par.ss.within = .random ∨ (par.ss.within = .deterministic ∧ par.ss.nDim ≤ 2)) :
    ∃ r, sample defaultChecks d (gaussianSmoteAlg par fitScaler vol dr d knn) X y = .ok r := by
  obtain ⟨s, hs, rfl, rfl⟩ := stats_of_isMinority hmin
  obtain ⟨hm, hM, _⟩ := stats_min_mem hs
  rw [sample_default hs]
  by_cases h2 : y.count s.minLabel ≤ 2
  · rw [if_pos h2]; exact ⟨_, rfl⟩
  rw [if_neg h2]
  unfold gaussianSmoteAlg
  rw [stats_count hs hm, stats_count hs hM, detN_eq_requested, ok_bind]
  split
  · exact ⟨_, rfl⟩
  dsimp only
  have hla := selectLabel_length hwf.1 s.minLabel
  rw [selectLabel_map]
  set A := (selectLabel X y s.minLabel).map (scaleRow (fitScaler X).1 (fitScaler X).2) with hA
  have hAl : A.length = y.count s.minLabel := by rw [hA, List.length_map, hla]
  obtain ⟨hk1, hk2⟩ := hk (min A.length (par.nNeighbors + 1)) A A (by omega)
  obtain ⟨out, hout⟩ := sampleSimplex_ok (ss := par.ss) (vol := vol) (dr := dr) (d := d) (X := A)
    (indices := knn (min A.length (par.nNeighbors + 1)) A A) (k := min A.length (par.nNeighbors + 1))
    (n := requested par.proportion (y.count s.majLabel) (y.count s.minLabel)) (a := {})
    hk2 (by rw [hk1]) (by intro he; rw [he, List.length_nil] at hk1; omega)
    (by omega) hd rfl (by intro ws hws; cases hws) (by intro hV; cases hV) hmode hdr.choice hu
    (by
      rcases hwi with h | ⟨h, h'⟩
      · exact .inl h
      · exact .inr ⟨h, by omega⟩)
  rw [hout]; exact ⟨_, rfl⟩

/-! ## A constant feature -/

def gsmX : List Row := [[0, 7], [1, 7], [2, 7], [6, 7], [10, 7], [4, 7], [12, 7], [13, 7], [14, 7]]
def gsmY : List Int := [1, 1, 1, 1, 0, 0, 0, 0, 0]
/-- The shape of the result of the scaler: the scale of a constant feature is one. -/
def gsmScaler (_ : List Row) : Row × Row := ([6, 7], [5, 1])
def gsmPar : NbParams := { proportion := 1, nNeighbors := 2, ss := { exPar.ss with gaussian := .sigma 1 } }

/-- A feature which is the same in all rows does not stay so: the scaler gives it the scale one, so the noise moves it. -/
theorem C55_constant_feature_moves : WF 2 gsmX gsmY ∧ IsMinority gsmY 1 0 ∧ (∀ r ∈ gsmX, r.getD 1 0 = 7) ∧
    KnnQueryOK bruteQuery ∧ ∃ X' y', sample defaultChecks 2 (gaussianSmoteAlg gsmPar gsmScaler (fun _ => 1)
      { exDraws with normalU := fun _ _ => 1 } 2 bruteQuery) gsmX gsmY = .ok (X', y') ∧ ∃ r ∈ X', r.getD 1 0 = 8 := by
  refine ⟨⟨by decide, by decide +kernel⟩, ⟨by decide, by decide, by decide, Or.inl (by decide)⟩, by decide +kernel,
    bruteQuery_ok, gsmX ++ [[33 / 5, 8]], gsmY ++ [1], by decide +kernel, by decide +kernel⟩

end Verif

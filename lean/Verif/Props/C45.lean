import Verif.Model.Polynom
import Verif.Lemmas.Interp
import Verif.Lemmas.Smote
import Verif.Lemmas.SmoteExample
import Verif.Lemmas.SamplerTotal
import Verif.Lemmas.SimplexAlg
import Verif.Props.C37

/-!
# C45: positions and numbers of the samples of polynom_fit_SMOTE
-/

namespace Verif

/-! ## Specification -/

/-- `m` is the coordinatewise mean of `rows`. -/
def IsMean (d : Nat) (rows : List Row) (m : Row) : Prop :=
  m.length = d ∧ ∀ k, k < d → m.getD k 0 * rows.length = (rows.map (fun r => r.getD k 0)).sum

/-- `k` is one, or nothing closer to `n / m` is an integer. -/
def RoundedShare (n m k : Nat) : Prop := 1 ≤ k ∧ (|(k : ℚ) - (n : ℚ) / m| ≤ 1/2 ∨ (k = 1 ∧ (n : ℚ) / m ≤ 1))

/-! ## Helpers -/

theorem meanRow_isMean {d : Nat} {rows : List Row} (hne : rows ≠ []) (h : ∀ r ∈ rows, r.length = d) :
    IsMean d rows (meanRow d rows) := by
  have hl : (rows.length : ℚ) ≠ 0 := by exact_mod_cast (List.length_pos_iff.2 hne).ne'
  have hs := rowSum_length h
  refine ⟨by unfold meanRow Row.smul; rw [List.length_map, hs], ?_⟩
  intro k hk
  have : (meanRow d rows).getD k 0 = 1 / (rows.length : ℚ) * (rowSum d rows).getD k 0 := by
    unfold meanRow Row.smul
    simp [List.getD_eq_getElem?_getD, hs, hk]
  rw [this, rowSum_getD h hk]
  field_simp

theorem samplesPerRow_spec (n m : Nat) : RoundedShare n m (samplesPerRow n m) := by
  unfold RoundedShare samplesPerRow
  refine ⟨le_max_left _ _, ?_⟩
  obtain ⟨h1, h2⟩ := npRound_bounds ((n : ℚ) / m)
  have hnn : 0 ≤ (n : ℚ) / m := by positivity
  generalize hz : npRoundHalfEven ((n : ℚ) / m) = z at *
  have hz0 : 0 ≤ z := by
    by_contra h
    have : z ≤ -1 := by omega
    have : (z:ℚ) ≤ -1 := by exact_mod_cast this
    linarith
  have hzc : ((z.toNat : ℕ) : ℚ) = (z : ℚ) := by exact_mod_cast (Int.toNat_of_nonneg hz0)
  by_cases h : 1 ≤ z.toNat
  · left
    rw [max_eq_right h, hzc, abs_le]
    constructor <;> linarith
  · right
    have h0 : z.toNat = 0 := by omega
    rw [h0] at hzc
    refine ⟨by rw [h0]; rfl, ?_⟩
    push_cast at hzc
    linarith

theorem splitPoints_mem {d k : Nat} {p q x : Row} (hp : p.length = d) (hq : q.length = d) (hx : x ∈ splitPoints k p q) :
    OpenSegment d p q x := by
  unfold splitPoints at hx
  rw [List.mem_map] at hx
  obtain ⟨j, hj, rfl⟩ := hx
  have hjk : (j : ℚ) + 1 ≤ k := by exact_mod_cast List.mem_range.1 hj
  apply openSegment_mix hp hq
  · positivity
  · rw [div_lt_one (by positivity)]; linarith

theorem splitPoints_length (k : Nat) (p q : Row) : (splitPoints k p q).length = k := by simp [splitPoints]

theorem star_length (d n : Nat) (Xmin : List Row) :
    (starSamples d n Xmin).length = Xmin.length * samplesPerRow n Xmin.length := by
  unfold starSamples
  rw [List.length_flatMap]
  simp [splitPoints_length]

theorem bus_length (n : Nat) (Xmin : List Row) :
    (busSamples n Xmin).length = (Xmin.length - 1) * samplesPerRow n Xmin.length := by
  unfold busSamples
  rw [List.length_flatMap]
  simp [splitPoints_length]

/-- The four classes run the two nested checks and then the samples. -/
theorem polynomClass_run {d : Nat} {X : List Row} {y : List Int} {a b : Int} {proportion : ℚ} {t : Topology}
    (hmin : IsMinority y a b) :
    polynomClass proportion t d X y =
      .ok (if y.count a ≤ 2 ∨ requested proportion (y.count b) (y.count a) = 0 then (X, y)
        else withSamples X y a (t.samples d (requested proportion (y.count b) (y.count a)) (classRows X y a))) := by
  obtain ⟨s, hs, rfl, rfl⟩ := stats_of_isMinority hmin
  obtain ⟨hm, hM, _⟩ := stats_min_mem hs
  unfold polynomClass
  rw [sample_default hs]
  by_cases h2 : y.count s.minLabel ≤ 2
  · rw [if_pos h2, if_pos (Or.inl h2)]
  rw [if_neg h2, sample_default hs, if_neg h2]
  unfold polynomAlg
  rw [stats_count hs hm, stats_count hs hM, detN_eq_requested, ok_bind]
  by_cases h0 : requested proportion (y.count s.majLabel) (y.count s.minLabel) = 0
  · rw [if_pos h0, if_pos (Or.inr h0)]; rfl
  · rw [if_neg h0, if_neg (by push Not; exact ⟨by omega, h0⟩), selectLabel_eq_classRows]; rfl

/-! ## Theorems -/

/-- Star: every sample is on the open segment from a minority row to the mean of the minority rows. The number of samples is
a multiple of the number of minority rows, not the requested number. -/
theorem C45_star {d : Nat} {X : List Row} {y : List Int} {a b : Int} {proportion : ℚ} (hwf : WF d X y)
    (hmin : IsMinority y a b) :
    ∃ new mean, polynomClass proportion .star d X y = .ok (X ++ new, y ++ List.replicate new.length a) ∧
      IsMean d (classRows X y a) mean ∧ (∀ x ∈ new, ∃ p ∈ classRows X y a, OpenSegment d p mean x) ∧
      (if y.count a ≤ 2 ∨ requested proportion (y.count b) (y.count a) = 0 then new = []
       else ∃ k, new.length = y.count a * k ∧ RoundedShare (requested proportion (y.count b) (y.count a)) (y.count a) k) := by
  have hne : classRows X y a ≠ [] := classRows_ne_nil hwf.1 hmin.1
  have hlen : ∀ r ∈ classRows X y a, r.length = d := by
    intro r hr; rw [← selectLabel_eq_classRows] at hr; exact mem_selectLabel_length hwf hr
  have hmean := meanRow_isMean hne hlen
  rw [polynomClass_run hmin]
  by_cases hc : y.count a ≤ 2 ∨ requested proportion (y.count b) (y.count a) = 0
  · refine ⟨[], _, ?_, hmean, by simp, by rw [if_pos hc]⟩
    rw [if_pos hc]; simp
  · refine ⟨starSamples d (requested proportion (y.count b) (y.count a)) (classRows X y a), _, ?_, hmean, ?_, ?_⟩
    · rw [if_neg hc]; rfl
    · intro x hx
      unfold starSamples at hx
      rw [List.mem_flatMap] at hx
      obtain ⟨p, hp, hx⟩ := hx
      exact ⟨p, hp, splitPoints_mem (hlen p hp) hmean.1 hx⟩
    · rw [if_neg hc]
      have hl : (classRows X y a).length = y.count a := by rw [← selectLabel_eq_classRows]; exact selectLabel_length hwf.1 _
      refine ⟨_, ?_, samplesPerRow_spec _ _⟩
      rw [star_length, hl]

/-- Bus: every sample is on the open segment between two neighbouring minority rows of the data; there is one multiple less
than for star. -/
theorem C45_bus {d : Nat} {X : List Row} {y : List Int} {a b : Int} {proportion : ℚ} (hwf : WF d X y)
    (hmin : IsMinority y a b) :
    ∃ new, polynomClass proportion .bus d X y = .ok (X ++ new, y ++ List.replicate new.length a) ∧
      (∀ x ∈ new, ∃ (i : Nat) (p q : Row), (classRows X y a)[i]? = some p ∧ (classRows X y a)[i + 1]? = some q ∧
        OpenSegment d p q x) ∧
      (if y.count a ≤ 2 ∨ requested proportion (y.count b) (y.count a) = 0 then new = []
       else ∃ k, new.length = (y.count a - 1) * k ∧
        RoundedShare (requested proportion (y.count b) (y.count a)) (y.count a) k) := by
  have hlen : ∀ r ∈ classRows X y a, r.length = d := by
    intro r hr; rw [← selectLabel_eq_classRows] at hr; exact mem_selectLabel_length hwf hr
  rw [polynomClass_run hmin]
  by_cases hc : y.count a ≤ 2 ∨ requested proportion (y.count b) (y.count a) = 0
  · refine ⟨[], ?_, by simp, by rw [if_pos hc]⟩
    rw [if_pos hc]; simp
  · refine ⟨busSamples (requested proportion (y.count b) (y.count a)) (classRows X y a), ?_, ?_, ?_⟩
    · rw [if_neg hc]; rfl
    · intro x hx
      unfold busSamples at hx
      rw [List.mem_flatMap] at hx
      obtain ⟨⟨p, q⟩, hpq, hx⟩ := hx
      obtain ⟨i, hi, e⟩ := List.getElem_of_mem hpq
      rw [List.getElem_zip] at e
      obtain ⟨e1, e2⟩ := Prod.mk.inj e
      rw [List.length_zip, List.length_tail] at hi
      have hp : (classRows X y a)[i]? = some p := by rw [List.getElem?_eq_getElem (by omega), e1]
      have hq : (classRows X y a)[i + 1]? = some q := by
        rw [List.getElem?_eq_getElem (by omega), ← e2, List.getElem_tail]
      exact ⟨i, p, q, hp, hq, splitPoints_mem (hlen p (List.mem_of_getElem? hp)) (hlen q (List.mem_of_getElem? hq)) hx⟩
    · rw [if_neg hc]
      have hl : (classRows X y a).length = y.count a := by rw [← selectLabel_eq_classRows]; exact selectLabel_length hwf.1 _
      refine ⟨_, ?_, samplesPerRow_spec _ _⟩
      rw [bus_length, hl]

/-- Curve: exactly the requested number of rows, all of the right dimension. -/
theorem C45_poly {d : Nat} {X : List Row} {y : List Int} {a b : Int} {proportion : ℚ}
    {fit : List Row → Nat → ℚ → ℚ} {u : Nat → Nat → ℚ} (hmin : IsMinority y a b) :
    ∃ new, polynomClass proportion (.poly fit u) d X y = .ok (X ++ new, y ++ List.replicate new.length a) ∧
      (∀ x ∈ new, x.length = d) ∧
      new.length = (if y.count a ≤ 2 then 0 else requested proportion (y.count b) (y.count a)) := by
  rw [polynomClass_run hmin]
  by_cases hc : y.count a ≤ 2 ∨ requested proportion (y.count b) (y.count a) = 0
  · refine ⟨[], by rw [if_pos hc]; simp, by simp, ?_⟩
    rcases hc with hc | hc
    · rw [if_pos hc]; rfl
    · rw [hc]; simp
  · refine ⟨polySamples fit u d (requested proportion (y.count b) (y.count a)) (classRows X y a), ?_, ?_, ?_⟩
    · rw [if_neg hc]; rfl
    · intro x hx
      unfold polySamples at hx
      rw [List.mem_map] at hx
      obtain ⟨i, _, rfl⟩ := hx
      simp
    · push Not at hc
      rw [if_neg (by omega)]
      simp [polySamples]

/-- Topology `poly`: the parameters at which the fitted polynomials are evaluated range over the whole of `[0, n)` for `n`
minority rows, and over nothing else. -/
theorem C45_poly_parameters {d : Nat} {X : List Row} {y : List Int} {a b : Int} {proportion : ℚ}
    {fit : List Row → Nat → ℚ → ℚ} (hmin : IsMinority y a b) (h2 : 2 < y.count a) (hxy : X.length = y.length) (new : List Row) :
    (∃ u : Nat → Nat → ℚ, (∀ i j, 0 ≤ u i j ∧ u i j < 1) ∧
      polynomClass proportion (.poly fit u) d X y = .ok (X ++ new, y ++ List.replicate new.length a)) ↔
    ∃ t : Nat → Nat → ℚ, (∀ i j, 0 ≤ t i j ∧ t i j < y.count a) ∧
      new = (List.range (requested proportion (y.count b) (y.count a))).map (fun i =>
        (List.range d).map (fun dim => fit (classRows X y a) dim (t dim i))) := by
  have hl : (classRows X y a).length = y.count a := by
    rw [← selectLabel_eq_classRows]; exact selectLabel_length hxy a
  have hp : (0 : ℚ) < y.count a := by exact_mod_cast (by omega : 0 < y.count a)
  have hrun : ∀ u, polynomClass proportion (.poly fit u) d X y =
      .ok (X ++ polySamples fit u d (requested proportion (y.count b) (y.count a)) (classRows X y a),
        y ++ List.replicate (polySamples fit u d (requested proportion (y.count b) (y.count a)) (classRows X y a)).length a) := by
    intro u
    rw [polynomClass_run hmin]
    by_cases h0 : requested proportion (y.count b) (y.count a) = 0
    · rw [if_pos (Or.inr h0), h0]; simp [polySamples]
    · rw [if_neg (by omega)]; rfl
  constructor
  · rintro ⟨u, hu, h⟩
    rw [hrun] at h
    injection h with h
    have hn := List.append_cancel_left (Prod.mk.inj h).1
    refine ⟨fun i j => u i j * y.count a, fun i j => ⟨mul_nonneg (hu i j).1 hp.le, ?_⟩, ?_⟩
    · exact mul_lt_of_lt_one_left hp (hu i j).2
    · rw [← hn, polySamples, hl]
  · rintro ⟨t, ht, rfl⟩
    refine ⟨fun i j => t i j / y.count a, fun i j => ⟨div_nonneg (ht i j).1 hp.le, (div_lt_one hp).2 (ht i j).2⟩, ?_⟩
    have he : polySamples fit (fun i j => t i j / (y.count a : ℚ)) d (requested proportion (y.count b) (y.count a))
        (classRows X y a) = (List.range (requested proportion (y.count b) (y.count a))).map (fun i =>
        (List.range d).map (fun dim => fit (classRows X y a) dim (t dim i))) := by
      unfold polySamples
      refine List.map_congr_left fun i _ => List.map_congr_left fun dim _ => ?_
      rw [hl, div_mul_cancel₀ _ hp.ne']
    rw [hrun, he]

/-- Mesh: exactly the requested number of rows, each a convex combination of a minority row and of its random partners. -/
theorem C45_mesh {d : Nat} {X X' : List Row} {y y' : List Int} {a b : Int} {proportion : ℚ} {ss : SSParams}
    {vol : List Row → ℚ} {dr : Draws} {nb : Nat → Nat → Nat} (hwf : WF d X y) (hmin : IsMinority y a b) (hdr : dr.OK)
    (hg : ss.gaussian = .none)
    (h : sample defaultChecks d (meshAlg proportion ss vol dr nb d) X y = .ok (X', y')) :
    if y.count a ≤ 2 then X' = X ∧ y' = y
    else OversampledBy X y a (requested proportion (y.count b) (y.count a)) (InHull d (classRows X y a)) X' y' := by
  obtain ⟨s, hs, rfl, rfl⟩ := stats_of_isMinority hmin
  obtain ⟨hm, hM, _⟩ := stats_min_mem hs
  rw [sample_default hs] at h
  by_cases h2 : y.count s.minLabel ≤ 2
  · rw [if_pos h2] at h ⊢
    injection h with h
    obtain ⟨rfl, rfl⟩ := Prod.mk.inj h
    exact ⟨rfl, rfl⟩
  rw [if_neg h2] at h ⊢
  unfold meshAlg at h
  rw [stats_count hs hm, stats_count hs hM, detN_eq_requested, ok_bind] at h
  split at h
  · rename_i h0
    rw [h0]
    injection h with h
    obtain ⟨rfl, rfl⟩ := Prod.mk.inj h
    exact oversampledBy_none _ _ _ _
  · simp only at h
    rw [bind_ok] at h
    obtain ⟨out, hout, h⟩ := h
    simp only [pure_ok] at h
    obtain ⟨h1, hgen⟩ := sampleSimplex_plain (fun r hr => mem_selectLabel_length hwf hr) (by intro V hV; cases hV)
      (by intro V hV; cases hV) (by intro hV; cases hV) hdr (by simp) hg hout
    refine withSamples_oversampledBy h1 ?_ h
    intro x hx
    rw [← selectLabel_eq_classRows]
    exact generatedFrom_inHull (hgen x hx) (fun _ h => h) (fun _ h => h)

/-- The mesh never fails: `nb` are partners drawn from the minority rows. -/
theorem C45_mesh_total {d : Nat} {X : List Row} {y : List Int} {a b : Int} {proportion : ℚ} {ss : SSParams}
    {vol : List Row → ℚ} {dr : Draws} {nb : Nat → Nat → Nat} (hwf : WF d X y) (hmin : IsMinority y a b) (hdr : dr.OK)
    (hpos : ∀ i j, 0 < dr.simplexU i j) (hnb : ∀ j i, nb j i < y.count a) (hd : 1 ≤ ss.nDim)
    (hmode : ss.simplexSampling = .random ∨ ss.simplexSampling = .deterministic ∨
      (ss.simplexSampling = .volume ∧ ∀ vs, 0 < vol vs))
    (hwi : ss.within = .random ∨ (ss.within = .deterministic ∧ ss.nDim ≤ 2)) :
    ∃ r, sample defaultChecks d (meshAlg proportion ss vol dr nb d) X y = .ok r := by
  obtain ⟨s, hs, rfl, rfl⟩ := stats_of_isMinority hmin
  obtain ⟨hm, hM, _⟩ := stats_min_mem hs
  rw [sample_default hs]
  by_cases h2 : y.count s.minLabel ≤ 2
  · rw [if_pos h2]
    exact ⟨_, rfl⟩
  rw [if_neg h2]
  unfold meshAlg
  rw [stats_count hs hm, stats_count hs hM, detN_eq_requested, ok_bind]
  split
  · exact ⟨_, rfl⟩
  · dsimp only
    have hl := selectLabel_length hwf.1 s.minLabel
    generalize hk : samplesPerRow (requested proportion (y.count s.majLabel) (y.count s.minLabel))
      (selectLabel X y s.minLabel).length = k
    obtain ⟨out, hout⟩ := sampleSimplex_ok (ss := ss) (vol := vol) (dr := dr) (d := d)
      (n := requested proportion (y.count s.majLabel) (y.count s.minLabel)) (a := {}) (X := selectLabel X y s.minLabel)
      (indices := (List.range (selectLabel X y s.minLabel).length).map (fun i => i :: (List.range k).map (fun j => nb j i)))
      (k := k + 1)
      (by
        intro row hrow
        obtain ⟨i, hi, rfl⟩ := List.mem_map.1 hrow
        refine ⟨by simp, fun j hj => ?_⟩
        rcases List.mem_cons.1 hj with rfl | hj
        · exact List.mem_range.1 hi
        · obtain ⟨t, _, rfl⟩ := List.mem_map.1 hj
          exact lt_of_lt_of_eq (hnb t i) hl.symm)
      (by simp) (by apply List.length_pos_iff.1; simp; omega) (by omega) hd rfl
      (by intro ws hws; cases hws) (by intro h; cases h) hmode hdr.choice hpos
      (hwi.imp id (fun h => ⟨h.1, by have := h.2; omega⟩))
    exact ⟨_, by rw [hout, ok_bind]; rfl⟩

/-! ## Non-vacuity -/

example : ∃ r, sample defaultChecks 2 (meshAlg 1 exPar.ss (fun _ => 1) exDraws (fun j i => (i + j + 1) % 3) 2) exX exY = .ok r :=
  C45_mesh_total (by decide) exY_min exDraws_ok (fun i j => by simp only [exDraws]; positivity)
    (fun j i => Nat.mod_lt _ (by decide)) (by decide) (Or.inl rfl) (Or.inl rfl)

/-- Seven samples are asked for: star makes eight, bus six. -/
def c45X : List Row := [[0, 0], [4, 0], [0, 4], [4, 4], [9, 9], [9, 9], [9, 9], [9, 9], [9, 9], [9, 9], [9, 9], [9, 9], [9, 9],
  [9, 9], [9, 9]]
def c45Y : List Int := [1, 1, 1, 1, 0, 0, 0, 0, 0, 0, 0, 0, 0, 0, 0]

example : WF 2 c45X c45Y ∧ IsMinority c45Y 1 0 ∧ requested 1 (c45Y.count 0) (c45Y.count 1) = 7 ∧
    (match polynomClass 1 .star 2 c45X c45Y with
     | .ok r => decide (r.1.drop 15 = [[2/3, 2/3], [4/3, 4/3], [10/3, 2/3], [8/3, 4/3], [2/3, 10/3], [4/3, 8/3],
        [10/3, 10/3], [8/3, 8/3]])
     | .error _ => false) = true ∧
    (match polynomClass 1 .bus 2 c45X c45Y with
     | .ok r => decide (r.1.drop 15 = [[4/3, 0], [8/3, 0], [8/3, 4/3], [4/3, 8/3], [4/3, 4], [8/3, 4]])
     | .error _ => false) = true := by
  refine ⟨⟨by decide, by decide +kernel⟩, ⟨by decide, by decide, by decide, Or.inl (by decide)⟩, by decide +kernel,
    by decide +kernel, by decide +kernel⟩

/-- Mesh on the same data. -/
example : (match sample defaultChecks 2 (meshAlg 1 exPar.ss (fun _ => 1) exDraws (fun j i => (i + j + 1) % 4) 2) c45X c45Y with
     | .ok r => decide (r.1.length = 22 ∧ r.1.take 15 = c45X)
     | .error _ => false) = true := by decide +kernel

end Verif

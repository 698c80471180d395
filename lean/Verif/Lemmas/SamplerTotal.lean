import Verif.Lemmas.Sampler

/-! # `sample_simplex`: soundness of any result and existence of a result -/

namespace Verif

theorem deterministicSamples_sound {d : Nat} {X : List Row} {sel : List (List Nat)}
    {Xv : Option (List Row)} {same : Bool} {vw : Option (List ℚ)} {out : List Row}
    {indices : List (List Nat)} {nDim : Nat}
    (hX : ∀ r ∈ X, r.length = d) (hV : ∀ V, Xv = some V → ∀ r ∈ V, r.length = d)
    (hvw : ∀ ws, vw = some ws → ∀ c ∈ ws, 0 ≤ c ∧ c ≤ 1)
    (hsame : same = true → Xv = some X)
    (hs : ∀ s ∈ sel, SimplexShape indices nDim s)
    (h : deterministicSamples X sel Xv same vw nDim = .ok out) :
    out.length = sel.length ∧ ∀ x ∈ out, GeneratedFrom d X (Xv.getD X) indices x := by
  unfold deterministicSamples at h
  split at h
  · rename_i h2; subst h2
    exact deterministicSamplesDim2_sound hX hV hvw hsame hs h
  · split at h
    · rename_i h1
      refine ⟨mapM_ok_length h, fun x hx => ?_⟩
      obtain ⟨s, hsm, hsx⟩ := mapM_ok_mem h hx
      obtain ⟨b, vs, row, rfl, hrow, hin, hl⟩ := hs s hsm
      simp only at hsx
      refine ⟨b, x, row, [], [], [1], getRow_ok.1 hsx, hrow, by simp, List.Forall₂.nil, ?_⟩
      refine ⟨rfl, by simp, by simp, hX _ (getRow_mem hsx), fun k hk => by simp⟩
    · simp at h

theorem addGaussianNoise_length (g : Gaussian) (u : Nat → Nat → ℚ) (l : List Row) :
    (addGaussianNoise g u l).length = l.length := by
  cases g <;> simp [addGaussianNoise]

/-- Whatever `sample_simplex` returns: `n` rows, each a generated row plus gaussian noise. -/
theorem sampleSimplex_sound {ss : SSParams} {vol : List Row → ℚ} {dr : Draws} {d : Nat}
    {X : List Row} {indices : List (List Nat)} {k n : Nat} {a : SSArgs} {out : List Row}
    (hX : ∀ r ∈ X, r.length = d) (hV : ∀ V, a.Xv = some V → ∀ r ∈ V, r.length = d)
    (hvw : ∀ ws, a.vertexWeights = some ws → ∀ c ∈ ws, 0 ≤ c ∧ c ≤ 1)
    (hsame : a.sameVertices = true → a.Xv = some X)
    (hu : ∀ i j, 0 ≤ dr.simplexU i j) (hI : indices.length ≤ X.length)
    (h : sampleSimplex ss vol dr d X indices k n a = .ok out) :
    ∃ gen : List Row, gen.length = n ∧ (∀ x ∈ gen, GeneratedFrom d X (a.Xv.getD X) indices x) ∧
      out = addGaussianNoise ss.gaussian dr.normalU gen := by
  unfold sampleSimplex at h
  split at h
  · rename_i hn
    simp only [pure_ok] at h
    refine ⟨[], by simp [hn], by simp, ?_⟩
    subst h
    cases ss.gaussian <;> simp [addGaussianNoise]
  · simp only at h
    rw [bind_ok] at h
    obtain ⟨sel, hsel, h⟩ := h
    obtain ⟨hl, _, hsh⟩ := simplicesSel_sound hsel
    cases hw : ss.within with
    | random =>
      rw [hw] at h
      simp only at h
      rw [bind_ok] at h
      obtain ⟨samples, hsam, h⟩ := h
      simp only [pure_ok] at h
      obtain ⟨g1, g2⟩ := randomSamples_sound hX hV hvw hu hI hsh hsam
      exact ⟨samples, by omega, g2, h.symm⟩
    | deterministic =>
      rw [hw] at h
      simp only at h
      rw [bind_ok] at h
      obtain ⟨samples, hsam, h⟩ := h
      simp only [pure_ok] at h
      obtain ⟨g1, g2⟩ := deterministicSamples_sound hX hV hvw hsame hsh hsam
      exact ⟨samples, by omega, g2, h.symm⟩
    | unknown =>
      rw [hw] at h
      simp at h

theorem sum_map_div (l : List ℚ) (s : ℚ) : (l.map (· / s)).sum = l.sum / s := by
  induction l with
  | nil => simp
  | cons a l ih => simp [ih, add_div]

theorem sum_map_const_mul (l : List ℚ) (s : ℚ) : (l.map (fun x => s * x)).sum = s * l.sum := by
  induction l with
  | nil => simp
  | cons a l ih => simp [ih, mul_add]

/-- The deterministic picks exist for every probability vector. -/
theorem deterministicSample_ok {n : Nat} {p : List ℚ} (h0 : ∀ x ∈ p, 0 ≤ x) (h1 : p.sum = 1) :
    ∃ sel, deterministicSample n p = .ok sel ∧ sel.length = n ∧
      ∀ i ∈ sel, ∃ x, p[i]? = some x ∧ 0 < x := by
  have hq0 : ∀ x ∈ p.map (fun x => (n : ℚ) * x), 0 ≤ x := by
    intro x hx
    rw [List.mem_map] at hx
    obtain ⟨y, hy, rfl⟩ := hx
    exact mul_nonneg (by positivity) (h0 y hy)
  have hqs : (p.map (fun x => (n : ℚ) * x)).sum = n := by rw [sum_map_const_mul, h1, mul_one]
  obtain ⟨c, hc, hcs, hf⟩ := deterministicCounts_ok (n := n) hq0 (by rw [hqs]; linarith)
    (by rw [hqs]; linarith)
  have hc0 : ∀ t ∈ c, 0 ≤ t := by
    intro t ht
    obtain ⟨x, _, hx⟩ := forall2_mem_right hf ht
    exact hx.1
  have hcv : countsToVector c
      = .ok (c.zipIdx.flatMap (fun (c, i) => List.replicate c.toNat i)) := by
    unfold countsToVector
    rw [if_neg]
    rw [List.any_eq_true]
    rintro ⟨t, ht, hlt⟩
    have := hc0 t ht
    simp at hlt; omega
  have hds : deterministicSample n p
      = .ok (c.zipIdx.flatMap (fun (c, i) => List.replicate c.toNat i)) := by
    unfold deterministicSample
    rw [hc, ok_bind, hcv]
  refine ⟨_, hds, deterministicSample_length hds, ?_⟩
  intro i hi
  obtain ⟨t, ht, htp⟩ := mem_expand hi
  have hil : i < c.length := (List.getElem?_eq_some_iff.1 ht).1
  have hlen := hf.length_eq
  rw [List.length_map] at hlen
  have hip : i < p.length := by omega
  refine ⟨p[i], List.getElem?_eq_getElem hip, ?_⟩
  rw [List.forall₂_iff_get] at hf
  have := hf.2 i (by simpa using hip) hil
  have hti : c.get ⟨i, hil⟩ = t := by
    have := List.getElem?_eq_some_iff.1 ht
    simpa using this.2
  rw [hti] at this
  simp only [List.get_eq_getElem, List.getElem_map] at this
  by_contra hneg
  have hz : p[i] = 0 := le_antisymm (not_lt.1 hneg) (h0 _ (List.getElem_mem _))
  rw [hz] at this
  simp at this
  omega

theorem npChoice_ok {m n : Nat} {p : List ℚ} {u : Nat → ℚ} (hl : p.length = m)
    (h0 : ∀ x ∈ p, 0 ≤ x) (h1 : p.sum = 1) (hu : ∀ i, 0 ≤ u i ∧ u i < 1) :
    ∃ sel, npChoice m n p u = .ok sel ∧ sel.length = n ∧
      ∀ i ∈ sel, ∃ x, p[i]? = some x ∧ 0 < x := by
  have h : npChoice m n p u = .ok ((List.range n).map (fun i => choiceIdx p (u i))) := by
    unfold npChoice
    rw [if_neg (by omega), if_neg, if_neg (by simp [h1])]
    rw [List.any_eq_true]
    rintro ⟨t, ht, hlt⟩
    have := h0 t ht
    simp at hlt; linarith
  refine ⟨_, h, by simp, ?_⟩
  intro i hi
  rw [List.mem_map] at hi
  obtain ⟨j, _, rfl⟩ := hi
  obtain ⟨w, hw, hpos, _⟩ := choiceIdx_spec h1 (hu j).1 (hu j).2
  exact ⟨w, hw, hpos⟩

/-- Weights with a positive total become a probability vector. -/
theorem normalize_ok {w : List ℚ} (h0 : ∀ x ∈ w, 0 ≤ x) (hs : 0 < w.sum) :
    ∃ p, normalize w = .ok p ∧ p.length = w.length ∧ (∀ x ∈ p, 0 ≤ x) ∧ p.sum = 1 := by
  refine ⟨w.map (· / w.sum), ?_, by simp, ?_, ?_⟩
  · unfold normalize; rw [if_neg hs.ne']
  · intro x hx
    rw [List.mem_map] at hx
    obtain ⟨y, hy, rfl⟩ := hx
    exact div_nonneg (h0 y hy) hs.le
  · rw [sum_map_div, div_self hs.ne']

/-- A caller-side contract under which the weights of all simplices are usable: no base weights with a
known mode (positive volumes in volume mode), or one non-negative weight per base with positive
total. -/
def WeightsOK (mode : SimplexSampling) (vol : List Row → ℚ) (bw : Option (List ℚ)) (m : Nat) : Prop :=
  match bw with
  | none => mode = .random ∨ mode = .deterministic ∨ (mode = .volume ∧ ∀ vs, 0 < vol vs)
  | some w => w.length = m ∧ (∀ x ∈ w, 0 ≤ x) ∧ 0 < w.sum

theorem sum_pos_of_all {l : List ℚ} (hne : l ≠ []) (h : ∀ x ∈ l, 0 < x) : 0 < l.sum := by
  cases l with
  | nil => exact absurd rfl hne
  | cons a l =>
    have h1 := h a (by simp)
    have h2 : 0 ≤ l.sum := List.sum_nonneg (fun x hx => (h x (by simp [hx])).le)
    simp; linarith

theorem simplexDistribution_ok {mode : SimplexSampling} {vol : List Row → ℚ} {X : List Row}
    {all : List (List Nat)} (hne : all ≠ []) (hin : ∀ s ∈ all, ∀ i ∈ s, i < X.length)
    (hm : mode = .random ∨ mode = .deterministic ∨ (mode = .volume ∧ ∀ vs, 0 < vol vs)) :
    ∃ w, simplexDistribution mode vol X all = .ok w ∧ w.length = all.length ∧
      (∀ x ∈ w, 0 ≤ x) ∧ 0 < w.sum := by
  have hlen : 0 < all.length := List.length_pos_iff.2 hne
  have hunif : ∃ w : List ℚ, List.replicate all.length (1 / (all.length : ℚ)) = w ∧
      w.length = all.length ∧ (∀ x ∈ w, 0 ≤ x) ∧ 0 < w.sum := by
    have hq : (0:ℚ) < 1 / (all.length : ℚ) := by positivity
    refine ⟨_, rfl, by simp, ?_, ?_⟩
    · intro x hx
      rw [List.eq_of_mem_replicate hx]; exact hq.le
    · apply sum_pos_of_all
      · simp; omega
      · intro x hx; rw [List.eq_of_mem_replicate hx]; exact hq
  rcases hm with rfl | rfl | ⟨rfl, hv⟩
  · obtain ⟨w, h1, h2⟩ := hunif
    exact ⟨w, by simp only [simplexDistribution]; rw [h1], h2⟩
  · obtain ⟨w, h1, h2⟩ := hunif
    exact ⟨w, by simp only [simplexDistribution]; rw [h1], h2⟩
  · have : ∀ s ∈ all, ∃ b, (do let vs ← takeRows X s; return vol vs : Res ℚ) = .ok b := by
      intro s hs
      obtain ⟨r, hr⟩ := takeRows_ok_of_lt (hin s hs)
      exact ⟨vol r, by rw [hr]; rfl⟩
    obtain ⟨w, hw⟩ := mapM_exists_ok this
    have hpos : ∀ x ∈ w, 0 < x := by
      intro x hx
      obtain ⟨s, _, hsx⟩ := mapM_ok_mem hw hx
      rw [bind_ok] at hsx
      obtain ⟨vs, _, hsx⟩ := hsx
      simp only [pure_ok] at hsx
      rw [← hsx]; exact hv vs
    have hl := mapM_ok_length hw
    refine ⟨w, hw, hl, fun x hx => (hpos x hx).le, sum_pos_of_all ?_ hpos⟩
    rintro rfl
    simp at hl; omega

theorem sum_flatMap_replicate (bw : List ℚ) (m : Nat) :
    (bw.flatMap (fun w => List.replicate m w)).sum = (m : ℚ) * bw.sum := by
  induction bw with
  | nil => simp
  | cons a l ih => simp [List.flatMap_cons, ih, mul_add]

theorem determineWeights_ok {mode : SimplexSampling} {vol : List Row → ℚ} {X : List Row}
    {bw : Option (List ℚ)} {Xv : Option (List Row)} {all : List (List Nat)} {m c : Nat}
    (hne : all ≠ []) (hm : m ≤ X.length) (hcnt : all.length = m * c)
    (hin : ∀ s ∈ all, ∃ b vs, s = b :: vs ∧ b < m ∧ ∀ v ∈ vs, v < (Xv.getD X).length)
    (hw : WeightsOK mode vol bw m) :
    ∃ w, determineWeights mode vol X bw Xv all m = .ok w ∧ w.length = all.length ∧
      (∀ x ∈ w, 0 ≤ x) ∧ 0 < w.sum := by
  have hlen : 0 < all.length := List.length_pos_iff.2 hne
  rcases bw with _ | bw
  · rcases Xv with _ | V
    · refine simplexDistribution_ok hne ?_ hw
      intro s hs i hi
      obtain ⟨b, vs, rfl, hb, hv⟩ := hin s hs
      rcases List.mem_cons.1 hi with rfl | hi
      · omega
      · exact hv i hi
    · have := simplexDistribution_ok (mode := mode) (vol := vol) (X := X ++ V)
        (all := all.map (shiftNeighbors m)) (by simpa using hne) ?_ hw
      · simpa [determineWeights] using this
      · intro s hs i hi
        rw [List.mem_map] at hs
        obtain ⟨s, hs, rfl⟩ := hs
        obtain ⟨b, vs, rfl, hb, hv⟩ := hin s hs
        simp only [shiftNeighbors] at hi
        rw [List.length_append]
        rcases List.mem_cons.1 hi with rfl | hi
        · omega
        · rw [List.mem_map] at hi
          obtain ⟨v, hvm, rfl⟩ := hi
          have := hv v hvm
          simp at this
          omega
  · obtain ⟨h1, h2, h3⟩ := hw
    have hm0 : 0 < m := by
      rcases Nat.eq_zero_or_pos m with h | h
      · subst h; simp at hcnt; exact absurd hcnt hne
      · exact h
    have hdiv : all.length / bw.length = c := by
      rw [hcnt, h1]; exact Nat.mul_div_cancel_left c hm0
    refine ⟨bw.flatMap (fun w => List.replicate c w), ?_, ?_, ?_, ?_⟩
    · simp only [determineWeights]
      rw [if_neg (by omega), hdiv]
    · rw [List.length_flatMap]
      simp [h1, hcnt]
    · intro x hx
      rw [List.mem_flatMap] at hx
      obtain ⟨w, hw, hx⟩ := hx
      rw [List.eq_of_mem_replicate hx]
      exact h2 w hw
    · rw [sum_flatMap_replicate]
      have : 0 < c := by
        rcases Nat.eq_zero_or_pos c with h | h
        · subst h; simp at hcnt; exact absurd hcnt hne
        · exact h
      positivity

theorem simplicesSel_ok {mode : SimplexSampling} {vol : List Row → ℚ} {cu : Nat → ℚ}
    {X : List Row} {n : Nat} {bw : Option (List ℚ)} {indices : List (List Nat)} {k : Nat}
    {Xv : Option (List Row)} {nDim : Nat}
    (ht : TableOK indices k (Xv.getD X).length) (hI : indices.length ≤ X.length)
    (hne : indices ≠ []) (hd : 1 ≤ nDim) (hdk : nDim ≤ k)
    (hu : ∀ i, 0 ≤ cu i ∧ cu i < 1) (hw : WeightsOK mode vol bw indices.length) :
    ∃ sel, simplicesSel mode vol cu X n bw indices k Xv none nDim = .ok sel := by
  obtain ⟨all, hall, hcnt, hsh⟩ := allNeighbor_ok ht hd (by omega)
  have hpos : 0 < all.length := by
    rw [hcnt]
    exact Nat.mul_pos (List.length_pos_iff.2 hne) (Nat.choose_pos (by omega))
  have hallne : all ≠ [] := List.length_pos_iff.1 hpos
  obtain ⟨w, hw, hwl, hw0, hws⟩ := determineWeights_ok (Xv := Xv) hallne hI hcnt (fun s hs => by
    obtain ⟨b, vs, row, rfl, hrow, hin, _⟩ := hsh s hs
    refine ⟨b, vs, rfl, (List.getElem?_eq_some_iff.1 hrow).1, fun v hv => ?_⟩
    exact (ht row (List.mem_of_getElem? hrow)).2 v (hin v hv)) hw
  have hmul : List.zipWith (· * ·) w (List.replicate all.length (1:ℚ)) = w := by
    rw [← hwl]
    clear hw hwl hw0 hws
    induction w with
    | nil => rfl
    | cons a w ih => simp [List.replicate_succ, ih]
  obtain ⟨p, hp, hpl, hp0, hps⟩ := normalize_ok hw0 hws
  have hnw : nodeWeights none indices.length k nDim all.length
      = .ok (List.replicate all.length 1) := rfl
  have hrange : ∀ i : Nat, (∃ x, p[i]? = some x ∧ 0 < x) → i < all.length := by
    rintro i ⟨x, hx, _⟩
    have := (List.getElem?_eq_some_iff.1 hx).1
    omega
  unfold simplicesSel
  rw [hall, ok_bind, hnw, ok_bind, hw, ok_bind, if_neg (by simp [hwl]), hmul, hp]
  by_cases hm : mode = .deterministic
  · obtain ⟨sel, hsel, _, hin⟩ := deterministicSample_ok (n := n) hp0 hps
    obtain ⟨r, hr⟩ := takeRows_ok_of_lt (X := all) (idx := sel) (fun i hi => hrange i (hin i hi))
    refine ⟨r, ?_⟩
    simp only [hm, if_true]
    show (deterministicSample n p >>= fun sel => takeRows all sel) = _
    rw [hsel, ok_bind, hr]
  · obtain ⟨sel, hsel, _, hin⟩ := npChoice_ok (m := all.length) (n := n) (by omega) hp0 hps hu
    obtain ⟨r, hr⟩ := takeRows_ok_of_lt (X := all) (idx := sel) (fun i hi => hrange i (hin i hi))
    refine ⟨r, ?_⟩
    simp only [hm, if_false]
    show (npChoice all.length n p cu >>= fun sel => takeRows all sel) = _
    rw [hsel, ok_bind, hr]

theorem simplexVertices_ok {X : List Row} {Xv : Option (List Row)} {vw : Option (List ℚ)}
    {b : Nat} {vs : List Nat} (hb : b < X.length) (hv : ∀ v ∈ vs, v < (Xv.getD X).length)
    (hvw : ∀ ws, vw = some ws → (Xv.getD X).length ≤ ws.length) :
    ∃ r, simplexVertices X Xv vw (b :: vs) = .ok r := by
  rcases vw with _ | ws
  · rcases Xv with _ | V
    · refine takeRows_ok_of_lt (fun i hi => ?_)
      rcases List.mem_cons.1 hi with rfl | hi
      · exact hb
      · exact hv i hi
    · refine takeRows_ok_of_lt (fun i hi => ?_)
      simp only [shiftNeighbors] at hi
      rw [List.length_append]
      rcases List.mem_cons.1 hi with rfl | hi
      · omega
      · rw [List.mem_map] at hi
        obtain ⟨v, hvm, rfl⟩ := hi
        have := hv v hvm
        simp at this
        omega
  · have h1 := hvw ws rfl
    obtain ⟨nbs, hnbs⟩ := takeRows_ok_of_lt hv
    obtain ⟨w, hw⟩ := takeRows_ok_of_lt (X := ws) (idx := vs) (fun i hi => by
      have := hv i hi; omega)
    exact ⟨_, by simp only [simplexVertices]; rw [getRow_lt hb, ok_bind, hnbs, ok_bind, hw]; rfl⟩

/-- Existence of a result once the simplices can be selected. -/
theorem sampleSimplex_ok_of_sel {ss : SSParams} {vol : List Row → ℚ} {dr : Draws} {d : Nat}
    {X : List Row} {indices : List (List Nat)} {k n : Nat} {a : SSArgs}
    (ht : TableOK indices k (a.Xv.getD X).length) (hI : indices.length ≤ X.length)
    (hvw : ∀ ws, a.vertexWeights = some ws → X.length ≤ ws.length ∧ (a.Xv.getD X).length ≤ ws.length)
    (hsame : a.sameVertices = true → a.Xv = some X)
    (hselok : ∃ sel, simplicesSel ss.simplexSampling vol dr.choiceU X n a.baseWeights indices k a.Xv a.simplexWeights
      (min ss.nDim k) = .ok sel)
    (hu : ∀ i j, 0 < dr.simplexU i j)
    (hwi : ss.within = .random ∨ (ss.within = .deterministic ∧ min ss.nDim k ≤ 2)) :
    ∃ out, sampleSimplex ss vol dr d X indices k n a = .ok out := by
  unfold sampleSimplex
  by_cases hn : n = 0
  · exact ⟨[], by simp [hn, pure, Except.pure]⟩
  rw [if_neg hn]
  obtain ⟨sel, hsel⟩ := hselok
  obtain ⟨hl, _, hsh⟩ := simplicesSel_sound hsel
  have hshape : ∀ s ∈ sel, ∃ b vs, s = b :: vs ∧ b < X.length ∧
      (∀ v ∈ vs, v < (a.Xv.getD X).length) ∧ vs.length + 1 = min ss.nDim k := by
    intro s hs
    obtain ⟨b, vs, row, rfl, hrow, hin, hlen⟩ := hsh s hs
    have := (List.getElem?_eq_some_iff.1 hrow).1
    exact ⟨b, vs, rfl, by omega, fun v hv => (ht row (List.mem_of_getElem? hrow)).2 v (hin v hv), hlen⟩
  have hsamples : ∃ samples, (match ss.within with
      | .random => randomSamplesFromSimplices d X sel a.Xv a.vertexWeights dr.simplexU
      | .deterministic =>
          deterministicSamples X sel a.Xv a.sameVertices a.vertexWeights (min ss.nDim k)
      | .unknown => .error .valueError) = .ok samples := by
    rcases hwi with hwi | ⟨hwi, h2⟩
    · rw [hwi]
      simp only [randomSamplesFromSimplices]
      apply mapM_exists_ok
      rintro ⟨s, i⟩ hsi
      have hsm : s ∈ sel := by
        have := List.mem_zipIdx hsi; simp at this; rw [this.2]; exact List.getElem_mem _
      obtain ⟨b, vs, rfl, hb, hv, _⟩ := hshape s hsm
      obtain ⟨r, hr⟩ := simplexVertices_ok (vw := a.vertexWeights) hb hv (fun ws h => (hvw ws h).2)
      have hnd : ∃ w, normalizeDraw ((List.range (b :: vs).length).map (dr.simplexU i)) = .ok w := by
        unfold normalizeDraw
        rw [if_neg]
        · exact ⟨_, rfl⟩
        · apply ne_of_gt
          apply sum_pos_of_all
          · simp
          · intro x hx
            rw [List.mem_map] at hx
            obtain ⟨j, _, rfl⟩ := hx
            exact hu i j
      obtain ⟨w, hw⟩ := hnd
      exact ⟨rowSum d (List.zipWith Row.smul w r), by simp only []; rw [hw, ok_bind, hr]; rfl⟩
    · rw [hwi]
      simp only [deterministicSamples]
      by_cases hd2 : min ss.nDim k = 2
      · rw [if_pos hd2]
        unfold deterministicSamplesDim2
        have hpairs : ∃ pairs, sel.mapM edgeOf = .ok pairs ∧
            ∀ p ∈ pairs, p.1 < X.length ∧ p.2 < (a.Xv.getD X).length := by
          have hstep : ∀ s ∈ sel, ∃ p : Nat × Nat, edgeOf s = .ok p ∧ p.1 < X.length ∧ p.2 < (a.Xv.getD X).length := by
            intro s hs
            obtain ⟨b, vs, rfl, hb, hv, hlen⟩ := hshape s hs
            rw [hd2] at hlen
            match vs, hlen with
            | [v], _ => exact ⟨(b, v), rfl, hb, hv v (by simp)⟩
          obtain ⟨pairs, hp⟩ := mapM_exists_ok (fun s hs => by
            obtain ⟨p, hp, _⟩ := hstep s hs; exact ⟨p, hp⟩)
          refine ⟨pairs, hp, ?_⟩
          intro p hpm
          obtain ⟨s, hs, hsp⟩ := mapM_ok_mem hp hpm
          obtain ⟨q, hq, hqq⟩ := hstep s hs
          rw [hq] at hsp
          injection hsp with hsp
          rw [← hsp]; exact hqq
        obtain ⟨pairs, hpe, hpb⟩ := hpairs
        rw [hpe, ok_bind]
        simp only
        set sorted : Bool := a.Xv.isNone || a.sameVertices with hsorted
        have hVX : sorted = true → a.Xv.getD X = X := by
          intro hso
          rw [hsorted, Bool.or_eq_true] at hso
          rcases hso with h | h
          · simp at h; simp [h]
          · simp [hsame h]
        set pairs' : List (Nat × Nat) :=
          if sorted = true then pairs.map (fun p => (min p.1 p.2, max p.1 p.2)) else pairs with hp'
        set V : List Row := if sorted = true then X else a.Xv.getD X with hVdef
        have hVeq : V = a.Xv.getD X := by
          rw [hVdef]; split
          · rename_i hso; exact (hVX hso).symm
          · rfl
        have hpb' : ∀ p ∈ pairs', p.1 < X.length ∧ p.2 < V.length := by
          intro p hp
          rw [hp'] at hp
          split at hp
          · rename_i hso
            rw [List.mem_map] at hp
            obtain ⟨q, hq, rfl⟩ := hp
            have := hpb q hq
            rw [hVX hso] at this
            rw [hVeq, hVX hso]
            omega
          · rw [hVeq]; exact hpb p hp
        set uc : List ((Nat × Nat) × Nat) :=
          (npUniqueCounts (pairs'.map (fun p => toLex p))).map (fun vc => (ofLex vc.1, vc.2)) with huc
        have hmem : ∀ pc ∈ uc, pc.1 ∈ pairs' := by
          intro pc hpc
          rw [huc, List.mem_map] at hpc
          obtain ⟨vc, hvc, rfl⟩ := hpc
          unfold npUniqueCounts at hvc
          rw [List.mem_map] at hvc
          obtain ⟨v, hv, rfl⟩ := hvc
          rw [mem_npUnique, List.mem_map] at hv
          obtain ⟨p, hp, rfl⟩ := hv
          exact hp
        have hparts : ∀ c ∈ (List.range' 1 ((uc.map Prod.snd).foldr max 0)).filter
            (fun c => (uc.map Prod.snd).contains c), ∃ b, addSamples uc c X V a.vertexWeights = .ok b := by
          intro c _
          unfold addSamples
          simp only
          have : ∀ p ∈ (uc.filter (fun pc => pc.2 == c)).map Prod.fst, ∃ r, (do
              let base ← getRow X p.1
              let nb ← getRow V p.2
              let w ← vertexWeight a.vertexWeights p.2
              return (base, Row.smul w (Row.sub nb base)) : Res (Row × Row)) = .ok r := by
            intro p hp
            rw [List.mem_map] at hp
            obtain ⟨pc, hpc, rfl⟩ := hp
            have hb := hpb' _ (hmem pc (List.mem_filter.1 hpc).1)
            rw [getRow_lt hb.1, ok_bind, getRow_lt hb.2, ok_bind]
            cases hvw' : a.vertexWeights with
            | none => exact ⟨_, rfl⟩
            | some ws =>
              have := (hvw ws hvw').2
              rw [hVeq] at hb
              simp only [vertexWeight]
              rw [getRow_lt (X := ws) (by omega), ok_bind]
              exact ⟨_, rfl⟩
          obtain ⟨rows, hrows⟩ := mapM_exists_ok this
          exact ⟨_, by rw [hrows, ok_bind]; rfl⟩
        obtain ⟨parts, hparts⟩ := mapM_exists_ok hparts
        exact ⟨_, by rw [hparts, ok_bind]; rfl⟩
      · rw [if_neg hd2, if_pos (by omega)]
        apply mapM_exists_ok
        intro s hs
        obtain ⟨b, vs, rfl, hb, _⟩ := hshape s hs
        exact ⟨_, getRow_lt hb⟩
  obtain ⟨samples, hsamples⟩ := hsamples
  refine ⟨addGaussianNoise ss.gaussian dr.normalU samples, ?_⟩
  dsimp only
  rw [hsel, ok_bind]
  cases hw' : ss.within <;> rw [hw'] at hsamples <;> simp only [] at hsamples ⊢
  · rw [hsamples]; rfl
  · rw [hsamples]; rfl
  · cases hsamples

/-- Existence of a result: under the caller-side contract `sample_simplex` raises nothing. -/
theorem sampleSimplex_ok {ss : SSParams} {vol : List Row → ℚ} {dr : Draws} {d : Nat}
    {X : List Row} {indices : List (List Nat)} {k n : Nat} {a : SSArgs}
    (ht : TableOK indices k (a.Xv.getD X).length) (hI : indices.length ≤ X.length)
    (hne : indices ≠ []) (hk : 1 ≤ k) (hd : 1 ≤ ss.nDim)
    (hsw : a.simplexWeights = none)
    (hvw : ∀ ws, a.vertexWeights = some ws → X.length ≤ ws.length ∧ (a.Xv.getD X).length ≤ ws.length)
    (hsame : a.sameVertices = true → a.Xv = some X)
    (hw : WeightsOK ss.simplexSampling vol a.baseWeights indices.length)
    (hc : ∀ i, 0 ≤ dr.choiceU i ∧ dr.choiceU i < 1)
    (hu : ∀ i j, 0 < dr.simplexU i j)
    (hwi : ss.within = .random ∨ (ss.within = .deterministic ∧ min ss.nDim k ≤ 2)) :
    ∃ out, sampleSimplex ss vol dr d X indices k n a = .ok out := by
  refine sampleSimplex_ok_of_sel ht hI hvw hsame ?_ hu hwi
  rw [hsw]
  exact simplicesSel_ok ht hI hne (by omega) (by omega) hc hw

end Verif

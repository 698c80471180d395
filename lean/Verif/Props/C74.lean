import Verif.Model.Smobd
import Verif.Props.C61
import Verif.Props.C63

/-! # C74: SMOBD -/

namespace Verif

/-! ## Specification -/

/-- A distance: finite and not negative, or infinite. -/
def IsDistance (x : XF) : Prop := x = .posInf ∨ ∃ q, 0 ≤ q ∧ x = .fin q

/-- Contract of `OPTICS`: a core distance and a reachability for every row; the reachability of the row it begins with is infinite. It
may refuse its arguments with a `ValueError`. -/
def OpticsOK (optics : Nat → List Row → Res (List XF × List XF)) : Prop :=
  ∀ m rows, rows ≠ [] →
    (∀ e, optics m rows = .error e → e = .valueError) ∧
    ∀ core reach, optics m rows = .ok (core, reach) → core.length = rows.length ∧ reach.length = rows.length ∧
      (∀ c ∈ core, IsDistance c) ∧ (∀ r ∈ reach, IsDistance r) ∧ XF.posInf ∈ reach

/-- Contract of a radius query: the number of rows within the radius, for every row. -/
def RadiusCountOK (radius : List Row → List Nat) : Prop := ∀ rows, (radius rows).length = rows.length

/-- The distance used for a row: the core distance, or 1.1 times the largest finite one. -/
def UsedDistance (core : List XF) (c : XF) (v : ℚ) : Prop :=
  c = .fin v ∨ (c = .posInf ∧ ∃ top, XF.fin top ∈ core ∧ (∀ q, XF.fin q ∈ core → q ≤ top) ∧ v = top * (11 / 10))

/-- The weight of a row: a mixture of its core distance and its number of neighbours, each divided by the largest. -/
def MixtureWeights (eta1 : ℚ) (core : List XF) (counts : List Nat) (w : List ℚ) : Prop :=
  ∃ (vs : List ℚ) (top cnt : ℚ), List.Forall₂ (UsedDistance core) core vs ∧ vs ≠ [] ∧ counts.length = core.length ∧
    top ∈ vs ∧ (∀ v ∈ vs, v ≤ top) ∧ (∃ c ∈ counts, (c : ℚ) = cnt) ∧ (∀ c ∈ counts, (c : ℚ) ≤ cnt) ∧ w.length = core.length ∧
    ∀ i, i < core.length → w.getD i 0 =
      vs.getD i 0 / max top (1 / 100000000) * eta1 + (counts.getD i 0 : ℚ) / max cnt (1 / 100000000) * (1 - eta1)

/-- The result: base rows drawn by the weights `w`, each mixed with a neighbour that is not first on its list. -/
def DrawnMixed (d : Nat) (A : List Row) (table : List (List Nat)) (w : List ℚ) (u : Nat → ℚ) (n : Nat) (samples : List Row) : Prop :=
  ∃ bases : List Nat, DrawnByShares w u n bases ∧
    List.Forall₂ (fun b z => ∃ x row q nb, A[b]? = some x ∧ table[b]? = some row ∧ q ∈ row.drop 1 ∧ A[q]? = some nb ∧ Between d x nb z)
      bases samples

/-! ## Noise -/

/-- **No row is ever noise**: the mean reachability is infinite. -/
theorem smobdNoise_none {t : ℚ} {core reach : List XF} (ht : 0 ≤ t) (h : XF.posInf ∈ reach) : ∀ b ∈ smobdNoise t core reach, b = false := by
  intro b hb
  unfold smobdNoise at hb
  have e : xfMean reach = .posInf := by unfold xfMean; rw [if_pos h]
  rw [e] at hb
  have e2 : ∀ r, (xfScale t .posInf).lt r = false := by
    intro r
    unfold xfScale
    dsimp only
    split
    · cases r <;> rfl
    · rw [if_neg (not_lt.2 ht)]
      cases r <;> rfl
  obtain ⟨i, hi⟩ := List.mem_iff_getElem?.1 hb
  rw [List.getElem?_zipWith] at hi
  split at hi
  · injection hi with hi
    rw [← hi, e2, Bool.and_false]
  · cases hi

theorem zipWith_keep {l : List ℚ} : ∀ {noise : List Bool}, l.length ≤ noise.length → (∀ b ∈ noise, b = false) →
    List.zipWith (fun q n => if n = true then (0 : ℚ) else q) l noise = l := by
  induction l with
  | nil => intro noise _ _; rfl
  | cons q l ih =>
    intro noise hl hb
    cases noise with
    | nil => simp at hl
    | cons b noise =>
      rw [List.zipWith_cons_cons, hb b List.mem_cons_self, ih (by simpa using hl) (fun x hx => hb x (List.mem_cons_of_mem _ hx))]
      rfl

theorem maxL_nonneg {l : List ℚ} (h : l ≠ []) (h0 : ∀ x ∈ l, 0 ≤ x) : 0 ≤ maxL l := h0 _ (maxL_spec h).1

theorem coreFinite_spec {core : List XF} (hd : ∀ c ∈ core, IsDistance c) (hall : ¬ ∀ c ∈ core, c = XF.posInf) :
    List.Forall₂ (UsedDistance core) core (coreFinite core) ∧ ∀ v ∈ coreFinite core, 0 ≤ v := by
  set fins := (core.filter (fun c => decide (c ≠ XF.posInf))).map XF.toNum with hf
  have hmem : ∀ q, XF.fin q ∈ core → q ∈ fins := by
    intro q hq
    rw [hf, List.mem_map]
    exact ⟨.fin q, List.mem_filter.2 ⟨hq, by simp⟩, rfl⟩
  have hmem' : ∀ q ∈ fins, XF.fin q ∈ core ∧ 0 ≤ q := by
    intro q hq
    rw [hf, List.mem_map] at hq
    obtain ⟨c, hc, rfl⟩ := hq
    obtain ⟨h1, h2⟩ := List.mem_filter.1 hc
    rcases hd c h1 with rfl | ⟨r, hr, rfl⟩
    · simp at h2
    · exact ⟨h1, hr⟩
  have hne : fins ≠ [] := by
    intro h
    apply hall
    intro c hc
    rcases hd c hc with h' | ⟨r, hr, rfl⟩
    · exact h'
    · have := hmem r hc
      rw [h] at this
      cases this
  obtain ⟨m1, m2⟩ := maxL_spec hne
  have key : ∀ c ∈ core, UsedDistance core c (if c = XF.posInf then maxL fins * (11 / 10) else c.toNum) ∧
      0 ≤ (if c = XF.posInf then maxL fins * (11 / 10) else c.toNum) := by
    intro c hc
    rcases hd c hc with rfl | ⟨r, hr, rfl⟩
    · rw [if_pos rfl]
      exact ⟨.inr ⟨rfl, _, (hmem' _ m1).1, fun q hq => m2 q (hmem q hq), rfl⟩, by have := (hmem' _ m1).2; positivity⟩
    · rw [if_neg (by simp)]
      exact ⟨.inl rfl, hr⟩
  constructor
  · unfold coreFinite
    rw [List.forall₂_map_right_iff]
    exact List.forall₂_same.2 (fun c hc => (key c hc).1)
  · intro v hv
    unfold coreFinite at hv
    obtain ⟨c, hc, rfl⟩ := List.mem_map.1 hv
    exact (key c hc).2

theorem smobdDensity_spec {eta1 : ℚ} (he : 0 ≤ eta1 ∧ eta1 ≤ 1) {core : List XF} {counts : List Nat} {noise : List Bool}
    (hd : ∀ c ∈ core, IsDistance c) (hall : ¬ ∀ c ∈ core, c = XF.posInf) (hlen : counts.length = core.length)
    (hn : noise.length = core.length) (hno : ∀ b ∈ noise, b = false) :
    MixtureWeights eta1 core counts (smobdDensity eta1 noise (coreFinite core) counts) ∧
      ∀ w ∈ smobdDensity eta1 noise (coreFinite core) counts, 0 ≤ w := by
  obtain ⟨c1, c2⟩ := coreFinite_spec hd hall
  have hl : (coreFinite core).length = core.length := c1.length_eq.symm
  have hcore : core ≠ [] := by rintro rfl; exact hall (by simp)
  have hpos : 0 < core.length := List.length_pos_iff.2 hcore
  have hvne : coreFinite core ≠ [] := List.length_pos_iff.1 (by omega)
  set vs := coreFinite core with hvs
  obtain ⟨m1, m2⟩ := maxL_spec hvne
  have hcne : counts.map (fun c : Nat => (c : ℚ)) ≠ [] := by
    have h : 0 < counts.length := by rw [hlen]; exact hpos
    intro hc
    rw [List.map_eq_nil_iff] at hc
    rw [hc] at h
    exact absurd h (by simp)
  obtain ⟨k1, k2⟩ := maxL_spec hcne
  have e : smobdDensity eta1 noise vs counts = List.zipWith (fun a b => a * eta1 + b * (1 - eta1))
      (vs.map (fun c => c / max (maxL vs) (1 / 100000000)))
      ((counts.map (fun c : Nat => (c : ℚ))).map (fun c => c / max (maxL (counts.map (fun c : Nat => (c : ℚ)))) (1 / 100000000))) := by
    unfold smobdDensity
    exact zipWith_keep (by simp; omega) hno
  rw [e]
  constructor
  · refine ⟨vs, _, maxL (counts.map (fun c : Nat => (c : ℚ))), c1, hvne, hlen, m1, m2, ?_, ?_, ?_, ?_⟩
    · obtain ⟨c, hc, h⟩ := List.mem_map.1 k1
      exact ⟨c, hc, h⟩
    · intro c hc
      exact k2 _ (List.mem_map.2 ⟨c, hc, rfl⟩)
    · simp; omega
    · intro i hi
      have g1 : i < vs.length := by omega
      have g2 : i < counts.length := by omega
      simp [List.getD_eq_getElem?_getD, List.getElem?_zipWith, List.getElem?_eq_getElem g1, List.getElem?_eq_getElem g2]
  · intro w hw
    obtain ⟨i, hi⟩ := List.mem_iff_getElem?.1 hw
    rw [List.getElem?_zipWith] at hi
    split at hi
    · rename_i a b ha hb
      injection hi with hi
      rw [← hi]
      obtain ⟨v, hv, rfl⟩ := List.mem_map.1 (List.mem_of_getElem? ha)
      obtain ⟨c, hc, rfl⟩ := List.mem_map.1 (List.mem_of_getElem? hb)
      obtain ⟨c', hc', rfl⟩ := List.mem_map.1 hc
      have g1 := c2 v hv
      have g2 : (0 : ℚ) < max (maxL vs) (1 / 100000000) := lt_max_of_lt_right (by norm_num)
      have g3 : (0 : ℚ) < max (maxL (counts.map (fun c : Nat => (c : ℚ)))) (1 / 100000000) := lt_max_of_lt_right (by norm_num)
      have g4 : (0 : ℚ) ≤ 1 - eta1 := by linarith [he.2]
      exact add_nonneg (mul_nonneg (div_nonneg g1 g2.le) he.1) (mul_nonneg (div_nonneg (Nat.cast_nonneg _) g3.le) g4)
    · cases hi

/-! ## The result -/

/-- **SMOBD**: the input is returned if OPTICS refuses, all core distances are infinite or no row has neighbours; otherwise exactly the
requested number of rows is appended. The threshold `t` does not occur in the description. -/
theorem C74_smobd {proportion eta1 t : ℚ} {minSamples : Nat} {optics : Nat → List Row → Res (List XF × List XF)}
    {radius : List Row → List Nat} {baseU : Nat → ℚ} {ix : Nat → Nat → Nat} {gap : Nat → Nat → ℚ}
    {knn : Nat → List Row → List (List Nat)} {d : Nat} {X : List Row} {y : List Int} {a b : Int}
    (hwf : WF d X y) (hk : KnnOK knn) (ho : OpticsOK optics) (hr : RadiusCountOK radius) (hbu : ∀ i, 0 ≤ baseU i ∧ baseU i < 1)
    (hix : ∀ i m, 0 < m → ix i m < m) (hgap : ∀ i j, 0 ≤ gap i j ∧ gap i j ≤ 1) (he : 0 ≤ eta1 ∧ eta1 ≤ 1) (ht : 0 ≤ t)
    (hms : 1 ≤ minSamples)
    (hmin : IsMinority y a b) (h3 : 2 < y.count a) (hn : 0 < requested proportion (y.count b) (y.count a)) :
    (((∃ e, optics (min (y.count a - 1) minSamples) (classRows X y a) = .error e) ∨
      (∃ core reach, optics (min (y.count a - 1) minSamples) (classRows X y a) = .ok (core, reach) ∧
        ((∀ c ∈ core, c = .posInf) ∨ ∀ c ∈ radius (classRows X y a), c = 0))) ∧
      sample defaultChecks d (smobdAlg proportion eta1 t minSamples optics radius baseU ix gap knn) X y = .ok (X, y)) ∨
    ∃ core reach w samples, optics (min (y.count a - 1) minSamples) (classRows X y a) = .ok (core, reach) ∧
      MixtureWeights eta1 core (radius (classRows X y a)) w ∧
      DrawnMixed d (classRows X y a) (knn (min (y.count a) (minSamples + 1)) (classRows X y a)) (shares w) baseU
        (requested proportion (y.count b) (y.count a)) samples ∧
      sample defaultChecks d (smobdAlg proportion eta1 t minSamples optics radius baseU ix gap knn) X y =
        .ok (X ++ samples, y ++ List.replicate (requested proportion (y.count b) (y.count a)) a) := by
  obtain ⟨s, hs, rfl, rfl⟩ := stats_of_isMinority hmin
  obtain ⟨hm, hM, hab⟩ := stats_min_mem hs
  have hA : (classRows X y s.minLabel).length = y.count s.minLabel := classRows_length hwf.1 _
  rw [sample_default hs, if_neg (by omega)]
  unfold smobdAlg
  rw [stats_count hs hm, stats_count hs hM, detN_eq_requested, ok_bind, if_neg (by omega)]
  simp only [selectLabel_eq_classRows]
  set A := classRows X y s.minLabel with hAd
  set n := requested proportion (y.count s.majLabel) (y.count s.minLabel) with hnd
  have hAne : A ≠ [] := List.length_pos_iff.1 (by omega)
  have hlen : ∀ r ∈ A, r.length = d := fun r hr => hwf.2 r (mem_of_mem_classRows hr)
  obtain ⟨k1, k2⟩ := hk (min A.length (minSamples + 1)) A (min_le_left _ _)
  obtain ⟨o1, o2⟩ := ho (min (y.count s.minLabel - 1) minSamples) A hAne
  unfold smobdPrepare
  rw [hA]
  cases hopt : optics (min (y.count s.minLabel - 1) minSamples) A with
  | error e =>
    rw [o1 e hopt]
    exact .inl ⟨.inl ⟨_, rfl⟩, rfl⟩
  | ok o =>
    obtain ⟨core, reach⟩ := o
    obtain ⟨p1, p2, p3, p4, p5⟩ := o2 core reach hopt
    rw [ok_bind]
    dsimp only
    by_cases hbad : (∀ c ∈ core, c = XF.posInf) ∨ ∀ c ∈ radius A, c = 0
    · rw [if_pos hbad]
      exact .inl ⟨.inr ⟨core, reach, rfl, hbad⟩, rfl⟩
    · rw [if_neg hbad]
      right
      have hall : ¬ ∀ c ∈ core, c = XF.posInf := fun h => hbad (.inl h)
      obtain ⟨w1, w2⟩ := smobdDensity_spec (noise := smobdNoise t core reach) he p3 hall (by rw [hr, p1])
        (by unfold smobdNoise; simp; omega) (smobdNoise_none ht p5)
      set w := smobdDensity eta1 (smobdNoise t core reach) (coreFinite core) (radius A) with hw
      have hwl : w.length = A.length := by obtain ⟨_, _, _, _, _, _, _, _, _, _, h, _⟩ := w1; omega
      have hwne : w ≠ [] := List.length_pos_iff.1 (by omega)
      obtain ⟨bases, hb, hbl, hbp⟩ := npChoice_ok (m := A.length) (n := n) (p := shares w) (u := baseU)
        (by rw [shares_length, hwl]) (shares_nonneg w2) (shares_sum hwne) hbu
      have hdr := npChoice_drawn hbu hb
      rw [hA] at hb
      have hk2 : ¬ min (y.count s.minLabel) (minSamples + 1) < 2 := by omega
      set k := min (y.count s.minLabel) (minSamples + 1) with hkd
      have hkA : min A.length (minSamples + 1) = k := by rw [hA]
      rw [hkA] at k1 k2
      have hspec : ∀ p ∈ bases.zipIdx, ∃ z, (do
          let base ← getRow A p.1
          let row ← getRow (knn k A) p.1
          let q ← getRow row (1 + ix p.2 (k - 1))
          let nb ← getRow A q
          return mixRow base nb (gap p.2) : Res Row) = .ok z ∧
          ∃ x row q nb, A[p.1]? = some x ∧ (knn k A)[p.1]? = some row ∧ q ∈ row.drop 1 ∧ A[q]? = some nb ∧ Between d x nb z := by
        intro p hp
        have hpb : p.1 < A.length := by
          obtain ⟨x, hx, _⟩ := hbp p.1 (by
            have := List.mem_zipIdx_iff_getElem?.1 hp
            exact List.mem_of_getElem? this)
          have := (List.getElem?_eq_some_iff.1 hx).1
          rw [shares_length, hwl] at this
          exact this
        have hpk : p.1 < (knn k A).length := by omega
        obtain ⟨t1, t2⟩ := k2 _ (List.getElem_mem hpk)
        have hi := hix p.2 (k - 1) (by omega)
        have hq : 1 + ix p.2 (k - 1) < ((knn k A)[p.1]).length := by omega
        have hx := t2 _ (List.getElem_mem hq)
        refine ⟨mixRow A[p.1] A[((knn k A)[p.1])[1 + ix p.2 (k - 1)]] (gap p.2), ?_, _, _, _, _, List.getElem?_eq_getElem hpb,
          List.getElem?_eq_getElem hpk, ?_, List.getElem?_eq_getElem hx, ?_⟩
        · rw [getRow_ok.2 (List.getElem?_eq_getElem hpb), ok_bind, getRow_ok.2 (List.getElem?_eq_getElem hpk), ok_bind,
            getRow_ok.2 (List.getElem?_eq_getElem hq), ok_bind, getRow_ok.2 (List.getElem?_eq_getElem hx), ok_bind]
          rfl
        · refine List.mem_iff_getElem?.2 ⟨ix p.2 (k - 1), ?_⟩
          rw [List.getElem?_drop, List.getElem?_eq_getElem hq]
        · exact mixRow_between (hlen _ (List.getElem_mem _)) (hlen _ (List.getElem_mem _)) (hgap p.2)
      obtain ⟨samples, hsm⟩ := mapM_exists_ok (l := bases.zipIdx) (fun p hp => (hspec p hp).imp (fun _ h => h.1))
      have hf := mapM_ok_iff.1 hsm
      have hsl : samples.length = n := by rw [← hf.length_eq, List.length_zipIdx, hbl]
      refine ⟨core, reach, w, samples, rfl, w1, ⟨bases, hdr, ?_⟩, ?_⟩
      · rw [List.forall₂_iff_get]
        refine ⟨by omega, ?_⟩
        intro i h1 h2
        have h1' : i < bases.zipIdx.length := by rw [List.length_zipIdx]; exact h1
        have := hf.get h1' h2
        obtain ⟨z, z1, z2⟩ := hspec _ (List.get_mem bases.zipIdx ⟨i, h1'⟩)
        rw [this] at z1
        injection z1 with z1
        rw [z1]
        simpa using z2
      · change (npChoice (y.count s.minLabel) n (fixDensity (w.map XF.fin)) baseU >>= _) = _
        rw [fixDensity_fin, hb, ok_bind, if_neg hk2, hsm, ok_bind]
        unfold withSamples
        rw [hsl]
        rfl

/-- **The threshold `t` has no effect.** -/
theorem C74_threshold {proportion eta1 t t' : ℚ} {minSamples : Nat} {optics : Nat → List Row → Res (List XF × List XF)}
    {radius : List Row → List Nat} {baseU : Nat → ℚ} {ix : Nat → Nat → Nat} {gap : Nat → Nat → ℚ}
    {knn : Nat → List Row → List (List Nat)} {d : Nat} {X : List Row} {y : List Int} {a b : Int}
    (hwf : WF d X y) (ho : OpticsOK optics) (hmin : IsMinority y a b) (ht : 0 ≤ t) (ht' : 0 ≤ t') :
    sample defaultChecks d (smobdAlg proportion eta1 t minSamples optics radius baseU ix gap knn) X y =
      sample defaultChecks d (smobdAlg proportion eta1 t' minSamples optics radius baseU ix gap knn) X y := by
  obtain ⟨s, hs, rfl, rfl⟩ := stats_of_isMinority hmin
  have hA : (classRows X y s.minLabel).length = y.count s.minLabel := classRows_length hwf.1 _
  rw [sample_default hs, sample_default hs]
  by_cases h2 : y.count s.minLabel ≤ 2
  · rw [if_pos h2, if_pos h2]
  rw [if_neg h2, if_neg h2]
  have hAne : classRows X y s.minLabel ≠ [] := List.length_pos_iff.1 (by omega)
  have key : smobdPrepare eta1 t minSamples optics radius knn (classRows X y s.minLabel) =
      smobdPrepare eta1 t' minSamples optics radius knn (classRows X y s.minLabel) := by
    unfold smobdPrepare
    obtain ⟨_, o2⟩ := ho (min ((classRows X y s.minLabel).length - 1) minSamples) _ hAne
    cases hopt : optics (min ((classRows X y s.minLabel).length - 1) minSamples) (classRows X y s.minLabel) with
    | error e => rfl
    | ok o =>
      obtain ⟨core, reach⟩ := o
      have p5 := (o2 core reach hopt).2.2.2.2
      have e : smobdNoise t core reach = smobdNoise t' core reach := by
        have e1 := List.eq_replicate_of_mem (smobdNoise_none (t := t) (core := core) ht p5)
        have e2 := List.eq_replicate_of_mem (smobdNoise_none (t := t') (core := core) ht' p5)
        rw [e1, e2]
        simp [smobdNoise]
      rw [ok_bind, ok_bind]
      dsimp only
      rw [e]
  unfold smobdAlg
  simp only [selectLabel_eq_classRows, key]

/-! ## Examples -/

def smOptics (_ : Nat) (rows : List Row) : Res (List XF × List XF) :=
  .ok ((List.range rows.length).map (fun i : Nat => if i = 1 then .posInf else .fin (i : ℚ)),
    (List.range rows.length).map (fun i : Nat => if i = 0 then .posInf else .fin (i : ℚ)))

theorem smOptics_ok : OpticsOK smOptics := by
  intro m rows hne
  have hpos := List.length_pos_iff.2 hne
  refine ⟨fun e h => (by cases h), ?_⟩
  intro core reach h
  injection h with h
  obtain ⟨rfl, rfl⟩ := Prod.mk.inj h
  refine ⟨by simp, by simp, ?_, ?_, ?_⟩
  · intro c hc
    obtain ⟨i, _, rfl⟩ := List.mem_map.1 hc
    split
    · exact .inl rfl
    · exact .inr ⟨_, Nat.cast_nonneg i, rfl⟩
  · intro c hc
    obtain ⟨i, _, rfl⟩ := List.mem_map.1 hc
    split
    · exact .inl rfl
    · exact .inr ⟨_, Nat.cast_nonneg i, rfl⟩
  · exact List.mem_map.2 ⟨0, List.mem_range.2 hpos, rfl⟩

example : WF 2 exX exY ∧ IsMinority exY 1 0 ∧ KnnOK exKnn ∧ OpticsOK smOptics ∧ RadiusCountOK (fun rows => rows.map (fun _ => 2)) ∧
    2 < exY.count 1 ∧ 0 < requested 1 (exY.count 0) (exY.count 1) ∧
    smobdDensity (1 / 2) (smobdNoise 1 [.fin 0, .posInf, .fin 2] [.posInf, .fin 1, .fin 2]) (coreFinite [.fin 0, .posInf, .fin 2])
      [2, 2, 2] = [1 / 2, 1, 21 / 22] :=
  ⟨⟨by decide, by decide +kernel⟩, ⟨by decide, by decide, by decide, Or.inl (by decide)⟩, exKnn_ok, smOptics_ok,
    fun rows => List.length_map _, by decide, by decide +kernel, by decide +kernel⟩

end Verif

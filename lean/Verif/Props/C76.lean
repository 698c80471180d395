import Verif.Model.Asmobd
import Verif.Props.C74
import Verif.Props.C59

/-! # C76: ASMOBD -/

namespace Verif

/-! ## Specification -/

/-- Contract of `radius_neighbors`: valid row numbers, among them those of the rows equal to the query. -/
def BallOK (ball : List Row → Row → XF → List Nat) : Prop :=
  ∀ Z z r, (∀ i ∈ ball Z z r, i < Z.length) ∧ ∀ i, Z[i]? = some z → i ∈ ball Z z r

/-- The positions that are not noise: core distance and reachability are not both above their thresholds. -/
def keptPositions (T1 T2 : ℚ) (core reach : List XF) : List Nat :=
  (List.range core.length).filter
    (fun i => !((XF.fin T1).lt (core.getD i .nan) && (XF.fin T2).lt (reach.getD i .nan)))

/-- The weight of a minority row `z` with core distance `core`, for linear smoothing. -/
def LinearWeight (eta : ℚ) (n : Nat) (ball : List Row → Row → XF → List Nat) (Z : List Row) (y : List Int) (b : Int) (z : Row) (core : XF)
    (w : ℚ) : Prop :=
  (core = .posInf ∧ w = 0) ∨ ∃ c size frac : ℚ, core = .fin c ∧ size = ((ball Z z core).length : ℚ) ∧
    frac = ((ball Z z core).countP (fun i => decide (y[i]? = some b)) : ℚ) / size ∧
    w = eta * (eta * c + (1 - eta) * frac) + (1 - eta) * (size - frac - 1) / (n : ℚ)

/-- The description of a run: the noise thresholds (and the radius of OPTICS) are those given, multiplied by 1.5 as often as fewer than two
rows were left, at most three times. Nothing is added if at most two rows are left. -/
def AsmobdRun (proportion : ℚ) (ss : SSParams) (par : AsmobdParams) (sc : Row × Row)
    (optics : ℚ → Nat → List Row → Res (List XF × List XF)) (ball : List Row → Row → XF → List Nat) (d : Nat)
    (knn : Nat → List Row → List (List Nat)) (X : List Row) (y : List Int) (a b : Int) (X' : List Row) (y' : List Int) : Prop :=
  let A := classRows X y a
  let n := requested proportion (y.count b) (y.count a)
  let cluster := fun j : Nat => optics (par.eps * (3 / 2) ^ j) (min (y.count a - 1) par.minSamples) (A.map (scaleRow sc.1 sc.2))
  let kept := fun (j : Nat) (o : List XF × List XF) => keptPositions (par.T1 * (3 / 2) ^ j) (par.T2 * (3 / 2) ^ j) o.1 o.2
  ∃ (j : Nat) (o : List XF × List XF), j ≤ 3 ∧ cluster j = .ok o ∧ (j < 3 → 2 ≤ (kept j o).length) ∧
    (∀ j' < j, ∃ o', cluster j' = .ok o' ∧ (kept j' o').length < 2) ∧
    if (kept j o).length ≤ 2 then X' = X ∧ y' = y
    else
      let K := (kept j o).map (fun i => A.getD i [])
      let k := min K.length (par.minSamples + 1)
      ∃ ws : List ℚ,
        List.Forall₂ (fun i w => LinearWeight par.eta n ball (X.map (scaleRow sc.1 sc.2)) y b (scaleRow sc.1 sc.2 (A.getD i []))
          (o.1.getD i .nan) w) (kept j o) ws ∧
        OversampledBy X y a n (SimplexOf d (min ss.nDim k) K K (knn k (K.map (scaleRow sc.1 sc.2)))
          (fun i => ∃ p, (shares ws)[i]? = some p ∧ 0 < p)) X' y'

/-! ## Masks -/

theorem maskRows_eq {α : Type} (dflt : α) : ∀ {l : List α} {mask : List Bool}, mask.length = l.length →
    maskRows l mask = ((List.range l.length).filter (fun i => mask.getD i false)).map (fun i => l.getD i dflt)
  | [], mask, h => by
    cases mask with
    | nil => rfl
    | cons b mask => simp at h
  | x :: l, mask, h => by
    cases mask with
    | nil => simp at h
    | cons b mask =>
      have ih := maskRows_eq dflt (l := l) (mask := mask) (by simpa using h)
      unfold maskRows at ih ⊢
      rw [List.zip_cons_cons, List.filterMap_cons, ih, List.length_cons, List.range_succ_eq_map, List.filter_cons, List.filter_map,
        List.getD_cons_zero]
      cases b with
      | true =>
        simp only [if_true, List.map_cons, List.map_map, List.getD_cons_zero]
        rfl
      | false =>
        simp only [Bool.false_eq_true, if_false, List.map_map]
        rfl

theorem count_true_eq : ∀ (mask : List Bool),
    mask.count true = ((List.range mask.length).filter (fun i => mask.getD i false)).length
  | [] => rfl
  | b :: mask => by
    rw [List.count_cons, count_true_eq mask, List.length_cons, List.range_succ_eq_map, List.filter_cons, List.filter_map,
      List.getD_cons_zero, ]
    cases b with
    | true =>
      simp only [if_true, List.length_cons, List.length_map, beq_self_eq_true]
      rfl
    | false =>
      simp only [Bool.false_eq_true, if_false, List.length_map]
      rfl

/-! ## One round -/

theorem notNoise_kept {p : AsmobdParams} {core reach : List XF} (hl : reach.length = core.length) (ht : 0 ≤ p.t2) (h : XF.posInf ∈ reach) :
    (asmobdNotNoise p core reach).length = core.length ∧
    (List.range core.length).filter (fun i => (asmobdNotNoise p core reach).getD i false) = keptPositions p.T1 p.T2 core reach := by
  have e : xfMean reach = .posInf := by unfold xfMean; rw [if_pos h]
  have e2 : ∀ r, (xfScale p.t2 .posInf).lt r = false := by
    intro r
    unfold xfScale
    dsimp only
    split
    · cases r <;> rfl
    · rw [if_neg (not_lt.2 ht)]
      cases r <;> rfl
  refine ⟨by unfold asmobdNotNoise; simp [hl], ?_⟩
  unfold keptPositions
  apply List.filter_congr
  intro i hi
  have hi := List.mem_range.1 hi
  have hi' : i < reach.length := by omega
  unfold asmobdNotNoise
  rw [List.getD_eq_getElem?_getD, List.getElem?_zipWith, List.getElem?_eq_getElem hi, List.getElem?_eq_getElem hi']
  rw [e]
  simp only [e2, Bool.and_false, Bool.or_false, Option.getD_some, List.getD_eq_getElem?_getD, List.getElem?_eq_getElem hi,
    List.getElem?_eq_getElem hi']

theorem grow_iterate (p : AsmobdParams) (j : Nat) :
    (AsmobdParams.grow^[j] p) = { p with eps := p.eps * (3 / 2) ^ j, T1 := p.T1 * (3 / 2) ^ j, T2 := p.T2 * (3 / 2) ^ j,
                                         t1 := p.t1 * (3 / 2) ^ j, t2 := p.t2 * (3 / 2) ^ j } := by
  induction j with
  | zero => simp
  | succ j ih =>
    rw [Function.iterate_succ_apply', ih]
    unfold AsmobdParams.grow
    simp only [pow_succ, mul_assoc]

theorem asmobdLoop_spec {round : AsmobdParams → Res (List Bool × List XF)} : ∀ (k : Nat) (p : AsmobdParams),
    (∀ j ≤ k, ∃ r, round (AsmobdParams.grow^[j] p) = .ok r) →
    ∃ j r, j ≤ k ∧ round (AsmobdParams.grow^[j] p) = .ok r ∧ asmobdLoop round k p = .ok r ∧ (j < k → 2 ≤ r.1.count true) ∧
      ∀ j' < j, ∃ r', round (AsmobdParams.grow^[j'] p) = .ok r' ∧ r'.1.count true < 2
  | 0, p, h => by
    obtain ⟨r, hr⟩ := h 0 (le_refl _)
    exact ⟨0, r, le_refl _, hr, hr, fun h => absurd h (by omega), fun j' h => absurd h (by omega)⟩
  | k + 1, p, h => by
    obtain ⟨r, hr⟩ := h 0 (by omega)
    rw [Function.iterate_zero_apply] at hr
    unfold asmobdLoop
    rw [hr, ok_bind]
    by_cases hc : r.1.count true < 2
    · rw [if_pos hc]
      obtain ⟨j, r', h1, h2, h3, h4, h5⟩ := asmobdLoop_spec k p.grow (fun j hj => by
        have := h (j + 1) (by omega)
        rwa [Function.iterate_succ_apply] at this)
      refine ⟨j + 1, r', by omega, by rw [Function.iterate_succ_apply]; exact h2, h3, fun hj => h4 (by omega), ?_⟩
      intro j' hj'
      cases j' with
      | zero => exact ⟨r, hr, hc⟩
      | succ j' =>
        obtain ⟨r'', h6, h7⟩ := h5 j' (by omega)
        exact ⟨r'', by rw [Function.iterate_succ_apply]; exact h6, h7⟩
    · rw [if_neg hc]
      exact ⟨0, r, by omega, hr, rfl, fun _ => by omega, fun j' h => absurd h (by omega)⟩

theorem countP_labels {y : List Int} {b : Int} : ∀ {ind : List Nat}, (∀ i ∈ ind, i < y.length) →
    ∃ ls, ind.mapM (getRow y) = .ok ls ∧ ls.count b = ind.countP (fun i => decide (y[i]? = some b))
  | [], _ => ⟨[], rfl, rfl⟩
  | i :: ind, h => by
    obtain ⟨ls, h1, h2⟩ := countP_labels (b := b) (ind := ind) (fun j hj => h j (List.mem_cons_of_mem _ hj))
    have hi := h i List.mem_cons_self
    refine ⟨y[i] :: ls, ?_, ?_⟩
    · rw [List.mapM_cons, getRow_ok.2 (List.getElem?_eq_getElem hi), ok_bind, h1, ok_bind]
      rfl
    · rw [List.count_cons, List.countP_cons, h2, List.getElem?_eq_getElem hi]
      by_cases hb : y[i] = b
      · simp [hb]
      · simp [hb]

/-- One row: its ratios are computed, and the density is the weight, which is not negative. -/
theorem asmobdRow_spec {p : AsmobdParams} {sig : Option ℚ → ℚ} {ball : List Row → Row → XF → List Nat} {Z : List Row} {y : List Int}
    {a b : Int} {n : Nat} {z : Row} {core : XF} (hb : BallOK ball) (hZ : Z.length = y.length) (hab : a ≠ b) (hz : z ∈ classRows Z y a)
    (hcore : IsDistance core) (hlin : p.linear = true) (he : 0 ≤ p.eta ∧ p.eta ≤ 1) :
    ∃ r, asmobdRatio ball Z y b z core = .ok r ∧ LinearWeight p.eta n ball Z y b z core (asmobdDensity p sig n core r).toNum ∧
      0 ≤ (asmobdDensity p sig n core r).toNum := by
  obtain ⟨b1, b2⟩ := hb Z z core
  obtain ⟨i, hi⟩ := List.mem_iff_getElem?.1 (mem_classRows.1 hz)
  obtain ⟨hi1, hi2⟩ := List.getElem?_zip_eq_some (z := (z, a)) |>.1 hi
  have hin := b2 i hi1
  obtain ⟨ls, l1, l2⟩ := countP_labels (y := y) (b := b) (ind := ball Z z core) (fun j hj => hZ ▸ b1 j hj)
  set ind := ball Z z core with hind
  have hpos : 0 < ind.length := List.length_pos_of_mem hin
  have hlt : ind.countP (fun i => decide (y[i]? = some b)) < ind.length := by
    rcases Nat.lt_or_ge (ind.countP (fun i => decide (y[i]? = some b))) ind.length with h | h
    · exact h
    · have h' := List.countP_eq_length.1 (le_antisymm List.countP_le_length h) i hin
      simp only [decide_eq_true_eq] at h'
      rw [hi2] at h'
      injection h' with h'
      exact absurd h' hab
  set frac : ℚ := (ind.countP (fun i => decide (y[i]? = some b)) : ℚ) / (ind.length : ℚ) with hfrac
  have hposq : (0 : ℚ) < ind.length := by exact_mod_cast hpos
  have hf0 : 0 ≤ frac := div_nonneg (Nat.cast_nonneg _) hposq.le
  have hmin0 : 0 ≤ (ind.length : ℚ) - frac - 1 := by
    have h1 : ((ind.countP (fun i => decide (y[i]? = some b)) : Nat) : ℚ) + 1 ≤ ind.length := by exact_mod_cast hlt
    have h2 : (1 : ℚ) ≤ ind.length := by exact_mod_cast hpos
    have h3 : frac ≤ (ind.countP (fun i => decide (y[i]? = some b)) : ℚ) := by
      rw [hfrac]
      exact div_le_self (Nat.cast_nonneg _) h2
    linarith
  refine ⟨(frac, (ind.length : ℚ) - frac - 1, if (ind.length : ℚ) - frac - 1 = 0 then none else some (frac / ((ind.length : ℚ) - frac - 1))),
    ?_, ?_⟩
  · unfold asmobdRatio
    dsimp only
    rw [← hind, l1, ok_bind, if_neg (by omega), l2]
    rfl
  · rcases hcore with rfl | ⟨c, hc, rfl⟩
    · have e : (asmobdDensity p sig n XF.posInf (frac, (ind.length : ℚ) - frac - 1,
        if (ind.length : ℚ) - frac - 1 = 0 then none else some (frac / ((ind.length : ℚ) - frac - 1)))).toNum = 0 := by
        unfold asmobdDensity
        dsimp only
        split <;> rfl
      rw [e]
      exact ⟨.inl ⟨rfl, rfl⟩, le_refl _⟩
    · have e : (asmobdDensity p sig n (XF.fin c) (frac, (ind.length : ℚ) - frac - 1,
        if (ind.length : ℚ) - frac - 1 = 0 then none else some (frac / ((ind.length : ℚ) - frac - 1)))).toNum =
          p.eta * (p.eta * c + (1 - p.eta) * frac) + (1 - p.eta) * ((ind.length : ℚ) - frac - 1) / (n : ℚ) := by
        unfold asmobdDensity
        dsimp only
        rw [if_pos hlin]
        rfl
      rw [e]
      have g : 0 ≤ 1 - p.eta := by linarith [he.2]
      exact ⟨.inr ⟨c, _, frac, rfl, rfl, by rw [hfrac, hind], rfl⟩, add_nonneg (mul_nonneg he.1 (add_nonneg (mul_nonneg he.1 hc)
        (mul_nonneg g hf0))) (div_nonneg (mul_nonneg g hmin0) (Nat.cast_nonneg _))⟩

/-- One round of the loop. -/
theorem asmobdRound_spec {p : AsmobdParams} {sig : Option ℚ → ℚ} {optics : ℚ → Nat → List Row → Res (List XF × List XF)}
    {ball : List Row → Row → XF → List Nat} {Z : List Row} {y : List Int} {a b : Int} {n : Nat} {o : List XF × List XF}
    (hb : BallOK ball) (ho : OpticsOK (optics p.eps)) (hZ : Z.length = y.length) (hab : a ≠ b) (hne : classRows Z y a ≠ [])
    (hlin : p.linear = true) (he : 0 ≤ p.eta ∧ p.eta ≤ 1) (ht : 0 ≤ p.t2)
    (hopt : optics p.eps (min ((classRows Z y a).length - 1) p.minSamples) (classRows Z y a) = .ok o) :
    ∃ density, asmobdRound sig optics ball Z y b (classRows Z y a) n p = .ok (asmobdNotNoise p o.1 o.2, density) ∧
      o.1.length = (classRows Z y a).length ∧ (asmobdNotNoise p o.1 o.2).length = o.1.length ∧
      (List.range o.1.length).filter (fun i => (asmobdNotNoise p o.1 o.2).getD i false) = keptPositions p.T1 p.T2 o.1 o.2 ∧
      density.length = o.1.length ∧
      ∀ i, i < o.1.length → LinearWeight p.eta n ball Z y b ((classRows Z y a).getD i []) (o.1.getD i .nan) (density.getD i .nan).toNum ∧
        0 ≤ (density.getD i .nan).toNum := by
  obtain ⟨core, reach⟩ := o
  obtain ⟨p1, p2, p3, p4, p5⟩ := (ho _ _ hne).2 core reach hopt
  set A := classRows Z y a with hA
  obtain ⟨n1, n2⟩ := notNoise_kept (p := p) (core := core) (reach := reach) (by omega) ht p5
  have hrow : ∀ q ∈ A.zip core, ∃ r, asmobdRatio ball Z y b q.1 q.2 = .ok r ∧
      LinearWeight p.eta n ball Z y b q.1 q.2 (asmobdDensity p sig n q.2 r).toNum ∧ 0 ≤ (asmobdDensity p sig n q.2 r).toNum := by
    intro q hq
    obtain ⟨h1, h2⟩ := List.of_mem_zip (a := q.1) (b := q.2) hq
    exact asmobdRow_spec hb hZ hab h1 (p3 _ h2) hlin he
  obtain ⟨ratios, hr⟩ := mapM_exists_ok (l := A.zip core) (fun q hq => (hrow q hq).imp (fun _ h => h.1))
  have hf := mapM_ok_iff.1 hr
  have hrl : ratios.length = core.length := by rw [← hf.length_eq, List.length_zip]; omega
  refine ⟨List.zipWith (asmobdDensity p sig n) core ratios, ?_, p1, n1, n2, by simp [hrl], ?_⟩
  · unfold asmobdRound
    rw [hopt, ok_bind]
    dsimp only
    rw [hr, ok_bind]
    rfl
  · intro i hi
    dsimp only at hi ⊢
    have hiA : i < A.length := by omega
    have hir : i < ratios.length := by omega
    have hiz : i < (A.zip core).length := by rw [List.length_zip]; omega
    have h1 := hf.get hiz hir
    obtain ⟨r, h2, h3⟩ := hrow _ (List.get_mem (A.zip core) ⟨i, hiz⟩)
    rw [h1] at h2
    injection h2 with h2
    subst h2
    simp only [List.get_eq_getElem, List.getElem_zip] at h3
    rw [List.getD_eq_getElem?_getD, List.getD_eq_getElem?_getD, List.getD_eq_getElem?_getD, List.getElem?_zipWith,
      List.getElem?_eq_getElem hiA, List.getElem?_eq_getElem hi, List.getElem?_eq_getElem hir]
    exact h3

theorem fixDensity_shares (l : List XF) : fixDensity l = shares (l.map XF.toNum) := by
  rw [← fixDensity_fin]
  unfold fixDensity
  have : ((l.map XF.toNum).map XF.fin).map XF.toNum = l.map XF.toNum := by
    rw [List.map_map, List.map_map]; rfl
  rw [this, List.length_map, List.length_map]

/-- **ASMOBD** with linear smoothing, if OPTICS accepts its arguments: the run described in the specification, without exception. -/
theorem C76_asmobd {proportion : ℚ} {ss : SSParams} {par : AsmobdParams} {fitScaler : List Row → Row × Row} {sig : Option ℚ → ℚ}
    {optics : ℚ → Nat → List Row → Res (List XF × List XF)} {ball : List Row → Row → XF → List Nat} {vol : List Row → ℚ} {dr : Draws}
    {d : Nat} {knn : Nat → List Row → List (List Nat)} {X : List Row} {y : List Int} {a b : Int}
    (hwf : WF d X y) (hk : KnnOK knn) (ho : ∀ e, OpticsOK (optics e)) (hb : BallOK ball) (hdr : dr.OK)
    (hu : ∀ i j, 0 < dr.simplexU i j) (hm' : (fitScaler X).1.length = d) (hsc : (fitScaler X).2.length = d)
    (hpos : ∀ x ∈ (fitScaler X).2, 0 < x) (hg : ss.gaussian = .none) (hvol : ∀ vs, 0 ≤ vol vs) (hnd : 1 ≤ ss.nDim)
    (hwi : ss.within = .random ∨ (ss.within = .deterministic ∧ ss.nDim ≤ 2))
    (hlin : par.linear = true) (he : 0 ≤ par.eta ∧ par.eta ≤ 1) (ht : 0 ≤ par.t2)
    (hacc : ∀ e m rows, ∃ o, optics e m rows = .ok o)
    (hmin : IsMinority y a b) (h3 : 2 < y.count a) (hn : 0 < requested proportion (y.count b) (y.count a)) :
    ∃ X' y', sample defaultChecks d (asmobdAlg proportion ss par fitScaler sig optics ball vol dr d knn) X y = .ok (X', y') ∧
      AsmobdRun proportion ss par (fitScaler X) optics ball d knn X y a b X' y' := by
  obtain ⟨s, hs, rfl, rfl⟩ := stats_of_isMinority hmin
  obtain ⟨hm, hM, hab⟩ := stats_min_mem hs
  have hxy := hwf.1
  set m := (fitScaler X).1
  set sd := (fitScaler X).2
  set Z := X.map (scaleRow m sd) with hZ
  have hZl : Z.length = y.length := by rw [hZ, List.length_map, hxy]
  set A := classRows X y s.minLabel with hA
  have hAl : A.length = y.count s.minLabel := classRows_length hxy _
  have hAd : ∀ r ∈ A, r.length = d := fun r hr => hwf.2 r (mem_of_mem_classRows hr)
  have hAZ : classRows Z y s.minLabel = A.map (scaleRow m sd) := by
    rw [← selectLabel_eq_classRows, hZ, selectLabel_map, selectLabel_eq_classRows]
  have hAZl : (classRows Z y s.minLabel).length = y.count s.minLabel := by rw [hAZ, List.length_map, hAl]
  have hne : classRows Z y s.minLabel ≠ [] := List.length_pos_iff.1 (by omega)
  set n := requested proportion (y.count s.majLabel) (y.count s.minLabel) with hnd'
  -- every round
  have hround : ∀ j o, optics (par.eps * (3 / 2) ^ j) (min (y.count s.minLabel - 1) par.minSamples) (A.map (scaleRow m sd)) = .ok o →
      ∃ density, asmobdRound sig optics ball Z y s.majLabel (classRows Z y s.minLabel) n (AsmobdParams.grow^[j] par) =
          .ok (asmobdNotNoise (AsmobdParams.grow^[j] par) o.1 o.2, density) ∧
        o.1.length = A.length ∧ (asmobdNotNoise (AsmobdParams.grow^[j] par) o.1 o.2).length = o.1.length ∧
        (List.range o.1.length).filter (fun i => (asmobdNotNoise (AsmobdParams.grow^[j] par) o.1 o.2).getD i false) =
          keptPositions (par.T1 * (3 / 2) ^ j) (par.T2 * (3 / 2) ^ j) o.1 o.2 ∧ density.length = o.1.length ∧
        ∀ i, i < o.1.length → LinearWeight par.eta n ball Z y s.majLabel ((classRows Z y s.minLabel).getD i []) (o.1.getD i .nan)
          (density.getD i .nan).toNum ∧ 0 ≤ (density.getD i .nan).toNum := by
    intro j o hopt
    rw [grow_iterate]
    obtain ⟨density, r1, r2, r3, r4, r5, r6⟩ := asmobdRound_spec 
      (p := { par with
              eps := par.eps * (3 / 2) ^ j, T1 := par.T1 * (3 / 2) ^ j, T2 := par.T2 * (3 / 2) ^ j,
              t1 := par.t1 * (3 / 2) ^ j, t2 := par.t2 * (3 / 2) ^ j }) (sig := sig) (optics := optics) (ball := ball)
      (Z := Z) (y := y) (a := s.minLabel) (b := s.majLabel) (n := n) (o := o) hb (ho _) hZl hab hne hlin he
      (mul_nonneg ht (by positivity)) (by rw [hAZl, hAZ]; exact hopt)
    exact ⟨density, r1, by rw [r2, hAZl, hAl], r3, r4, r5, r6⟩
  obtain ⟨j, r, l1, l2, l3, l4, l5⟩ := asmobdLoop_spec (round := asmobdRound sig optics ball Z y s.majLabel (classRows Z y s.minLabel) n)
    3 par (fun j _ => by
      obtain ⟨o, hopt⟩ := hacc (par.eps * (3 / 2) ^ j) (min (y.count s.minLabel - 1) par.minSamples) (A.map (scaleRow m sd))
      obtain ⟨density, r1, _⟩ := hround j o hopt
      exact ⟨_, r1⟩)
  obtain ⟨o, hopt⟩ := hacc (par.eps * (3 / 2) ^ j) (min (y.count s.minLabel - 1) par.minSamples) (A.map (scaleRow m sd))
  obtain ⟨density, r1, r2, r3, r4, r5, r6⟩ := hround j o hopt
  rw [r1] at l2
  injection l2 with l2
  subst l2
  dsimp only at l4
  rw [count_true_eq, r3, r4] at l4
  set kept := keptPositions (par.T1 * (3 / 2) ^ j) (par.T2 * (3 / 2) ^ j) o.1 o.2 with hkept
  have hkl : ∀ i ∈ kept, i < A.length := by
    intro i hi
    rw [hkept] at hi
    have := List.mem_range.1 (List.mem_of_mem_filter hi)
    omega
  have hK : maskRows (classRows Z y s.minLabel) (asmobdNotNoise (AsmobdParams.grow^[j] par) o.1 o.2) =
      (kept.map (fun i => A.getD i [])).map (scaleRow m sd) := by
    rw [maskRows_eq [] (by rw [r3, r2, hAZl, hAl]), hAZl, ← hAl, ← r2, r4, List.map_map]
    apply List.map_congr_left
    intro i hi
    rw [hAZ]
    dsimp only [Function.comp]
    rw [List.getD_eq_getElem?_getD, List.getElem?_map, List.getD_eq_getElem?_getD, List.getElem?_eq_getElem (hkl i hi)]
    rfl
  have hD : maskRows density (asmobdNotNoise (AsmobdParams.grow^[j] par) o.1 o.2) = kept.map (fun i => density.getD i .nan) := by
    rw [maskRows_eq XF.nan (by rw [r3, r5]), r5, r4]
  have hprev : ∀ j' < j, ∃ o', optics (par.eps * (3 / 2) ^ j') (min (y.count s.minLabel - 1) par.minSamples) (A.map (scaleRow m sd)) =
      .ok o' ∧ (keptPositions (par.T1 * (3 / 2) ^ j') (par.T2 * (3 / 2) ^ j') o'.1 o'.2).length < 2 := by
    intro j' hj'
    obtain ⟨o', hopt'⟩ := hacc (par.eps * (3 / 2) ^ j') (min (y.count s.minLabel - 1) par.minSamples) (A.map (scaleRow m sd))
    obtain ⟨r', g1, g2⟩ := l5 j' hj'
    obtain ⟨density', q1, q2, q3, q4, _⟩ := hround j' o' hopt'
    rw [q1] at g1
    injection g1 with g1
    subst g1
    dsimp only at g2
    rw [count_true_eq, q3, q4] at g2
    exact ⟨o', hopt', g2⟩
  have hstart : sample defaultChecks d (asmobdAlg proportion ss par fitScaler sig optics ball vol dr d knn) X y =
      (if ((kept.map (fun i => A.getD i [])).map (scaleRow m sd)).length ≤ 2 then .ok (X, y) else do
        let samples ← sampleSimplex ss vol dr d ((kept.map (fun i => A.getD i [])).map (scaleRow m sd))
          (knn (min ((kept.map (fun i => A.getD i [])).map (scaleRow m sd)).length (par.minSamples + 1))
            ((kept.map (fun i => A.getD i [])).map (scaleRow m sd)))
          (min ((kept.map (fun i => A.getD i [])).map (scaleRow m sd)).length (par.minSamples + 1)) n
          { baseWeights := some (shares ((kept.map (fun i => density.getD i .nan)).map XF.toNum)) }
        return withSamples X y s.minLabel (samples.map (unscaleRow m sd))) := by
    rw [sample_default hs, if_neg (by omega)]
    unfold asmobdAlg
    rw [stats_count hs hm, stats_count hs hM, detN_eq_requested, ok_bind, if_neg (by omega)]
    simp only [selectLabel_eq_classRows]
    change (asmobdLoop (asmobdRound sig optics ball Z y s.majLabel (classRows Z y s.minLabel) n) 3 par >>= _) = _
    rw [l3, ok_bind]
    dsimp only
    rw [hK, hD, fixDensity_shares]
    rfl
  rw [hstart]
  rw [List.length_map, List.length_map]
  by_cases hfew : kept.length ≤ 2
  · rw [if_pos hfew]
    refine ⟨X, y, rfl, j, o, l1, hopt, l4, hprev, ?_⟩
    rw [if_pos hfew]
    exact ⟨rfl, rfl⟩
  rw [if_neg hfew]
  set K := kept.map (fun i => A.getD i []) with hKd
  have hKl : K.length = kept.length := List.length_map _
  set k := min kept.length (par.minSamples + 1) with hkd
  have hKdim : ∀ r ∈ K, r.length = d := by
    intro r hr
    obtain ⟨i, hi, rfl⟩ := List.mem_map.1 hr
    apply hAd
    rw [List.getD_eq_getElem?_getD, List.getElem?_eq_getElem (hkl i hi)]
    exact List.getElem_mem _
  have hSdim : ∀ r ∈ K.map (scaleRow m sd), r.length = d := by
    intro r hr
    obtain ⟨q, hq, rfl⟩ := List.mem_map.1 hr
    exact scaleRow_length hm' hsc (hKdim q hq)
  obtain ⟨k1, k2⟩ := hk k (K.map (scaleRow m sd)) (by rw [List.length_map, hKl]; exact min_le_left _ _)
  set ws := (kept.map (fun i => density.getD i .nan)).map XF.toNum with hws
  have hwsl : ws.length = kept.length := by rw [hws, List.length_map, List.length_map]
  have hws0 : ∀ w ∈ ws, 0 ≤ w := by
    intro w hw
    rw [hws, List.map_map] at hw
    obtain ⟨i, hi, rfl⟩ := List.mem_map.1 hw
    exact (r6 i (by have := hkl i hi; omega)).2
  have hwsne : ws ≠ [] := List.length_pos_iff.1 (by omega)
  have htl : (knn k (K.map (scaleRow m sd))).length = kept.length := by rw [k1, List.length_map, hKl]
  obtain ⟨samples, hsamp⟩ := sampleSimplex_ok (ss := ss) (vol := vol) (dr := dr) (d := d) (X := K.map (scaleRow m sd))
    (indices := knn k (K.map (scaleRow m sd))) (k := k) (n := n) (a := { baseWeights := some (shares ws) }) k2 (le_of_eq k1)
    (List.length_pos_iff.1 (by omega)) (by omega) hnd rfl (fun ws h => by cases h) (fun h => by cases h)
    ⟨by rw [shares_length, hwsl, htl], shares_nonneg hws0, by rw [shares_sum hwsne]; norm_num⟩ hdr.choice hu
    (hwi.imp_right (fun h => ⟨h.1, le_trans (min_le_left _ _) h.2⟩))
  obtain ⟨s1, s2⟩ := sampleSimplex_simplexOf (a := { baseWeights := some (shares ws) }) hSdim (fun V h => by cases h) rfl
    (fun h => by cases h) hdr (le_of_eq k1) hg
    (fun w h => by
      injection h with h
      subst h
      exact ⟨by rw [shares_length, hwsl, htl], shares_nonneg hws0⟩) rfl hvol hsamp
  rw [hsamp, ok_bind]
  refine ⟨_, _, rfl, j, o, l1, hopt, l4, hprev, ?_⟩
  rw [if_neg hfew]
  dsimp only
  rw [← hkept, ← hKd, hKl, ← hkd]
  refine ⟨ws, ?_, withSamples_oversampledBy (samples := samples.map (unscaleRow m sd)) (by rw [List.length_map, s1]) ?_ rfl⟩
  · rw [hws, List.map_map, List.forall₂_map_right_iff]
    apply List.forall₂_same.2
    intro i hi
    have h := (r6 i (by have := hkl i hi; omega)).1
    have e : (classRows Z y s.minLabel).getD i [] = scaleRow m sd (A.getD i []) := by
      rw [hAZ, List.getD_eq_getElem?_getD, List.getElem?_map, List.getD_eq_getElem?_getD, List.getElem?_eq_getElem (hkl i hi)]
      rfl
    rw [e] at h
    exact h
  · intro z hz
    obtain ⟨x, hx, rfl⟩ := List.mem_map.1 hz
    have h := (s2 x hx).unscale hm' hsc hpos hKdim hKdim
    obtain ⟨b', base, row, nbIdx, nbrs, w, h1, h2, h3⟩ := h
    exact ⟨b', base, row, nbIdx, nbrs, w, h1, h2 _ rfl, h3⟩

/-- **An exception of OPTICS** (for instance for `min_samples = 1`) is not caught. -/
theorem C76_raises {proportion : ℚ} {ss : SSParams} {par : AsmobdParams} {fitScaler : List Row → Row × Row} {sig : Option ℚ → ℚ}
    {optics : ℚ → Nat → List Row → Res (List XF × List XF)} {ball : List Row → Row → XF → List Nat} {vol : List Row → ℚ} {dr : Draws}
    {d : Nat} {knn : Nat → List Row → List (List Nat)} {X : List Row} {y : List Int} {a b : Int} {e : PyErr}
    (hx : ∀ eps rows, optics eps (min (y.count a - 1) par.minSamples) rows = .error e) (hwf : WF d X y)
    (hmin : IsMinority y a b) (h3 : 2 < y.count a) (hn : 0 < requested proportion (y.count b) (y.count a)) :
    sample defaultChecks d (asmobdAlg proportion ss par fitScaler sig optics ball vol dr d knn) X y = .error e := by
  obtain ⟨s, hs, rfl, rfl⟩ := stats_of_isMinority hmin
  obtain ⟨hm, hM, hab⟩ := stats_min_mem hs
  have hl : (selectLabel (X.map (scaleRow (fitScaler X).1 (fitScaler X).2)) y s.minLabel).length = y.count s.minLabel :=
    selectLabel_length (by rw [List.length_map, hwf.1]) _
  rw [sample_default hs, if_neg (by omega)]
  unfold asmobdAlg
  rw [stats_count hs hm, stats_count hs hM, detN_eq_requested, ok_bind, if_neg (by omega)]
  unfold asmobdLoop asmobdRound
  dsimp only
  rw [hl, hx]
  rfl

/-! ## Examples -/

def asPar (linear : Bool) : AsmobdParams :=
  { minSamples := 2, eps := 1, eta := if linear then 1 / 2 else 1, T1 := 5, T2 := 5, t1 := 4, t2 := 4, linear := linear }

def asOptics (_ : ℚ) (_ : Nat) (rows : List Row) : Res (List XF × List XF) :=
  .ok ((List.range rows.length).map (fun i : Nat => .fin (i : ℚ)),
    (List.range rows.length).map (fun i : Nat => if i = 0 then .posInf else .fin (i : ℚ)))

def asBall (Z : List Row) (_ : Row) (_ : XF) : List Nat := List.range Z.length

theorem asOptics_ok (e : ℚ) : OpticsOK (asOptics e) := by
  intro m rows hne
  have hpos := List.length_pos_iff.2 hne
  refine ⟨fun e h => (by cases h), ?_⟩
  intro core reach h
  injection h with h
  obtain ⟨rfl, rfl⟩ := Prod.mk.inj h
  refine ⟨by simp, by simp, ?_, ?_, ?_⟩
  · intro c hc
    obtain ⟨i, _, rfl⟩ := List.mem_map.1 hc
    exact .inr ⟨_, Nat.cast_nonneg i, rfl⟩
  · intro c hc
    obtain ⟨i, _, rfl⟩ := List.mem_map.1 hc
    split
    · exact .inl rfl
    · exact .inr ⟨_, Nat.cast_nonneg i, rfl⟩
  · exact List.mem_map.2 ⟨0, List.mem_range.2 hpos, rfl⟩

/-- **With sigmoid smoothing the weights may be negative**, and the choice by weights raises. The smoothing term is 1/2 for every row,
the core distances are 0, 1, 2 and `eta` is 1. -/
theorem C76_sigmoid : sample defaultChecks 2 (asmobdAlg 1 exPar.ss (asPar false) (fun _ => ([0, 0], [1, 1])) (fun _ => 1 / 2) asOptics
    asBall (fun _ => 1) exDraws 2 exKnn) exX exY = .error .valueError := by decide +kernel

example : WF 2 exX exY ∧ IsMinority exY 1 0 ∧ KnnOK exKnn ∧ (∀ e, OpticsOK (asOptics e)) ∧ BallOK asBall ∧ exDraws.OK ∧
    2 < exY.count 1 ∧ 0 < requested 1 (exY.count 0) (exY.count 1) ∧
    (match sample defaultChecks 2 (asmobdAlg 1 exPar.ss (asPar true) (fun _ => ([0, 0], [1, 1])) (fun _ => 1 / 2) asOptics
      asBall (fun _ => 1) exDraws 2 exKnn) exX exY with
     | .ok r => decide (r.1.length = exX.length + requested 1 (exY.count 0) (exY.count 1))
     | .error _ => false) = true := by
  refine ⟨⟨by decide, by decide +kernel⟩, ⟨by decide, by decide, by decide, Or.inl (by decide)⟩, exKnn_ok, asOptics_ok, ?_, exDraws_ok,
    by decide, by decide +kernel, by decide +kernel⟩
  intro Z z r
  exact ⟨fun i hi => List.mem_range.1 hi, fun i hi => List.mem_range.2 (List.getElem?_eq_some_iff.1 hi).1⟩

end Verif

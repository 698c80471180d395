import Verif.Model.Borderline
import Verif.Lemmas.SimplexAlg
import Verif.Lemmas.SelWeights
import Verif.Lemmas.SmoteExample
import Verif.Props.C16
import Verif.Props.C34

/-!
# C47: ADASYN samples only around minority rows with majority neighbours
-/

namespace Verif

/-! ## Specification -/

/-- The number of neighbours that ADASYN looks at, the row itself included. -/
def adasynK (par : AdasynParams) (nMin : Nat) : Nat := min nMin (par.nNeighbors + 1)

/-- Row `i` of the queried rows has a neighbour, other than the first one listed, with label `b`. -/
def HasNeighborLabelled (tab : List (List Nat)) (y : List Int) (b : Int) (i : Nat) : Prop :=
  ∃ ls, NeighborLabels tab y i ls ∧ b ∈ ls

/-- `x` is a convex combination of the `i`-th row of `A`, where `i` is eligible, and of further rows of `B`. -/
def AroundEligible (d : Nat) (A B : List Row) (ok : Nat → Prop) (x : Row) : Prop :=
  ∃ i base nbrs w, A[i]? = some base ∧ ok i ∧ (∀ r ∈ nbrs, r ∈ B) ∧ IsConvexComb d w (base :: nbrs) x

/-! ## Helpers -/

theorem adasynRatio_iff {y : List Int} {maj : Int} {k : Nat} {row : List Nat} {q : ℚ} (hk : 1 ≤ k)
    (h : adasynRatio y maj k row = .ok q) :
    0 ≤ q ∧ ∃ ls, List.Forall₂ (fun j l => y[j]? = some l) (row.drop 1) ls ∧ (0 < q ↔ maj ∈ ls) := by
  unfold adasynRatio at h
  rw [bind_ok] at h
  obtain ⟨ls, hls, h⟩ := h
  simp only [pure_ok] at h
  have hkq : (0:ℚ) < k := by exact_mod_cast hk
  refine ⟨by rw [← h]; positivity, ls, takeRows_forall hls, ?_⟩
  rw [← h, div_pos_iff_of_pos_right hkq]
  rw [Nat.cast_pos, List.count_pos_iff]

theorem adasynRatio_ok {y : List Int} {maj : Int} {k : Nat} {row : List Nat} (h : ∀ j ∈ row, j < y.length) :
    ∃ q, adasynRatio y maj k row = .ok q := by
  obtain ⟨ls, hls⟩ := takeRows_ok_of_lt (X := y) (idx := row.drop 1) (fun j hj => h j (List.mem_of_mem_drop hj))
  exact ⟨_, by unfold adasynRatio; rw [hls]; rfl⟩

theorem neighborLabels_unique {tab : List (List Nat)} {y : List Int} {i : Nat} {ls ls' : List Int}
    (h : NeighborLabels tab y i ls) (h' : NeighborLabels tab y i ls') : ls = ls' := by
  obtain ⟨row, hr, hf⟩ := h
  obtain ⟨row', hr', hf'⟩ := h'
  rw [hr] at hr'
  injection hr' with hr'
  subst hr'
  generalize row.drop 1 = t at hf hf'
  induction hf generalizing ls' with
  | nil => cases hf'; rfl
  | cons h1 _ ih =>
    cases hf' with
    | cons h2 h3 =>
      rw [h1] at h2
      injection h2 with h2
      rw [h2, ih h3]

theorem ratios_get {tab : List (List Nat)} {y : List Int} {maj : Int} {k : Nat} {r : List ℚ} (hk : 1 ≤ k)
    (h : tab.mapM (adasynRatio y maj k) = .ok r) {i : Nat} {q : ℚ} (hq : r[i]? = some q) :
    0 ≤ q ∧ ∃ ls, NeighborLabels tab y i ls ∧ (0 < q ↔ maj ∈ ls) := by
  have hf := mapM_ok_iff.1 h
  rw [List.forall₂_iff_get] at hf
  obtain ⟨hi, rfl⟩ := List.getElem?_eq_some_iff.1 hq
  have hti : i < tab.length := by rw [hf.1]; exact hi
  obtain ⟨h0, ls, hls, hiff⟩ := adasynRatio_iff hk (hf.2 i hti hi)
  exact ⟨h0, ls, ⟨_, List.getElem?_eq_getElem hti, hls⟩, hiff⟩

theorem sum_eq_zero_iff_all {l : List ℚ} (h : ∀ x ∈ l, 0 ≤ x) : l.sum = 0 ↔ ∀ x ∈ l, x = 0 := by
  induction l with
  | nil => simp
  | cons a l ih =>
    have h1 := h a (by simp)
    have h2 : 0 ≤ l.sum := List.sum_nonneg (fun x hx => h x (by simp [hx]))
    have := ih (fun x hx => h x (by simp [hx]))
    rw [List.sum_cons]
    constructor
    · intro he
      have ha : a = 0 := by linarith
      have hl : l.sum = 0 := by linarith
      intro x hx
      rcases List.mem_cons.1 hx with rfl | hx
      · exact ha
      · exact this.1 hl x hx
    · intro he
      rw [he a (by simp), this.2 (fun x hx => he x (by simp [hx]))]; simp

theorem ratios_sum_zero {tab : List (List Nat)} {y : List Int} {maj : Int} {k : Nat} {r : List ℚ} (hk : 1 ≤ k)
    (h : tab.mapM (adasynRatio y maj k) = .ok r) :
    r.sum = 0 ↔ ∀ i, ¬ HasNeighborLabelled tab y maj i := by
  have h0 : ∀ x ∈ r, 0 ≤ x := by
    intro x hx
    obtain ⟨i, hi⟩ := List.mem_iff_getElem?.1 hx
    exact (ratios_get hk h hi).1
  rw [sum_eq_zero_iff_all h0]
  constructor
  · rintro hz i ⟨ls, hls, hm⟩
    obtain ⟨row, hrow, hf⟩ := hls
    have hil : i < r.length := by
      rw [mapM_ok_length h]; exact (List.getElem?_eq_some_iff.1 hrow).1
    obtain ⟨_, ls', hls', hiff⟩ := ratios_get hk h (List.getElem?_eq_getElem hil)
    rw [neighborLabels_unique ⟨row, hrow, hf⟩ hls'] at hm
    have := hiff.2 hm
    rw [hz _ (List.getElem_mem hil)] at this
    exact lt_irrefl _ this
  · intro hn x hx
    obtain ⟨i, hi⟩ := List.mem_iff_getElem?.1 hx
    obtain ⟨hx0, ls, hls, hiff⟩ := ratios_get hk h hi
    by_contra hne
    exact hn i ⟨ls, hls, hiff.1 (lt_of_le_of_ne hx0 (Ne.symm hne))⟩

/-- The conditions under which ADASYN returns its input although samples were requested. -/
def AdasynSkips (par : AdasynParams) (knn : Nat → List Row → List Row → List (List Nat)) (X : List Row) (y : List Int)
    (a b : Int) : Prop :=
  par.dTh < (y.count a : ℚ) / (y.count b : ℚ) ∨
    ∀ i, ¬ HasNeighborLabelled (knn (adasynK par (y.count a)) X (classRows X y a)) y b i

theorem count_two {y : List Int} {a b : Int} (hne : a ≠ b) (h : ∀ l ∈ y, l = a ∨ l = b) :
    y.length = y.count a + y.count b := by
  induction y with
  | nil => simp
  | cons l y ih =>
    have := ih (fun l hl => h l (by simp [hl]))
    rcases h l (by simp) with rfl | rfl
    · rw [List.length_cons, List.count_cons_self, List.count_cons_of_ne (by simpa using hne), this]; omega
    · rw [List.length_cons, List.count_cons_self, List.count_cons_of_ne (by simpa using hne.symm), this]; omega

/-- A result of ADASYN: unchanged data exactly in the listed cases, otherwise exactly the requested number of minority rows,
each on a simplex around a minority row that has a majority neighbour. -/
theorem C47_adasyn {par : AdasynParams} {vol : List Row → ℚ} {dr : Draws} {d : Nat}
    {knn : Nat → List Row → List Row → List (List Nat)} {X X' : List Row} {y y' : List Int} {a b : Int} (hwf : WF d X y)
    (hk : KnnQueryOK knn) (hdr : dr.OK) (hmin : IsMinority y a b) (hg : par.ss.gaussian = .none) (hn : 1 ≤ par.nNeighbors)
    (hvol : ∀ vs, 0 ≤ vol vs) (h3 : 2 < y.count a)
    (h : sample defaultChecks d (adasynAlg par vol dr d knn) X y = .ok (X', y')) :
    (AdasynSkips par knn X y a b → X' = X ∧ y' = y) ∧
    (¬ AdasynSkips par knn X y a b →
      OversampledBy X y a (requested par.beta (y.count b) (y.count a))
        (AroundEligible d (classRows X y a) (classRows X y a)
          (HasNeighborLabelled (knn (adasynK par (y.count a)) X (classRows X y a)) y b)) X' y') := by
  obtain ⟨s, hs, rfl, rfl⟩ := stats_of_isMinority hmin
  obtain ⟨hm, hM, hne⟩ := stats_min_mem hs
  rw [sample_default hs, if_neg (by omega)] at h
  unfold adasynAlg at h
  rw [stats_count hs hm, stats_count hs hM, detN_eq_requested, ok_bind] at h
  set n := requested par.beta (y.count s.majLabel) (y.count s.minLabel) with hnd
  by_cases hn0 : n = 0
  · rw [if_pos hn0] at h
    simp only [pure_ok, Prod.mk.injEq] at h
    obtain ⟨rfl, rfl⟩ := h
    refine ⟨fun _ => ⟨rfl, rfl⟩, fun _ => ?_⟩
    rw [hn0]; exact oversampledBy_none _ _ _ _
  rw [if_neg hn0] at h
  dsimp only at h
  have hl := selectLabel_length hwf.1 s.minLabel
  rw [selectLabel_eq_classRows] at h hl
  set A := classRows X y s.minLabel with hA
  have hxy := hwf.1
  have hcnt := count_two hne hmin.2.2.1
  have hMp : 0 < y.count s.majLabel := List.count_pos_iff.2 hM
  have hmaj : X.length - A.length = y.count s.majLabel := by omega
  rw [hmaj, if_neg (by omega)] at h
  by_cases hd : (A.length : ℚ) / (y.count s.majLabel : ℚ) > par.dTh
  · rw [if_pos hd] at h
    simp only [pure_ok, Prod.mk.injEq] at h
    refine ⟨fun _ => ⟨h.1.symm, h.2.symm⟩, fun hsk => absurd (Or.inl ?_) hsk⟩
    rw [← hl]; exact hd
  rw [if_neg hd] at h
  rw [bind_ok] at h
  obtain ⟨r, hr, h⟩ := h
  rw [hl] at h hr
  have hz := ratios_sum_zero hn hr
  by_cases hrz : r.sum = 0
  · rw [if_pos hrz] at h
    simp only [pure_ok, Prod.mk.injEq] at h
    exact ⟨fun _ => ⟨h.1.symm, h.2.symm⟩, fun hsk => absurd (Or.inr (hz.1 hrz)) hsk⟩
  rw [if_neg hrz] at h
  rw [bind_ok] at h
  obtain ⟨out, hout, h⟩ := h
  simp only [pure_ok] at h
  refine ⟨?_, fun _ => ?_⟩
  · rintro (h1 | h1)
    · exact absurd (by rw [hl]; exact h1) hd
    · exact absurd (hz.2 h1) hrz
  have hAX : ∀ x ∈ A, x ∈ X := by
    intro x hx
    rw [hA, ← selectLabel_eq_classRows] at hx
    exact selectLabel_mem hx
  have hXd : ∀ x ∈ A, x.length = d := fun x hx => hwf.2 x (hAX x hx)
  obtain ⟨hk1, _⟩ := hk (min (y.count s.minLabel) (par.nNeighbors + 1)) X A (by omega)
  obtain ⟨hk2, _⟩ := hk (min (y.count s.minLabel) (par.nNeighbors + 1)) A A (by omega)
  have hrl := mapM_ok_length hr
  have hr0 : ∀ x ∈ r, 0 ≤ x := by
    intro x hx
    obtain ⟨i, hi⟩ := List.mem_iff_getElem?.1 hx
    exact (ratios_get hn hr hi).1
  have hrs : 0 < r.sum := lt_of_le_of_ne (List.sum_nonneg hr0) (Ne.symm hrz)
  obtain ⟨g1, g2⟩ := sampleSimplex_weighted (cap := fun _ => 1) hXd (by intro V hV; cases hV) (by intro V hV; cases hV)
    (by intro hV; cases hV) hdr (le_of_eq hk2) hg
    (by
      intro w hw
      injection hw with hw
      subst hw
      refine ⟨by rw [List.length_map, hrl, hk1, hk2], ?_⟩
      intro x hx
      rw [List.mem_map] at hx
      obtain ⟨z, hz, rfl⟩ := hx
      exact div_nonneg (hr0 z hz) hrs.le)
    (by intro m hm; cases hm) hvol ⟨fun _ _ => le_refl _, by intro ws hws; cases hws⟩ hout
  refine withSamples_oversampledBy g1 ?_ h
  intro x hx
  obtain ⟨i, ps, vs, ⟨_, _, _, hb, _⟩, base, nbrs, w0, wr, hbase, hnb, hcx, _⟩ := g2 x hx
  obtain ⟨c, hc, hcp⟩ := hb _ rfl
  rw [List.getElem?_map] at hc
  cases hri : r[i]? with
  | none => rw [hri] at hc; simp at hc
  | some q =>
    rw [hri] at hc
    simp at hc
    have hq : 0 < q := by
      obtain ⟨h0, _⟩ := ratios_get hn hr hri
      refine lt_of_le_of_ne h0 (fun he => ?_)
      rw [← hc, ← he] at hcp
      simp at hcp
    obtain ⟨_, ls, hls, hiff⟩ := ratios_get hn hr hri
    refine ⟨i, base, nbrs, w0 :: wr, hbase, ⟨ls, hls, hiff.1 hq⟩, ?_, hcx⟩
    intro v hv
    obtain ⟨j, _, hj⟩ := forall2_mem_right hnb hv
    exact List.mem_of_getElem? hj

/-- ADASYN never raises on a two-class data set, for any answer of the neighbour search. -/
theorem C47_adasyn_total {par : AdasynParams} {vol : List Row → ℚ} {dr : Draws} {d : Nat}
    {knn : Nat → List Row → List Row → List (List Nat)} {X : List Row} {y : List Int} {a b : Int} (hwf : WF d X y)
    (hk : KnnQueryOK knn) (hdr : dr.OK) (hu : ∀ i j, 0 < dr.simplexU i j) (hmin : IsMinority y a b)
    (hn : 1 ≤ par.nNeighbors) (hd : 1 ≤ par.ss.nDim)
    (hwi : par.ss.within = .random ∨ (par.ss.within = .deterministic ∧ par.ss.nDim ≤ 2)) :
    ∃ X' y', sample defaultChecks d (adasynAlg par vol dr d knn) X y = .ok (X', y') := by
  obtain ⟨s, hs, rfl, rfl⟩ := stats_of_isMinority hmin
  obtain ⟨hm, hM, hne⟩ := stats_min_mem hs
  rw [sample_default hs]
  by_cases h2 : y.count s.minLabel ≤ 2
  · exact ⟨X, y, by rw [if_pos h2]⟩
  rw [if_neg h2]
  unfold adasynAlg
  rw [stats_count hs hm, stats_count hs hM, detN_eq_requested, ok_bind]
  set n := requested par.beta (y.count s.majLabel) (y.count s.minLabel) with hnd
  by_cases hn0 : n = 0
  · exact ⟨X, y, by rw [if_pos hn0]; rfl⟩
  rw [if_neg hn0]
  dsimp only
  have hl := selectLabel_length hwf.1 s.minLabel
  rw [selectLabel_eq_classRows] at hl ⊢
  set A := classRows X y s.minLabel with hA
  have hxy := hwf.1
  have hcnt := count_two hne hmin.2.2.1
  have hMp : 0 < y.count s.majLabel := List.count_pos_iff.2 hM
  have hmaj : X.length - A.length = y.count s.majLabel := by omega
  rw [hmaj, if_neg (by omega)]
  by_cases hdt : (A.length : ℚ) / (y.count s.majLabel : ℚ) > par.dTh
  · exact ⟨X, y, by rw [if_pos hdt]; rfl⟩
  rw [if_neg hdt]
  obtain ⟨hk1, hk1t⟩ := hk (min A.length (par.nNeighbors + 1)) X A (by omega)
  obtain ⟨hk2, hk2t⟩ := hk (min A.length (par.nNeighbors + 1)) A A (by omega)
  obtain ⟨r, hr⟩ := mapM_exists_ok (f := adasynRatio y s.majLabel par.nNeighbors)
    (l := knn (min A.length (par.nNeighbors + 1)) X A)
    (fun row hrow => adasynRatio_ok (fun j hj => by rw [← hxy]; exact (hk1t row hrow).2 j hj))
  rw [hr, ok_bind]
  by_cases hrz : r.sum = 0
  · exact ⟨X, y, by rw [if_pos hrz]; rfl⟩
  rw [if_neg hrz]
  have hr0 : ∀ x ∈ r, 0 ≤ x := by
    intro x hx
    obtain ⟨i, hi⟩ := List.mem_iff_getElem?.1 hx
    exact (ratios_get hn hr hi).1
  have hrs : 0 < r.sum := lt_of_le_of_ne (List.sum_nonneg hr0) (Ne.symm hrz)
  obtain ⟨out, hout⟩ := sampleSimplex_ok (ss := par.ss) (vol := vol) (dr := dr) (d := d) (X := A)
    (indices := knn (min A.length (par.nNeighbors + 1)) A A) (k := min A.length (par.nNeighbors + 1)) (n := n)
    (a := { baseWeights := some (r.map (· / r.sum)) }) hk2t (le_of_eq hk2)
    (by intro he; rw [he] at hk2; simp at hk2; omega) (by omega) hd rfl (by intro ws hws; cases hws)
    (by intro hV; cases hV)
    (by
      refine ⟨by rw [List.length_map, mapM_ok_length hr, hk1, hk2], ?_, ?_⟩
      · intro x hx
        rw [List.mem_map] at hx
        obtain ⟨z, hz, rfl⟩ := hx
        exact div_nonneg (hr0 z hz) hrs.le
      · rw [sum_map_div, div_self hrz]; norm_num)
    hdr.choice hu
    (by
      rcases hwi with h | ⟨h, h'⟩
      · exact .inl h
      · exact .inr ⟨h, by omega⟩)
  rw [hout]
  exact ⟨_, _, rfl⟩

/-! ## A concrete case -/

/-- Four minority rows, one of them next to the majority. -/
def adaX : List Row := [[0], [1], [2], [9], [10], [11], [12], [13], [14]]
def adaY : List Int := [1, 1, 1, 1, 0, 0, 0, 0, 0]
def adaPar : AdasynParams := { nNeighbors := 2, dTh := 9/10, beta := 1, ss := exPar.ss }

example : WF 1 adaX adaY ∧ IsMinority adaY 1 0 ∧ 2 < adaY.count 1 ∧ KnnQueryOK bruteQuery ∧ 1 ≤ adaPar.nNeighbors ∧
    -- only the last minority row has majority neighbours
    (bruteQuery 3 adaX (classRows adaX adaY 1)) = [[0, 1, 2], [1, 0, 2], [2, 1, 0], [3, 4, 5]] ∧
    (match sample defaultChecks 1 (adasynAlg adaPar (fun _ => 1) exDraws 1 bruteQuery) adaX adaY with
     | .ok r => decide (r.1.length = 10 ∧ r.2 = adaY ++ [1] ∧ r.1.drop 9 ≠ [] ∧ ∀ q ∈ r.1.drop 9, 2 ≤ q.getD 0 0 ∧ q.getD 0 0 ≤ 9)
     | .error _ => false) = true := by
  refine ⟨⟨by decide, by decide +kernel⟩, ⟨by decide, by decide, by decide, Or.inl (by decide)⟩, by decide, bruteQuery_ok,
    by decide, by decide +kernel, by decide +kernel⟩

end Verif

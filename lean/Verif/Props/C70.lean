import Verif.Model.SmoteOut
import Verif.Lemmas.Clusters
import Verif.Lemmas.SimplexAlg
import Verif.Lemmas.SmoteExample
import Verif.Props.C68

/-! # C70: SMOTE_OUT and SMOTE_Cosine -/

namespace Verif

/-! ## Specification -/

/-- Contract of `choice` and `randint`: a number below the bound. -/
def IxOK (ix : Nat → Nat → Nat → Nat) : Prop := ∀ t m i, 0 < m → ix t m i < m

/-- Contract of `random_sample`: numbers in `[0, 1)`. -/
def UnitOK (un : Nat → Nat → Nat → ℚ) : Prop := ∀ t i j, 0 ≤ un t i j ∧ un t i j < 1

/-- `z` is made of the minority row `u`, the majority row `v` and the minority row `x`: first `u` is moved away from `v`, by at most
three tenths of their difference, then `z` is taken between `x` and that point, at most half the way, coordinate by coordinate. -/
def OutOf (d : Nat) (u v x z : Row) : Prop :=
  z.length = d ∧ ∀ k, k < d → ∃ s t : ℚ, 0 ≤ s ∧ s < 3 / 10 ∧ 0 ≤ t ∧ t < 1 / 2 ∧
    z.getD k 0 = x.getD k 0 + t * ((u.getD k 0 + s * (u.getD k 0 - v.getD k 0)) - x.getD k 0)

/-- The rows of a new row: the minority row at position `b`, a majority row listed for it, a minority row listed for it which is not
the first. -/
def OutOrigin (d : Nat) (A B : List Row) (majInd minInd : List (List Nat)) (z : Row) : Prop :=
  ∃ (b : Nat) (u v x : Row) (majRow minRow : List Nat) (q r : Nat), A[b]? = some u ∧ majInd[b]? = some majRow ∧ q ∈ majRow ∧
    B[q]? = some v ∧ minInd[b]? = some minRow ∧ r ∈ minRow.drop 1 ∧ A[r]? = some x ∧ OutOf d u v x z

/-! ## The common part -/

theorem outFormula_outOf {d : Nat} {u v x : Row} {r1 r2 : Nat → ℚ} (hu : u.length = d) (hv : v.length = d) (hx : x.length = d)
    (h1 : ∀ j, 0 ≤ r1 j ∧ r1 j < 1) (h2 : ∀ j, 0 ≤ r2 j ∧ r2 j < 1) : OutOf d u v x (outFormula u v x r1 r2) := by
  unfold outFormula
  refine ⟨mixRow_length hx (mixRow_length hu hv), fun k hk => ?_⟩
  rw [mixRow_getD hx (mixRow_length hu hv) hk, mixRow_getD hu hv hk]
  have a := h1 k
  have b := h2 k
  refine ⟨r1 k * (3 / 10), r2 k * (1 / 2), by linarith, by linarith, by linarith, by linarith, by ring⟩

theorem outRow_spec {ix : Nat → Nat → Nat → Nat} {un : Nat → Nat → Nat → ℚ} {d : Nat} {X : List Row} {y : List Int} {a b : Int}
    (hwf : WF d X y) (hix : IxOK ix) (hun : UnitOK un) {w w' : Nat} {majInd minInd : List (List Nat)}
    (hpos : 0 < y.count a) (hmaj : TableOK majInd w (classRows X y b).length) (hml : majInd.length = (classRows X y a).length)
    (hmin : TableOK minInd w' (classRows X y a).length) (hnl : minInd.length = (classRows X y a).length)
    (hw : 1 ≤ w) (hw' : 2 ≤ w') (i : Nat) :
    ∃ z, outRow ix un X (classRows X y b) (classRows X y a) (labelPositions y a) w w' majInd minInd i = .ok z ∧
      OutOrigin d (classRows X y a) (classRows X y b) majInd minInd z := by
  have hxy := hwf.1
  have hA : (classRows X y a).length = y.count a := classRows_length hwf.1 _
  have htk := takeRows_labelPositions hxy a
  have hpl : (labelPositions y a).length = y.count a := by rw [← hA]; exact (takeRows_length htk).symm
  set p0 := ix 0 (labelPositions y a).length i with hp0
  have hlt : p0 < y.count a := by rw [← hpl]; exact hix _ _ _ (by omega)
  have hp : (labelPositions y a)[p0]? = some ((labelPositions y a)[p0]'(by omega)) := List.getElem?_eq_getElem _
  set P := (labelPositions y a)[p0]'(by omega)
  obtain ⟨u, hu1, hu2⟩ := forall₂_get_left (mapM_ok_iff.1 htk) hp
  rw [getRow_ok] at hu2
  have hmj : p0 < majInd.length := by omega
  have hmn : p0 < minInd.length := by omega
  obtain ⟨m1, m2⟩ := hmaj _ (List.getElem_mem hmj)
  obtain ⟨n1, n2⟩ := hmin _ (List.getElem_mem hmn)
  have hq : ix 1 w i < (majInd[p0]).length := by rw [m1]; exact hix _ _ _ hw
  have hr : 1 + ix 2 (w' - 1) i < (minInd[p0]).length := by
    rw [n1]
    have := hix 2 (w' - 1) i (by omega)
    omega
  have hv := m2 _ (List.getElem_mem hq)
  have hx := n2 _ (List.getElem_mem hr)
  refine ⟨_, ?_, p0, u, _, _, _, _, _, _, hu1, List.getElem?_eq_getElem hmj, List.getElem_mem hq, List.getElem?_eq_getElem hv,
    List.getElem?_eq_getElem hmn, ?_, List.getElem?_eq_getElem hx, outFormula_outOf (r1 := un 0 i) (r2 := un 1 i)
      (hwf.2 _ (List.mem_of_getElem? hu2)) (hwf.2 _ (mem_of_mem_classRows (List.getElem_mem hv)))
      (hwf.2 _ (mem_of_mem_classRows (List.getElem_mem hx))) (hun 0 i) (hun 1 i)⟩
  · unfold outRow
    dsimp only
    rw [← hp0, getRow_ok.2 hp, ok_bind, getRow_ok.2 hu2, ok_bind, getRow_ok.2 (List.getElem?_eq_getElem hmj), ok_bind,
      getRow_ok.2 (List.getElem?_eq_getElem hq), ok_bind, getRow_ok.2 (List.getElem?_eq_getElem hv), ok_bind,
      getRow_ok.2 (List.getElem?_eq_getElem hmn), ok_bind, getRow_ok.2 (List.getElem?_eq_getElem hr), ok_bind,
      getRow_ok.2 (List.getElem?_eq_getElem hx), ok_bind]
    rfl
  · rw [List.mem_iff_getElem?]
    refine ⟨ix 2 (w' - 1) i, ?_⟩
    rw [List.getElem?_drop]
    exact List.getElem?_eq_getElem hr

theorem outGenerate_spec {ix : Nat → Nat → Nat → Nat} {un : Nat → Nat → Nat → ℚ} {d : Nat} {X : List Row} {y : List Int} {s : Stats}
    (hwf : WF d X y) (hix : IxOK ix) (hun : UnitOK un) {n w w' : Nat} {majInd minInd : List (List Nat)}
    (hpos : 0 < y.count s.minLabel) (hmaj : TableOK majInd w (classRows X y s.majLabel).length)
    (hml : majInd.length = (classRows X y s.minLabel).length)
    (hmin : TableOK minInd w' (classRows X y s.minLabel).length) (hnl : minInd.length = (classRows X y s.minLabel).length)
    (hw : 1 ≤ w) (hw' : 2 ≤ w') :
    ∃ X' y', outGenerate ix un s X y n w w' majInd minInd = .ok (X', y') ∧ OversampledBy X y s.minLabel n
      (OutOrigin d (classRows X y s.minLabel) (classRows X y s.majLabel) majInd minInd) X' y' := by
  have hspec := outRow_spec (b := s.majLabel) hwf hix hun hpos hmaj hml hmin hnl hw hw'
  obtain ⟨samples, hs⟩ := mapM_exists_ok (l := List.range n) (fun i _ => (hspec i).imp (fun _ h => h.1))
  have hf := mapM_ok_iff.1 hs
  have hpl : (labelPositions y s.minLabel).length = y.count s.minLabel := by
    have := takeRows_length (takeRows_labelPositions hwf.1 s.minLabel)
    rw [classRows_length hwf.1] at this
    exact this.symm
  refine ⟨_, _, ?_, withSamples_oversampledBy (samples := samples) (by rw [← hf.length_eq, List.length_range]) ?_ rfl⟩
  · unfold outGenerate
    dsimp only
    rw [choiceFrom_pos (by omega), ok_bind, choiceFrom_pos (by omega), ok_bind, choiceFrom_pos (by omega), ok_bind,
      selectLabel_eq_classRows, selectLabel_eq_classRows, hs, ok_bind]
    rfl
  · intro z hz
    obtain ⟨i, _, hi⟩ := forall₂_mem_right hf hz
    obtain ⟨z', h1, h2⟩ := hspec i
    rw [hi] at h1
    injection h1 with h1
    subst h1
    exact h2

/-! ## SMOTE_OUT -/

/-- **SMOTE_OUT**: exactly the requested number of minority rows is appended, each by the formula from a minority row, one of its
`n_neighbors + 1` nearest majority rows and one of its `n_neighbors` nearest minority rows. -/
theorem C70_out {proportion : ℚ} {nNeighbors : Nat} {ix : Nat → Nat → Nat → Nat} {un : Nat → Nat → Nat → ℚ} {d : Nat}
    {knn : Nat → List Row → List Row → List (List Nat)} {X : List Row} {y : List Int} {a b : Int}
    (hwf : WF d X y) (hk : KnnQueryOK knn) (hix : IxOK ix) (hun : UnitOK un) (hmin : IsMinority y a b) (hnn : 1 ≤ nNeighbors)
    (h3 : 2 < y.count a) (hn : 0 < requested proportion (y.count b) (y.count a)) :
    ∃ X' y', sample defaultChecks d (smoteOutAlg proportion nNeighbors ix un knn) X y = .ok (X', y') ∧
      OversampledBy X y a (requested proportion (y.count b) (y.count a)) (OutOrigin d (classRows X y a) (classRows X y b)
        (knn (min (y.count b) (nNeighbors + 1)) (classRows X y b) (classRows X y a))
        (knn (min (y.count a) (nNeighbors + 1)) (classRows X y a) (classRows X y a))) X' y' := by
  obtain ⟨s, hs, rfl, rfl⟩ := stats_of_isMinority hmin
  obtain ⟨hm, hM, hab⟩ := stats_min_mem hs
  have hA : (classRows X y s.minLabel).length = y.count s.minLabel := classRows_length hwf.1 _
  have hB : (classRows X y s.majLabel).length = y.count s.majLabel := classRows_length hwf.1 _
  have hMpos : 0 < y.count s.majLabel := List.count_pos_iff.2 hM
  obtain ⟨k1, k2⟩ := hk (min (y.count s.majLabel) (nNeighbors + 1)) (classRows X y s.majLabel) (classRows X y s.minLabel) (by omega)
  obtain ⟨k3, k4⟩ := hk (min (y.count s.minLabel) (nNeighbors + 1)) (classRows X y s.minLabel) (classRows X y s.minLabel) (by omega)
  obtain ⟨X', y', g1, g2⟩ := outGenerate_spec (n := requested proportion (y.count s.majLabel) (y.count s.minLabel)) hwf hix hun
    (by omega) k2 k1 k4 k3 (by omega) (by omega)
  refine ⟨X', y', ?_, g2⟩
  rw [sample_default hs, if_neg (by omega)]
  unfold smoteOutAlg
  rw [stats_count hs hm, stats_count hs hM, detN_eq_requested, ok_bind, if_neg (by omega)]
  simp only [selectLabel_eq_classRows, hA, hB]
  exact g1

/-- How far such a row can be: coordinate by coordinate at most 3/20 of the distance of `u` and `v` outside the box of `x` and `u`. -/
theorem C70_overshoot {d : Nat} {u v x z : Row} (h : OutOf d u v x z) (k : Nat) (hk : k < d) :
    min (x.getD k 0) (u.getD k 0) - 3 / 20 * |u.getD k 0 - v.getD k 0| ≤ z.getD k 0 ∧
      z.getD k 0 ≤ max (x.getD k 0) (u.getD k 0) + 3 / 20 * |u.getD k 0 - v.getD k 0| := by
  obtain ⟨s, t, s0, s1, t0, t1, e⟩ := h.2 k hk
  rw [e]
  set p := x.getD k 0
  set q := u.getD k 0
  have hb := mix_between (a := p) (b := q) t0 (by linarith : t ≤ 1)
  have h1 : |t * s * (q - v.getD k 0)| ≤ 3 / 20 * |q - v.getD k 0| := by
    rw [abs_mul, abs_of_nonneg (mul_nonneg t0 s0)]
    have : t * s ≤ 3 / 20 := by nlinarith
    exact mul_le_mul_of_nonneg_right this (abs_nonneg _)
  have h2 := abs_le.1 h1
  constructor
  · linarith [h2.1, hb.1]
  · linarith [h2.2, hb.2]

/-! ## SMOTE_Cosine -/

/-- Contract of a search for all rows: every row of the table is a permutation of the positions which starts with the row itself. -/
def FullTable (m : Nat) (T : List (List Nat)) : Prop :=
  T.length = m ∧ ∀ (b : Nat) (row : List Nat), T[b]? = some row → row.Perm (List.range m) ∧ row.head? = some b

theorem argsort_inverse {argsort : List ℚ → List Nat} (ha : ArgsortOK argsort) {r : List Nat} {m : Nat} (hr : r.Perm (List.range m)) :
    (argsort (r.map (fun (i : Nat) => (i : ℚ)))).length = m ∧
      ∀ (v p : Nat), (argsort (r.map (fun (i : Nat) => (i : ℚ))))[v]? = some p → r[p]? = some v := by
  obtain ⟨h1, h2⟩ := ha (r.map (fun (i : Nat) => (i : ℚ)))
  have hrl : r.length = m := by rw [hr.length_eq, List.length_range]
  rw [List.length_map, hrl] at h1
  have hl : (argsort (r.map (fun (i : Nat) => (i : ℚ)))).length = m := by rw [h1.length_eq, List.length_range]
  refine ⟨hl, ?_⟩
  set l := argsort (r.map (fun (i : Nat) => (i : ℚ))) with hld
  have hlt : ∀ p ∈ l, p < m := fun p hp => List.mem_range.1 (h1.mem_iff.1 hp)
  have hget : ∀ p, p < m → (r.map (fun (i : Nat) => (i : ℚ))).getD p 0 = ((r.getD p 0 : Nat) : ℚ) := by
    intro p hp
    rw [List.getD_eq_getElem?_getD, List.getElem?_map, List.getElem?_eq_getElem (by omega), List.getD_eq_getElem?_getD,
      List.getElem?_eq_getElem (by omega)]
    rfl
  have hsorted : (l.map (fun p => r.getD p 0)).Pairwise (· ≤ ·) := by
    rw [List.pairwise_map]
    refine List.Pairwise.imp_of_mem ?_ h2
    intro p q hp hq h
    rw [hget p (hlt p hp), hget q (hlt q hq)] at h
    exact_mod_cast h
  have hperm : (l.map (fun p => r.getD p 0)).Perm (List.range m) := by
    refine (h1.map _).trans ?_
    have : (List.range m).map (fun p => r.getD p 0) = r := by
      rw [← hrl]
      have := map_range_getD r 0 id
      simpa using this
    rw [this]
    exact hr
  have heq : l.map (fun p => r.getD p 0) = List.range m :=
    List.Perm.eq_of_pairwise (le := (· ≤ ·)) (fun a b _ _ h h' => le_antisymm h h') hsorted
      (List.pairwise_lt_range.imp (fun h => le_of_lt h)) hperm
  intro v p hv
  have hv' := congrArg (fun l => l[v]?) heq
  have hvm : v < m := by rw [← hl]; exact (List.getElem?_eq_some_iff.1 hv).1
  simp only [List.getElem?_map, hv, Option.map_some, List.getElem?_range hvm, Option.some.injEq] at hv'
  have hpm := hlt p (List.mem_of_getElem? hv)
  rw [List.getD_eq_getElem?_getD, List.getElem?_eq_getElem (by omega)] at hv'
  rw [List.getElem?_eq_getElem (by omega)]
  exact congrArg some hv'

/-- The composite table lists all positions, the row itself first. -/
theorem compositeRow_spec {argsort : List ℚ → List Nat} (ha : ArgsortOK argsort) {m b : Nat} {euc cos : List Nat}
    (he : euc.Perm (List.range m)) (he0 : euc.head? = some b) (hc : cos.Perm (List.range m)) (hc0 : cos.head? = some b) :
    (compositeRow argsort euc cos).Perm (List.range m) ∧ (compositeRow argsort euc cos).head? = some b := by
  obtain ⟨e1, e2⟩ := argsort_inverse ha he
  obtain ⟨c1, c2⟩ := argsort_inverse ha hc
  unfold compositeRow
  set ce := argsort (euc.map (fun (i : Nat) => (i : ℚ)))
  set cc := argsort (cos.map (fun (i : Nat) => (i : ℚ)))
  set sums := List.zipWith (fun (a b : Nat) => (a : ℚ) + (b : ℚ)) ce cc with hsums
  have hsl : sums.length = m := by rw [hsums, List.length_zipWith, e1, c1, min_self]
  obtain ⟨h1, h2⟩ := ha sums
  rw [hsl] at h1
  refine ⟨h1, ?_⟩
  have hbm : b < m := by
    have : b ∈ euc := List.mem_of_mem_head? he0
    exact List.mem_range.1 (he.mem_iff.1 this)
  -- the sum is zero for the row itself and positive elsewhere
  have hzero : ∀ (ce : List Nat) (r : List Nat), r.Perm (List.range m) → r.head? = some b → ce.length = m →
      (∀ (v p : Nat), ce[v]? = some p → r[p]? = some v) → ce.getD b 0 = 0 ∧ ∀ j, j < m → j ≠ b → 0 < ce.getD j 0 := by
    intro ce r hr hr0 hl hinv
    have hnd : r.Nodup := hr.nodup_iff.2 List.nodup_range
    have hr0' : r[0]? = some b := by rw [← List.head?_eq_getElem?]; exact hr0
    have hcb := hinv b ce[b] (List.getElem?_eq_getElem (by omega))
    constructor
    · rw [List.getD_eq_getElem?_getD, List.getElem?_eq_getElem (by omega), Option.getD_some]
      exact (List.getElem?_inj (List.getElem?_eq_some_iff.1 hcb).1 hnd).1 (hcb.trans hr0'.symm)
    · intro j hj hjb
      rw [List.getD_eq_getElem?_getD, List.getElem?_eq_getElem (by omega), Option.getD_some]
      have hcj := hinv j ce[j] (List.getElem?_eq_getElem (by omega))
      by_contra h0
      have h0' : ce[j] = 0 := by omega
      rw [h0', hr0'] at hcj
      injection hcj with hcj
      exact hjb hcj.symm
  obtain ⟨ze, pe⟩ := hzero ce euc he he0 e1 e2
  obtain ⟨zc, pc⟩ := hzero cc cos hc hc0 c1 c2
  have hsum : ∀ j, j < m → sums.getD j 0 = (ce.getD j 0 : ℚ) + (cc.getD j 0 : ℚ) := by
    intro j hj
    rw [hsums, List.getD_eq_getElem?_getD, List.getElem?_zipWith, List.getElem?_eq_getElem (by omega : j < ce.length),
      List.getElem?_eq_getElem (by omega : j < cc.length), List.getD_eq_getElem?_getD, List.getElem?_eq_getElem (by omega),
      List.getD_eq_getElem?_getD, List.getElem?_eq_getElem (by omega)]
    rfl
  cases hl : argsort sums with
  | nil => rw [hl] at h1; have := h1.length_eq; simp at this; omega
  | cons j rest =>
    rw [hl] at h1 h2
    by_cases hjb : j = b
    · rw [hjb]; rfl
    · exfalso
      have hjm : j < m := List.mem_range.1 (h1.mem_iff.1 (by simp))
      have hb' : b ∈ j :: rest := h1.mem_iff.2 (List.mem_range.2 hbm)
      have hbr : b ∈ rest := by
        rcases List.mem_cons.1 hb' with h | h
        · exact absurd h.symm hjb
        · exact h
      have hle := (List.pairwise_cons.1 h2).1 b hbr
      rw [hsum j hjm, hsum b hbm, ze, zc] at hle
      have p1 : (0 : ℚ) < (ce.getD j 0 : ℚ) := by exact_mod_cast pe j hjm hjb
      have p2 : (0 : ℚ) < (cc.getD j 0 : ℚ) := by exact_mod_cast pc j hjm hjb
      simp only [Nat.cast_zero] at hle
      linarith

/-- The minority row of a new row of SMOTE_Cosine is any other minority row. -/
def CosineOrigin (d : Nat) (A B : List Row) (majInd : List (List Nat)) (z : Row) : Prop :=
  ∃ (b : Nat) (u v x : Row) (majRow : List Nat) (q r : Nat), A[b]? = some u ∧ majInd[b]? = some majRow ∧ q ∈ majRow ∧
    B[q]? = some v ∧ r ≠ b ∧ A[r]? = some x ∧ OutOf d u v x z

/-- **SMOTE_Cosine**: exactly the requested number of minority rows is appended, each by the formula from a minority row, one of its
`n_neighbors` nearest majority rows and another minority row. -/
theorem C70_cosine {proportion : ℚ} {nNeighbors : Nat} {ix : Nat → Nat → Nat → Nat} {un : Nat → Nat → Nat → ℚ} {d : Nat}
    {knn cosKnn : Nat → List Row → List Row → List (List Nat)} {argsort : List ℚ → List Nat} {X : List Row} {y : List Int} {a b : Int}
    (hwf : WF d X y) (hk : KnnQueryOK knn) (hix : IxOK ix) (hun : UnitOK un) (hmin : IsMinority y a b) (hnn : 1 ≤ nNeighbors)
    (hargs : ArgsortOK argsort)
    (hfull : FullTable (y.count a) (knn (y.count a) (classRows X y a) (classRows X y a)))
    (hfull' : FullTable (y.count a) (cosKnn (y.count a) (classRows X y a) (classRows X y a)))
    (h3 : 2 < y.count a) (hn : 0 < requested proportion (y.count b) (y.count a)) :
    ∃ X' y', sample defaultChecks d (smoteCosineAlg proportion nNeighbors ix un knn cosKnn argsort) X y = .ok (X', y') ∧
      OversampledBy X y a (requested proportion (y.count b) (y.count a)) (CosineOrigin d (classRows X y a) (classRows X y b)
        (knn (min (y.count b) nNeighbors) (classRows X y b) (classRows X y a))) X' y' := by
  obtain ⟨s, hs, rfl, rfl⟩ := stats_of_isMinority hmin
  obtain ⟨hm, hM, hab⟩ := stats_min_mem hs
  have hA : (classRows X y s.minLabel).length = y.count s.minLabel := classRows_length hwf.1 _
  have hB : (classRows X y s.majLabel).length = y.count s.majLabel := classRows_length hwf.1 _
  have hMpos : 0 < y.count s.majLabel := List.count_pos_iff.2 hM
  obtain ⟨k1, k2⟩ := hk (min (y.count s.majLabel) nNeighbors) (classRows X y s.majLabel) (classRows X y s.minLabel) (by omega)
  set m := y.count s.minLabel with hmd
  set E := knn m (classRows X y s.minLabel) (classRows X y s.minLabel) with hE
  set C := cosKnn m (classRows X y s.minLabel) (classRows X y s.minLabel) with hC
  set T := List.zipWith (compositeRow argsort) E C with hT
  have hTl : T.length = m := by rw [hT, List.length_zipWith, hfull.1, hfull'.1, min_self]
  have hrow : ∀ (bb : Nat) (row : List Nat), T[bb]? = some row → row.Perm (List.range m) ∧ row.head? = some bb := by
    intro bb row hr
    have hbb : bb < m := by rw [← hTl]; exact (List.getElem?_eq_some_iff.1 hr).1
    have h1 : bb < E.length := by rw [hfull.1]; exact hbb
    have h2 : bb < C.length := by rw [hfull'.1]; exact hbb
    rw [hT, List.getElem?_zipWith, List.getElem?_eq_getElem h1, List.getElem?_eq_getElem h2] at hr
    injection hr with hr
    obtain ⟨p1, p2⟩ := hfull.2 bb _ (List.getElem?_eq_getElem h1)
    obtain ⟨q1, q2⟩ := hfull'.2 bb _ (List.getElem?_eq_getElem h2)
    rw [← hr]
    exact compositeRow_spec hargs p1 p2 q1 q2
  obtain ⟨X', y', g1, new, g2, g3, g4, g5⟩ := outGenerate_spec (n := requested proportion (y.count s.majLabel) m) (w' := m)
    (minInd := T) hwf hix hun (by omega) k2 k1 (by
      intro row hr
      obtain ⟨bb, hbb⟩ := List.mem_iff_getElem?.1 hr
      obtain ⟨p1, _⟩ := hrow bb row hbb
      refine ⟨by rw [p1.length_eq, List.length_range], fun v hv => ?_⟩
      rw [hA]
      exact List.mem_range.1 (p1.mem_iff.1 hv)) (by rw [hTl, hA]) (by omega) (by omega)
  refine ⟨X', y', ?_, new, g2, g3, g4, fun z hz => ?_⟩
  · rw [sample_default hs, if_neg (by omega)]
    unfold smoteCosineAlg
    rw [stats_count hs hm, stats_count hs hM, detN_eq_requested, ok_bind, ← hmd, if_neg (by omega)]
    simp only [selectLabel_eq_classRows, hA, hB, ← hE, ← hC, ← hT]
    exact g1
  · obtain ⟨bb, u, v, x, majRow, minRow, q, r, e1, e2, e3, e4, e5, e6, e7, e8⟩ := g5 z hz
    refine ⟨bb, u, v, x, majRow, q, r, e1, e2, e3, e4, ?_, e7, e8⟩
    obtain ⟨p1, p2⟩ := hrow bb minRow e5
    have hnd : minRow.Nodup := p1.nodup_iff.2 List.nodup_range
    cases minRow with
    | nil => cases p2
    | cons c rest =>
      injection p2 with p2
      subst p2
      rintro rfl
      exact (List.nodup_cons.1 hnd).1 e6

/-- **Every other minority row is a candidate**, however small `n_neighbors` is: it stands at some position of the composite list which
the draw of the minority neighbour can give. -/
theorem C70_cosine_all {argsort : List ℚ → List Nat} (ha : ArgsortOK argsort) {m b : Nat} {euc cos : List Nat}
    (he : euc.Perm (List.range m)) (he0 : euc.head? = some b) (hc : cos.Perm (List.range m)) (hc0 : cos.head? = some b)
    (j : Nat) (hj : j < m) (hjb : j ≠ b) : ∃ l, l < m - 1 ∧ (compositeRow argsort euc cos)[1 + l]? = some j := by
  obtain ⟨p1, p2⟩ := compositeRow_spec ha he he0 hc hc0
  have hmem : j ∈ compositeRow argsort euc cos := p1.mem_iff.2 (List.mem_range.2 hj)
  have hl : (compositeRow argsort euc cos).length = m := by rw [p1.length_eq, List.length_range]
  obtain ⟨l, h1⟩ := List.mem_iff_getElem?.1 hmem
  have hlt : l < m := by rw [← hl]; exact (List.getElem?_eq_some_iff.1 h1).1
  cases l with
  | zero =>
    rw [← List.head?_eq_getElem?, p2] at h1
    injection h1 with h1
    exact absurd h1.symm hjb
  | succ l => exact ⟨l, by omega, by rw [Nat.add_comm]; exact h1⟩

/-! ## Examples -/

def outX : List Row := [[0, 0], [1, 0], [0, 1], [5, 5], [6, 5], [5, 6], [6, 6]]
def outY : List Int := [1, 1, 1, 0, 0, 0, 0]
def outIx (_ _ _ : Nat) : Nat := 0
def outUn (_ _ _ : Nat) : ℚ := 1 / 2

/-- **A new row outside the box of the minority class.** -/
theorem C70_outside : ∃ x, sample defaultChecks 2 (smoteOutAlg 1 2 outIx outUn gsKnn) outX outY = .ok (outX ++ [x], outY ++ [1]) ∧
    x.getD 1 0 < 0 ∧ ∀ r ∈ classRows outX outY 1, 0 ≤ r.getD 1 0 :=
  ⟨[9 / 16, -3 / 16], by decide +kernel, by decide +kernel, by decide +kernel⟩

theorem outFull : FullTable (outY.count 1) (gsKnn (outY.count 1) (classRows outX outY 1) (classRows outX outY 1)) := by
  have h : gsKnn (outY.count 1) (classRows outX outY 1) (classRows outX outY 1) = [[0, 1, 2], [1, 2, 0], [2, 0, 1]] := by decide +kernel
  have hc : outY.count 1 = 3 := by decide
  rw [h, hc]
  refine ⟨rfl, ?_⟩
  intro b row hb
  have hlt : b < 3 := (List.getElem?_eq_some_iff.1 hb).1
  match b, hlt with
  | 0, _ => injection hb with hb; subst hb; exact ⟨by decide, rfl⟩
  | 1, _ => injection hb with hb; subst hb; exact ⟨by decide, rfl⟩
  | 2, _ => injection hb with hb; subst hb; exact ⟨by decide, rfl⟩

example : WF 2 outX outY ∧ IsMinority outY 1 0 ∧ KnnQueryOK gsKnn ∧ IxOK outIx ∧ UnitOK outUn ∧ ArgsortOK gsArgsort ∧
    FullTable (outY.count 1) (gsKnn (outY.count 1) (classRows outX outY 1) (classRows outX outY 1)) ∧
    2 < outY.count 1 ∧ 0 < requested 1 (outY.count 0) (outY.count 1) := by
  refine ⟨⟨by decide, by decide +kernel⟩, ⟨by decide, by decide, by decide, Or.inl (by decide)⟩, gsKnn_ok, fun _ m _ h => h,
    fun _ _ _ => by unfold outUn; norm_num, gsArgsort_ok, outFull, by decide, by decide +kernel⟩

end Verif

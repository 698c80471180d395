import Verif.Model.Oups
import Verif.Props.C51
import Verif.Props.C58

/-!
# C66: OUPS pairs minority rows with rows of lower propensity, but never with the next one, and beyond the end with minority rows
-/

namespace Verif

/-! ## Specification -/

/-- Contract of the sorting: every position once. -/
def SortingOK (sorting : List Row → List Int → List Nat) : Prop := ∀ X y, (sorting X y).Perm (List.range X.length)

/-- The entries of `l` in the given order. -/
def inOrder {α : Type} (dflt : α) (l : List α) (order : List Nat) : List α := order.map (fun i => l.getD i dflt)

/-- The positions, in the order, of the minority rows except the last position. -/
def oupsPositions (ys : List Int) (a : Int) : List Nat :=
  (List.range ys.length).filter (fun i => decide (ys[i]? = some a ∧ i + 1 < ys.length))

/-- What stands behind the last row: the base rows from the last to the first, then the rows from the last on. -/
def behindTheEnd (Xs kept : List Row) (w : Nat) : List Row :=
  (List.range w).map (fun s => if s + 1 ≤ kept.length then kept.getD (kept.length - (s + 1)) []
    else Xs.getD (Xs.length + kept.length - (s + 1)) [])

/-! ## Proofs -/

theorem inOrder_length {α : Type} {dflt : α} {l : List α} {order : List Nat} : (inOrder dflt l order).length = order.length := by
  simp [inOrder]

theorem inOrder_perm {α : Type} {dflt : α} {l : List α} {order : List Nat} (h : order.Perm (List.range l.length)) :
    (inOrder dflt l order).Perm l := by
  unfold inOrder
  refine (h.map _).trans ?_
  have := map_range_getD l dflt (fun x => x)
  rw [List.map_id'] at this
  rw [this]

theorem takeRows_inOrder {α : Type} (dflt : α) {l : List α} {order : List Nat} (h : order.Perm (List.range l.length)) :
    takeRows l order = .ok (inOrder dflt l order) :=
  takeRows_map_getD dflt (fun _ hi => List.mem_range.1 (h.mem_iff.1 hi))

theorem labelPositions_length' {y : List Int} (l : Int) : (labelPositions y l).length = y.count l := by
  rw [(labelPositions_rows (X := y) rfl l).length_eq, classRows_length rfl]

theorem oupsPositions_eq {ys : List Int} {a : Int} {w : Nat} (hw : 1 ≤ w) :
    (labelPositions ys a).filter (fun i => !((List.range' (i + 1) w).all (fun q => decide (ys.length ≤ q)))) = oupsPositions ys a := by
  unfold labelPositions oupsPositions
  rw [List.filter_filter]
  apply List.filter_congr
  intro i _
  rw [Bool.eq_iff_iff]
  simp only [Bool.and_eq_true, Bool.not_eq_true', decide_eq_true_eq, List.all_eq_false]
  rw [and_comm]
  apply and_congr_right
  intro _
  constructor
  · rintro ⟨q, hq, hlt⟩
    rw [List.mem_range'_1] at hq
    omega
  · intro h
    exact ⟨i + 1, by rw [List.mem_range'_1]; omega, by omega⟩

theorem oupsPositions_le {ys : List Int} {a : Int} : (oupsPositions ys a).length ≤ ys.count a := by
  rw [← labelPositions_length', ← oupsPositions_eq (w := 1) (le_refl 1)]
  exact List.length_filter_le _ _

theorem oupsPositions_pos {ys : List Int} {a : Int} (h : 2 ≤ ys.count a) : 0 < (oupsPositions ys a).length := by
  have hl := labelPositions_length' (y := ys) a
  have hsort : (labelPositions ys a).Pairwise (· < ·) := List.pairwise_lt_range.filter _
  have hlt := List.pairwise_iff_getElem.1 hsort 0 1 (by omega) (by omega) (by omega)
  have h1 : (labelPositions ys a)[1] < ys.length := by
    have := List.getElem_mem (l := labelPositions ys a) (n := 1) (by omega)
    exact (List.getElem?_eq_some_iff.1 (mem_labelPositions.1 this)).1
  have h0 := List.getElem_mem (l := labelPositions ys a) (n := 0) (by omega)
  apply List.length_pos_of_mem (a := (labelPositions ys a)[0])
  unfold oupsPositions
  rw [List.mem_filter, List.mem_range, decide_eq_true_eq]
  exact ⟨by omega, mem_labelPositions.1 h0, by omega⟩

theorem oupsPositions_lt {ys : List Int} {a : Int} {i : Nat} (h : i ∈ oupsPositions ys a) :
    ys[i]? = some a ∧ i + 1 < ys.length := by
  unfold oupsPositions at h
  rw [List.mem_filter, decide_eq_true_eq] at h
  exact h.2

theorem oupsBeyond_eq {Xs kept : List Row} {w : Nat} (hw : w ≤ Xs.length) :
    oupsBeyond Xs kept w = .ok (behindTheEnd Xs kept w) := by
  unfold oupsBeyond behindTheEnd
  apply mapM_ok_of
  intro s hs
  rw [List.mem_range] at hs
  split
  · rw [getRow_ok, List.getD_eq_getElem?_getD, List.getElem?_eq_getElem (by omega)]; rfl
  · rw [getRow_ok, List.getD_eq_getElem?_getD, List.getElem?_eq_getElem (by omega)]; rfl

theorem behindTheEnd_mem {Xs kept : List Row} {w : Nat} (hw : w ≤ Xs.length) :
    ∀ r ∈ behindTheEnd Xs kept w, r ∈ kept ∨ r ∈ Xs := by
  intro r hr
  unfold behindTheEnd at hr
  rw [List.mem_map] at hr
  obtain ⟨s, hs, rfl⟩ := hr
  rw [List.mem_range] at hs
  split
  · left
    rw [List.getD_eq_getElem?_getD, List.getElem?_eq_getElem (by omega)]; exact List.getElem_mem _
  · right
    rw [List.getD_eq_getElem?_getD, List.getElem?_eq_getElem (by omega)]; exact List.getElem_mem _

theorem clip01_nonneg (x : ℚ) : 0 ≤ clip01 x := le_max_left _ _

theorem oupsWeights_nonneg {m w : Nat} {p : ℚ} : ∀ r ∈ oupsWeights m p w, w ≤ r.length ∧ ∀ x ∈ r, 0 ≤ x := by
  intro r hr
  unfold oupsWeights at hr
  rw [List.mem_map] at hr
  obtain ⟨i, _, rfl⟩ := hr
  refine ⟨by simp, fun x hx => ?_⟩
  rw [List.mem_map] at hx
  obtain ⟨c, _, rfl⟩ := hx
  split
  · exact le_refl _
  · exact clip01_nonneg _

/-- The ratio of the class sizes, rounded up. -/
theorem oups_columns {cb ca : Nat} (h : ca < cb) (ha : 0 < ca) :
    2 ≤ ⌈(cb : ℚ) / (ca : ℚ)⌉.toNat ∧ ⌈(cb : ℚ) / (ca : ℚ)⌉.toNat ≤ cb := by
  have ha' : (0 : ℚ) < ca := by exact_mod_cast ha
  have h1 : (1 : ℚ) < (cb : ℚ) / (ca : ℚ) := by
    rw [lt_div_iff₀ ha', one_mul]; exact_mod_cast h
  have h2 : (1 : ℤ) < ⌈(cb : ℚ) / (ca : ℚ)⌉ := by rw [Int.lt_ceil]; exact_mod_cast h1
  have h3 : ⌈(cb : ℚ) / (ca : ℚ)⌉ ≤ (cb : ℤ) := by
    rw [Int.ceil_le, div_le_iff₀ ha']
    have : (1 : ℚ) ≤ ca := by exact_mod_cast ha
    have hb : (0 : ℚ) ≤ cb := by positivity
    push_cast
    nlinarith
  omega

theorem length_two_labels {y : List Int} {a b : Int} (hab : a ≠ b) (h : ∀ l ∈ y, l = a ∨ l = b) : y.length = y.count a + y.count b := by
  induction y with
  | nil => rfl
  | cons l y ih =>
    have := ih (fun l hl => h l (by simp [hl]))
    rw [List.length_cons, List.count_cons, List.count_cons]
    rcases h l (by simp) with rfl | rfl
    · rw [if_pos (beq_self_eq_true _), if_neg (fun hc => hab (beq_iff_eq.1 hc))]; omega
    · rw [if_pos (beq_self_eq_true _), if_neg (fun hc => hab (beq_iff_eq.1 hc).symm)]; omega

/-! ## The property -/

/-- **The weights of OUPS are never zero**: the rows of the weights belong to all rows of the data, not to the minority rows, and the
first rows, which are used, are positive everywhere. So setting the weights behind the end to zero has no effect. -/
theorem C66_weights {cb ca : Nat} (h : ca < cb) (ha : 0 < ca) {i c : Nat} (hi : i < ca) (hc : c < ⌈(cb : ℚ) / (ca : ℚ)⌉.toNat) :
    ∃ r q, (oupsWeights (ca + cb) ((cb : ℚ) / (ca : ℚ)) ⌈(cb : ℚ) / (ca : ℚ)⌉.toNat)[i]? = some r ∧ r[c]? = some q ∧ 0 < q := by
  obtain ⟨h2, h3⟩ := oups_columns h ha
  unfold oupsWeights
  refine ⟨_, _, by rw [List.getElem?_map, List.getElem?_range (by omega)]; rfl,
    by rw [List.getElem?_map, List.getElem?_range hc]; rfl, ?_⟩
  dsimp only
  rw [if_neg (by omega)]
  unfold clip01
  have : (c : ℤ) < ⌈(cb : ℚ) / (ca : ℚ)⌉ := by omega
  rw [Int.lt_ceil] at this
  refine lt_max_of_lt_right (lt_min ?_ one_pos)
  have h' : (c : ℚ) < (cb : ℚ) / (ca : ℚ) := by exact_mod_cast this
  linarith

/-- **OUPS**: the rows stand in the order of the propensity scores. With `w` the ratio of the class sizes, rounded up, exactly the
requested number of minority rows is appended, each a convex combination of a minority row, at some position `i` but the last, and of
rows at positions from `i + 2` to `i + w`; the row at position `i + 1` is never used. Behind the last row stand the base rows again,
from the last to the first. -/
theorem C66_oups {par : NbParams} {sorting : List Row → List Int → List Nat} {vol : List Row → ℚ} {dr : Draws} {d : Nat}
    {X : List Row} {y : List Int} {a b : Int} (hwf : WF d X y) (hso : SortingOK sorting) (hdr : dr.OK)
    (hu : ∀ i j, 0 < dr.simplexU i j) (hmin : IsMinority y a b) (hg : par.ss.gaussian = .none) (hvol : ∀ vs, 0 ≤ vol vs)
    (hd : 1 ≤ par.ss.nDim) (hwi : par.ss.within = .random)
    (hmode : par.ss.simplexSampling = .random ∨ par.ss.simplexSampling = .deterministic ∨
      (par.ss.simplexSampling = .volume ∧ ∀ vs, 0 < vol vs))
    (h3 : 2 < y.count a) (hn : 0 < requested par.proportion (y.count b) (y.count a)) :
    let Xs := inOrder [] X (sorting X y)
    let positions := oupsPositions (inOrder 0 y (sorting X y)) a
    let kept := inOrder [] Xs positions
    let w := ⌈(y.count b : ℚ) / (y.count a : ℚ)⌉.toNat
    2 ≤ w ∧ ∃ X' y', sample defaultChecks d (oupsAlg par sorting vol dr d) X y = .ok (X', y') ∧
      OversampledBy X y a (requested par.proportion (y.count b) (y.count a))
        (SimplexOf d (min par.ss.nDim w) kept (Xs ++ behindTheEnd Xs kept w) (positions.map (fun i => List.range' (i + 1) w))
          (fun _ => True)) X' y' := by
  intro Xs positions kept w
  have hxy := hwf.1
  have hlen : ∀ r ∈ X, r.length = d := hwf.2
  obtain ⟨s, hs, rfl, rfl⟩ := stats_of_isMinority hmin
  obtain ⟨hm, hM, hab⟩ := stats_min_mem hs
  have hp := hso X y
  have hpy : (sorting X y).Perm (List.range y.length) := by rw [← hxy]; exact hp
  have hlt : y.count s.minLabel < y.count s.majLabel := by
    rcases hmin.2.2.2 with h | ⟨h, _⟩
    · exact h
    · rw [h] at hn; simp [requested] at hn
  have hm2 : X.length = y.count s.minLabel + y.count s.majLabel := by
    rw [hxy]; exact length_two_labels hab hmin.2.2.1
  obtain ⟨hw2, hwb⟩ := oups_columns hlt (by omega)
  refine ⟨hw2, ?_⟩
  change 2 ≤ w at hw2
  change w ≤ _ at hwb
  have hXs : Xs.length = X.length := by rw [inOrder_length, hp.length_eq, List.length_range]
  have hys : (inOrder 0 y (sorting X y)).length = X.length := by rw [inOrder_length, hp.length_eq, List.length_range]
  have hcnt : (inOrder 0 y (sorting X y)).count s.minLabel = y.count s.minLabel := (inOrder_perm hpy).count_eq _
  have hposle : positions.length ≤ y.count s.minLabel := by rw [← hcnt]; exact oupsPositions_le
  have hpos0 : 0 < positions.length := oupsPositions_pos (by rw [hcnt]; omega)
  have hposlt : ∀ i ∈ positions, i + 1 < X.length := fun i hi => by rw [← hys]; exact (oupsPositions_lt hi).2
  have hkl : kept.length = positions.length := inOrder_length
  have hXd : ∀ r ∈ Xs, r.length = d := fun r hr => hlen r ((inOrder_perm hp).mem_iff.1 hr)
  have hkX : ∀ r ∈ kept, r ∈ Xs := by
    intro r hr
    obtain ⟨i, hi, rfl⟩ := List.mem_map.1 hr
    have := hposlt i hi
    rw [List.getD_eq_getElem?_getD, List.getElem?_eq_getElem (by omega)]; exact List.getElem_mem _
  have hVd : ∀ r ∈ Xs ++ behindTheEnd Xs kept w, r.length = d := by
    intro r hr
    rcases List.mem_append.1 hr with h | h
    · exact hXd r h
    · exact (behindTheEnd_mem (by omega) r h).elim (fun h => hXd r (hkX r h)) (hXd r)
  have hVl : (Xs ++ behindTheEnd Xs kept w).length = X.length + w := by
    rw [List.length_append, hXs]; simp [behindTheEnd]
  have htab : TableOK (positions.map (fun i => List.range' (i + 1) w)) w (Xs ++ behindTheEnd Xs kept w).length := by
    intro row hrow
    obtain ⟨i, hi, rfl⟩ := List.mem_map.1 hrow
    refine ⟨by simp, fun q hq => ?_⟩
    rw [List.mem_range'_1] at hq
    have := hposlt i hi
    omega
  have htl : (positions.map (fun i => List.range' (i + 1) w)).length = positions.length := by simp
  have hweights : ∀ b c, b < positions.length → c < w →
      ∃ r q, (oupsWeights X.length ((y.count s.majLabel : ℚ) / (y.count s.minLabel : ℚ)) w)[b]? = some r ∧ r[c]? = some q ∧ 0 < q := by
    intro b c hb hc
    rw [hm2]
    exact C66_weights hlt (by omega) (by omega) hc
  have hsel := simplicesSel_ok_sw (mode := par.ss.simplexSampling) (vol := vol) (cu := dr.choiceU) (X := kept)
    (n := requested par.proportion (y.count s.majLabel) (y.count s.minLabel)) (bw := none)
    (indices := positions.map (fun i => List.range' (i + 1) w)) (k := w) (Xv := some (Xs ++ behindTheEnd Xs kept w))
    (nDim := min par.ss.nDim w) (m := oupsWeights X.length ((y.count s.majLabel : ℚ) / (y.count s.minLabel : ℚ)) w)
    htab (by omega) hdr.choice hmode (by rw [htl]; unfold oupsWeights; rw [List.length_map, List.length_range]; omega)
    oupsWeights_nonneg
    (by
      refine ⟨0, List.range' 1 (min par.ss.nDim w - 1), by omega, ?_, ?_, (by intro w hw; cases hw), ?_⟩
      · rw [show List.range' 1 (w - 1) = List.range' 1 (min par.ss.nDim w - 1) ++
            List.range' (1 + (min par.ss.nDim w - 1)) (w - 1 - (min par.ss.nDim w - 1)) by
          rw [List.range'_append_1]; congr 1; have := Nat.min_le_right par.ss.nDim w; omega]
        exact List.sublist_append_left _ _
      · have : 1 ≤ min par.ss.nDim w := le_min hd (by omega)
        rw [List.length_range']; omega
      · obtain ⟨r, _, hr, _⟩ := hweights 0 0 hpos0 (by omega)
        refine ⟨r, hr, fun p hpp => ?_⟩
        rw [List.mem_range'_1] at hpp
        have := Nat.min_le_right par.ss.nDim w
        obtain ⟨r', q, hr', hq, hq0⟩ := hweights 0 p hpos0 (by omega)
        rw [hr] at hr'; injection hr' with hr'; subst hr'
        exact ⟨q, hq, hq0⟩)
  obtain ⟨out, hout⟩ := sampleSimplex_ok_of_sel (ss := par.ss) (vol := vol) (dr := dr) (d := d) (X := kept)
    (indices := positions.map (fun i => List.range' (i + 1) w)) (k := w)
    (n := requested par.proportion (y.count s.majLabel) (y.count s.minLabel))
    (a := { Xv := some (Xs ++ behindTheEnd Xs kept w),
            simplexWeights := some (oupsWeights X.length ((y.count s.majLabel : ℚ) / (y.count s.minLabel : ℚ)) w) })
    htab (by omega) (by intro ws hws; cases hws) (by intro hV; cases hV) hsel hu (Or.inl hwi)
  obtain ⟨s1, s2⟩ := sampleSimplex_simplexOf_vw
    (a := { Xv := some (Xs ++ behindTheEnd Xs kept w),
            simplexWeights := some (oupsWeights X.length ((y.count s.majLabel : ℚ) / (y.count s.minLabel : ℚ)) w) })
    (fun r hr => hXd r (hkX r hr)) (by intro V hV r hr; cases hV; exact hVd r hr) (by intro ws hws; cases hws) (by intro hV; cases hV)
    hdr (by omega) hg (by intro w hw; cases hw)
    (by intro m hm; cases hm; exact fun r hr => (oupsWeights_nonneg r hr).2) hvol hout
  refine ⟨_, _, ?_, withSamples_oversampledBy (samples := out) s1 ?_ rfl⟩
  · rw [sample_default hs, if_neg (by omega)]
    unfold oupsAlg
    rw [stats_count hs hm, stats_count hs hM, detN_eq_requested, ok_bind, if_neg (by omega)]
    dsimp only
    rw [takeRows_inOrder [] hp, ok_bind, takeRows_inOrder 0 hpy, ok_bind]
    have hpe := oupsPositions_eq (ys := inOrder 0 y (sorting X y)) (a := s.minLabel) (w := w) (by omega)
    rw [hys] at hpe
    change (takeRows Xs ((labelPositions (inOrder 0 y (sorting X y)) s.minLabel).filter
      (fun i => !((List.range' (i + 1) w).all (fun q => decide (X.length ≤ q))))) >>= _) = _
    rw [hpe, takeRows_map_getD [] (fun i hi => by have := hposlt i hi; omega), ok_bind]
    change (oupsBeyond Xs kept w >>= _) = _
    rw [oupsBeyond_eq (by omega), ok_bind]
    change (sampleSimplex par.ss vol dr d kept (positions.map (fun i => List.range' (i + 1) w)) w _ _ >>= _) = _
    rw [hout]
    rfl
  · intro x hx
    obtain ⟨bb, base', row, nbIdx, nbrs, wt, q1, _, q3⟩ := s2 x hx
    exact ⟨bb, base', row, nbIdx, nbrs, wt, q1, trivial, q3⟩

/-- With segments (the default): base and partner, by their positions. The partner is not the next row but one of those at the
distances 2 to `w`, and from the end on a stand-in. -/
theorem C66_segment {d w : Nat} {Xs kept V : List Row} {positions : List Nat} {x : Row}
    (hk : kept = inOrder [] Xs positions) (hlt : ∀ i ∈ positions, i < Xs.length)
    (h : SimplexOf d 2 kept V (positions.map (fun i => List.range' (i + 1) w)) (fun _ => True) x) :
    ∃ (i q : Nat) (base partner : Row) (wt : List ℚ), i ∈ positions ∧ Xs[i]? = some base ∧ i + 2 ≤ q ∧ q ≤ i + w ∧
      V[q]? = some partner ∧ IsConvexComb d wt [base, partner] x := by
  obtain ⟨b, base, row, nbIdx, nbrs, wt, h1, _, h3, h4, h5, h6, h7⟩ := h
  subst hk
  unfold inOrder at h1
  rw [List.getElem?_map, Option.map_eq_some_iff] at h1 h3
  obtain ⟨i, hi, hbase⟩ := h1
  obtain ⟨i', hi', hrow⟩ := h3
  rw [hi] at hi'; injection hi' with hi'; subst hi'
  have him := List.mem_of_getElem? hi
  match nbIdx, h5 with
  | [q], _ =>
    cases h6 with
    | @cons _ partner _ _ hq htl =>
      cases htl
      have hqm : q ∈ row.drop 1 := h4.subset (by simp)
      rw [← hrow, List.drop_range'] at hqm
      rw [List.mem_range'_1] at hqm
      refine ⟨i, q, base, partner, wt, him, ?_, by omega, by omega, hq, h7⟩
      rw [← hbase, List.getD_eq_getElem?_getD, List.getElem?_eq_getElem (hlt i him)]
      rfl

/-! ## A concrete data set -/

/-- Ten rows, in the order of their propensities; minority rows at the positions 0, 7 and 8. -/
def ouX : List Row := [[0], [10], [20], [30], [40], [50], [60], [70], [80], [90]]
def ouY : List Int := [1, 0, 0, 0, 0, 0, 0, 1, 1, 0]
def ouPar : NbParams := { proportion := 1, nNeighbors := 1, ss := exPar.ss }
def ouSort (X : List Row) (_ : List Int) : List Nat := List.range X.length
/-- Draws which select the last simplex and its midpoint. -/
def ouDraws : Draws := { choiceU := fun _ => 99 / 100, simplexU := fun _ _ => 1 / 2, normalU := fun _ _ => 0 }

/-- **OUPS mixes a row with one of higher propensity**: the row at position 8 is followed by one row only; its partner "at position
11" is the minority row at position 7, which stands before it. -/
theorem C66_wraps : sample defaultChecks 1 (oupsAlg ouPar ouSort (fun _ => 1) ouDraws 1) ouX ouY =
      .ok (ouX ++ [[75], [75], [75], [75]], ouY ++ [1, 1, 1, 1]) ∧
    oupsPositions ouY 1 = [0, 7, 8] ∧ behindTheEnd ouX [[0], [70], [80]] 3 = [[80], [70], [0]] := by
  refine ⟨by decide +kernel, by decide, by decide +kernel⟩

example : WF 1 ouX ouY ∧ IsMinority ouY 1 0 ∧ SortingOK ouSort ∧ ouDraws.OK ∧ (∀ i j, 0 < ouDraws.simplexU i j) ∧
    ouPar.ss.gaussian = .none ∧ ouPar.ss.within = .random ∧ ouPar.ss.simplexSampling = .random ∧ 2 < ouY.count 1 ∧
    0 < requested ouPar.proportion (ouY.count 0) (ouY.count 1) := by
  refine ⟨⟨by decide, by decide +kernel⟩, ⟨by decide, by decide, by decide, Or.inl (by decide)⟩, fun X _ => List.Perm.refl _,
    ⟨fun i => ?_, fun i j => ?_⟩, fun i j => ?_, rfl, rfl, rfl, by decide, by decide +kernel⟩
  all_goals simp only [ouDraws]; norm_num

end Verif

import Verif.Model.Somo
import Verif.Props.C58

/-!
# C67: SOMO samples within dense cells and between adjacent dense cells
-/

namespace Verif

/-! ## Specification -/

/-- The number of rows of the class `a` in the cell `c`. -/
def cellCount (cells : List MapCell) (y : List Int) (a : Int) (c : MapCell) : Nat := (cells.zip y).count (c, a)

/-- The rows of the class `a` in the cell `c`, in order. -/
def cellRows (X : List Row) (cells : List MapCell) (y : List Int) (a : Int) (c : MapCell) : List Row :=
  ((X.zip (cells.zip y)).filter (fun p => decide (p.2 = (c, a)))).map Prod.fst

/-- Adjacent cells of the grid. -/
def AdjacentCells (c c' : MapCell) : Prop :=
  (c.1 = c'.1 ∧ (c'.2 = c.2 + 1 ∨ c'.2 = c.2 - 1)) ∨ (c.2 = c'.2 ∧ (c'.1 = c.1 + 1 ∨ c'.1 = c.1 - 1))

/-- The density: the number of rows by the squared mean distance (over all ordered pairs, a row and itself included); 10 for a single
row, and if all the rows coincide. -/
def CellDensity (pdist : Row → Row → ℚ) (rows : List Row) (q : ℚ) : Prop :=
  let total := ((rows.product rows).map (fun p => pdist p.1 p.2)).sum
  if rows.length ≤ 1 ∨ total ≤ 0 then q = 10 else q * (total / (rows.length : ℚ) ^ 2) ^ 2 = rows.length

/-- `x` is on the segment between a row of `A` and a row of `B`. -/
def BetweenRows (d : Nat) (A B : List Row) (x : Row) : Prop :=
  ∃ p ∈ A, ∃ q ∈ B, ∃ w, IsConvexComb d w [p, q] x

/-! ## The grid -/

theorem gridKeys_aux (cells ks : List MapCell) (h : ks.Nodup) :
    (cells.foldl (fun ks c => if c ∈ ks then ks else ks ++ [c]) ks).Nodup ∧
      ∀ c, c ∈ cells.foldl (fun ks c => if c ∈ ks then ks else ks ++ [c]) ks ↔ c ∈ ks ∨ c ∈ cells := by
  induction cells generalizing ks with
  | nil => exact ⟨h, by simp⟩
  | cons a l ih =>
    rw [List.foldl_cons]
    by_cases ha : a ∈ ks
    · rw [if_pos ha]
      refine ⟨(ih ks h).1, fun c => ?_⟩
      rw [(ih ks h).2, List.mem_cons]
      constructor
      · rintro (h | h); exacts [.inl h, .inr (.inr h)]
      · rintro (h | rfl | h); exacts [.inl h, .inl ha, .inr h]
    · rw [if_neg ha]
      have hn : (ks ++ [a]).Nodup := by
        rw [List.nodup_append]
        refine ⟨h, by simp, ?_⟩
        intro b hb c hc
        simp only [List.mem_singleton] at hc
        subst hc
        rintro rfl
        exact ha hb
      refine ⟨(ih _ hn).1, fun c => ?_⟩
      rw [(ih _ hn).2]
      simp [or_assoc]

theorem gridKeys_nodup (cells : List MapCell) : (gridKeys cells).Nodup := (gridKeys_aux cells [] List.nodup_nil).1

theorem mem_gridKeys {cells : List MapCell} {c : MapCell} : c ∈ gridKeys cells ↔ c ∈ cells := by
  unfold gridKeys
  rw [(gridKeys_aux cells [] List.nodup_nil).2]; simp

/-- Filtering the positions by the entries of two lists. -/
theorem positions_zip {α : Type} {X : List α} {cells : List MapCell} {y : List Int} (h1 : X.length = y.length)
    (h2 : cells.length = y.length) (c : MapCell) (P : Int → Bool) :
    takeRows X ((List.range y.length).filter (fun i => decide (cells[i]? = some c) && (y[i]?.any P))) =
      .ok (((X.zip (cells.zip y)).filter (fun p => decide (p.2.1 = c) && P p.2.2)).map Prod.fst) := by
  unfold takeRows
  rw [mapM_ok_iff]
  have key : ∀ (X : List α) (cells : List MapCell) (y : List Int) (fX : List α) (fc : List MapCell) (fy : List Int) (s : Nat),
      X.length = y.length → cells.length = y.length → fX.drop s = X → fc.drop s = cells → fy.drop s = y →
      List.Forall₂ (fun i r => getRow fX i = .ok r)
        ((List.range' s y.length).filter (fun i => decide (fc[i]? = some c) && (fy[i]?.any P)))
        (((X.zip (cells.zip y)).filter (fun p => decide (p.2.1 = c) && P p.2.2)).map Prod.fst) := by
    intro X
    induction X with
    | nil =>
      intro cells y fX fc fy s h1 h2 _ _ _
      have : y = [] := List.length_eq_zero_iff.1 (by simpa using h1.symm)
      subst this
      exact .nil
    | cons x X ih =>
      intro cells y fX fc fy s h1 h2 e1 e2 e3
      cases y with
      | nil => simp at h1
      | cons l y =>
        cases cells with
        | nil => simp at h2
        | cons k cells =>
          have g1 : fX[s]? = some x := by have := congrArg (fun z => z[0]?) e1; simpa using this
          have g2 : fc[s]? = some k := by have := congrArg (fun z => z[0]?) e2; simpa using this
          have g3 : fy[s]? = some l := by have := congrArg (fun z => z[0]?) e3; simpa using this
          have ih' := ih cells y fX fc fy (s + 1) (by simpa using h1) (by simpa using h2)
            (by have := congrArg (List.drop 1) e1; simpa [Nat.add_comm] using this)
            (by have := congrArg (List.drop 1) e2; simpa [Nat.add_comm] using this)
            (by have := congrArg (List.drop 1) e3; simpa [Nat.add_comm] using this)
          rw [List.length_cons, List.range'_succ, List.zip_cons_cons, List.zip_cons_cons, List.filter_cons, List.filter_cons, g2, g3]
          simp only [Option.some.injEq, Option.any_some]
          cases hc : (decide (k = c) && P l) with
          | true =>
            simp only [if_true, List.map_cons]
            exact .cons (getRow_ok.2 g1) ih'
          | false =>
            simp only [Bool.false_eq_true, if_false]
            exact ih'
  have := key X cells y X cells y 0 h1 h2 rfl rfl rfl
  rwa [← List.range_eq_range'] at this

theorem takeRows_gridMin {X : List Row} {cells : List MapCell} {y : List Int} (h1 : X.length = y.length)
    (h2 : cells.length = y.length) (a : Int) (c : MapCell) : takeRows X (gridMin cells y a c) = .ok (cellRows X cells y a c) := by
  have e : gridMin cells y a c = (List.range y.length).filter
      (fun i => decide (cells[i]? = some c) && (y[i]?.any (fun l => decide (l = a)))) := by
    unfold gridMin
    apply List.filter_congr
    intro i _
    cases y[i]? <;> simp
  rw [e, positions_zip h1 h2]
  unfold cellRows
  congr 2
  apply List.filter_congr
  intro p _
  rw [Bool.eq_iff_iff]
  simp [Prod.ext_iff]

theorem cellRows_length {X : List Row} {cells : List MapCell} {y : List Int} (h1 : X.length = y.length)
    (h2 : cells.length = y.length) (a : Int) (c : MapCell) : (cellRows X cells y a c).length = cellCount cells y a c := by
  unfold cellRows cellCount
  rw [List.length_map, List.count_eq_length_filter]
  have hz : (X.zip (cells.zip y)).map Prod.snd = cells.zip y := by
    rw [List.map_snd_zip]; simp; omega
  conv_rhs => rw [← hz]
  rw [List.filter_map, List.length_map]
  congr 1
  apply List.filter_congr
  intro p _
  rw [Bool.eq_iff_iff]
  simp

theorem gridMin_length {X : List Row} {cells : List MapCell} {y : List Int} (h1 : X.length = y.length)
    (h2 : cells.length = y.length) (a : Int) (c : MapCell) : (gridMin cells y a c).length = cellCount cells y a c := by
  rw [← cellRows_length h1 h2, takeRows_length (takeRows_gridMin h1 h2 a c)]

theorem gridMaj_length {cells : List MapCell} {y : List Int} {a b : Int} (hab : a ≠ b) (hy : ∀ l ∈ y, l = a ∨ l = b)
    (h2 : cells.length = y.length) (c : MapCell) : (gridMaj cells y a c).length = cellCount cells y b c := by
  have e : gridMaj cells y a c = (List.range y.length).filter
      (fun i => decide (cells[i]? = some c) && (y[i]?.any (fun l => !decide (l = a)))) := by
    unfold gridMaj
    apply List.filter_congr
    intro i hi
    rw [List.mem_range] at hi
    rw [List.getElem?_eq_getElem hi]; simp
  have h := positions_zip (X := y) rfl h2 c (fun l => !decide (l = a))
  rw [e, ← takeRows_length h]
  unfold cellCount
  rw [List.length_map, List.count_eq_length_filter]
  have hz : (y.zip (cells.zip y)).map Prod.snd = cells.zip y := by
    rw [List.map_snd_zip]; simp
  conv_rhs => rw [← hz]
  rw [List.filter_map, List.length_map]
  congr 1
  apply List.filter_congr
  rintro ⟨l, k, l'⟩ hp
  have hl' : l' ∈ y := by
    have := (List.of_mem_zip hp).2
    exact (List.of_mem_zip this).2
  rw [Bool.eq_iff_iff]
  simp only [Bool.and_eq_true, decide_eq_true_eq, Bool.not_eq_true', decide_eq_false_iff_not, Function.comp_apply, beq_iff_eq,
    Prod.mk.injEq]
  constructor
  · rintro ⟨rfl, hne⟩; exact ⟨rfl, (hy l' hl').resolve_left hne⟩
  · rintro ⟨rfl, rfl⟩; exact ⟨rfl, fun h => hab h.symm⟩

theorem somoDensity_pos (pdist : Row → Row → ℚ) (rows : List Row) : 0 < somoDensity pdist rows := by
  unfold somoDensity
  dsimp only
  split
  · rename_i h
    have : (0 : ℚ) < rows.length := by exact_mod_cast (by omega : 0 < rows.length)
    have := h.2
    positivity
  · norm_num

theorem somoDensity_spec (pdist : Row → Row → ℚ) (rows : List Row) : CellDensity pdist rows (somoDensity pdist rows) := by
  unfold CellDensity somoDensity
  dsimp only
  have ht : ∀ rs : List Row, ((rs.product rows).map (fun p => pdist p.1 p.2)).sum =
      (rs.map (fun p => (rows.map (pdist p)).sum)).sum := by
    intro rs
    induction rs with
    | nil => rfl
    | cons r rs ih =>
      have : (r :: rs).product rows = rows.map (fun q => (r, q)) ++ rs.product rows := rfl
      rw [this, List.map_append, List.sum_append, ih, List.map_map]; rfl
  rw [ht]
  set T := (rows.map (fun p => (rows.map (pdist p)).sum)).sum with hT
  by_cases h1 : rows.length ≤ 1
  · rw [if_pos (.inl h1), if_neg (by omega)]
  have hl : (0 : ℚ) < rows.length := by exact_mod_cast (by omega : 0 < rows.length)
  by_cases h2 : T ≤ 0
  · rw [if_pos (.inr h2), if_neg]
    rintro ⟨_, h⟩
    have := div_nonpos_of_nonpos_of_nonneg h2 (mul_pos hl hl).le
    linarith
  · push Not at h2
    rw [if_neg (by push Not; exact ⟨by omega, h2⟩), if_pos ⟨by omega, by positivity⟩]
    field_simp

theorem somoDensities_eq {pdist : Row → Row → ℚ} {cells : List MapCell} {X : List Row} {y : List Int} {a b : Int} (hab : a ≠ b)
    (hy : ∀ l ∈ y, l = a ∨ l = b) (h1 : X.length = y.length) (h2 : cells.length = y.length) :
    ∃ D : List MapCell, D.Nodup ∧ (∀ c, c ∈ D ↔ cellCount cells y b c < cellCount cells y a c) ∧
      somoDensities pdist cells X y a = .ok (D.map (fun c => (c, somoDensity pdist (cellRows X cells y a c)))) := by
  refine ⟨(gridKeys cells).filter (fun c => decide
    ((((gridMaj cells y a c).length : ℚ) + 1) / (((gridMin cells y a c).length : ℚ) + 1) < 1)),
    (gridKeys_nodup cells).filter _, fun c => ?_, ?_⟩
  · rw [List.mem_filter, mem_gridKeys, decide_eq_true_eq, gridMin_length h1 h2, gridMaj_length hab hy h2,
      div_lt_one (by positivity)]
    constructor
    · rintro ⟨_, h⟩
      have : (cellCount cells y b c : ℚ) < cellCount cells y a c := by linarith
      exact_mod_cast this
    · intro h
      refine ⟨?_, ?_⟩
      · have : 0 < (cells.zip y).count (c, a) := by unfold cellCount at h; omega
        exact (List.of_mem_zip (List.count_pos_iff.1 this)).1
      · have : (cellCount cells y b c : ℚ) < cellCount cells y a c := by exact_mod_cast h
        linarith
  · unfold somoDensities
    apply mapM_ok_of
    intro c _
    rw [takeRows_gridMin h1 h2, ok_bind]
    rfl

theorem lookup_map_pair {D : List MapCell} (f : MapCell → ℚ) (j : MapCell) :
    (D.map (fun c => (c, f c))).lookup j = if j ∈ D then some (f j) else none := by
  induction D with
  | nil => simp
  | cons c D ih =>
    rw [List.map_cons, List.lookup_cons, ih]
    by_cases h : j = c
    · subst h; simp
    · have hb : (j == c) = false := by simpa using h
      rw [hb]
      simp [h]

theorem somoPairs_eq {D : List MapCell} (hD : D.Nodup) (f : MapCell → ℚ) :
    ∃ P : List (MapCell × MapCell), P.Nodup ∧ (∀ p, p ∈ P ↔ p.1 ∈ D ∧ p.2 ∈ D ∧ AdjacentCells p.1 p.2) ∧
      somoPairs (D.map (fun c => (c, f c))) = P.map (fun p => (p, f p.1 + f p.2)) := by
  refine ⟨D.flatMap (fun c => [((0 : Int), (1 : Int)), (0, -1), (1, 0), (-1, 0)].filterMap (fun (o : Int × Int) =>
    if (c.1 + o.1, c.2 + o.2) ∈ D then some (c, (c.1 + o.1, c.2 + o.2)) else none)), ?_, ?_, ?_⟩
  · rw [List.nodup_flatMap]
    refine ⟨fun c _ => ?_, ?_⟩
    · apply List.Nodup.filterMap _ (by decide)
      rintro ⟨o1, o2⟩ ⟨o1', o2'⟩ b h h'
      simp only [Option.mem_def] at h h'
      split at h
      · split at h'
        · injection h with h
          injection h' with h'
          rw [← h'] at h
          simp only [Prod.mk.injEq, true_and] at h
          ext <;> simp <;> omega
        · cases h'
      · cases h
    · apply hD.imp
      intro c c' hne p hp hp'
      simp only [List.mem_filterMap] at hp hp'
      obtain ⟨o, _, h⟩ := hp
      obtain ⟨o', _, h'⟩ := hp'
      split at h
      · split at h'
        · injection h with h
          injection h' with h'
          rw [← h'] at h
          exact hne (Prod.mk.inj h).1
        · cases h'
      · cases h
  · rintro ⟨⟨c1, c2⟩, ⟨e1, e2⟩⟩
    rw [List.mem_flatMap]
    unfold AdjacentCells
    constructor
    · rintro ⟨c, hc, hp⟩
      simp only [List.mem_filterMap] at hp
      obtain ⟨o, ho, h⟩ := hp
      split at h
      · rename_i hin
        injection h with h
        obtain ⟨rfl, h⟩ := Prod.mk.inj h
        rw [h] at hin
        refine ⟨hc, hin, ?_⟩
        simp only [Prod.mk.injEq] at h
        obtain ⟨h1, h2⟩ := h
        simp only [List.mem_cons, List.not_mem_nil, or_false] at ho
        rcases ho with rfl | rfl | rfl | rfl <;> dsimp only at h1 h2 ⊢ <;> omega
      · cases h
    · rintro ⟨h1, h2, h3⟩
      refine ⟨(c1, c2), h1, ?_⟩
      rw [List.mem_filterMap]
      dsimp only at h3
      have key : (e1 - c1, e2 - c2) ∈ [((0 : Int), (1 : Int)), (0, -1), (1, 0), (-1, 0)] := by
        simp only [List.mem_cons, Prod.mk.injEq, List.not_mem_nil, or_false]
        omega
      refine ⟨_, key, ?_⟩
      dsimp only
      rw [show c1 + (e1 - c1) = e1 by omega, show c2 + (e2 - c2) = e2 by omega, if_pos h2]
  · unfold somoPairs
    rw [List.flatMap_map, List.map_flatMap]
    congr 1
    funext c
    rw [List.map_filterMap]
    apply List.filterMap_congr
    intro o _
    dsimp only
    rw [lookup_map_pair]
    split <;> simp

/-! ## Sampling in drawn groups -/

theorem somo_groups {ss : SSParams} {vol : List Row → ℚ} {cu : Nat → ℚ} {drs : Nat → Draws} {d n : Nat}
    {task : Nat → Res ClusterTask} {w : List ℚ} {P : Nat → Row → Prop} (hw : ∀ q ∈ w, 0 < q) (hne : w ≠ [])
    (hcu : ∀ i, 0 ≤ cu i ∧ cu i < 1)
    (hP : ∀ c i k, c < w.length → ∃ t, task c = .ok t ∧ ∃ out,
      sampleSimplex ss vol (drs i) d t.rows t.indices t.k k t.args = .ok out ∧ out.length = k ∧ ∀ x ∈ out, P c x) :
    ∃ sel out, npChoice w.length n (somoProbs w) cu = .ok sel ∧ somoCalls ss vol drs d task sel = .ok out ∧
      DrawnByShares (shares (w.map (fun q => 1 / q))) cu n sel ∧ ByCluster w.length sel P out ∧ out.length = n := by
  have hprob : somoProbs w = shares (w.map (fun q => 1 / q)) := by
    unfold somoProbs
    rw [← fixDensity_fin, List.map_map]
    rfl
  have hpos : ∀ q ∈ w.map (fun q => 1 / q), 0 < q := by
    intro q hq
    obtain ⟨z, hz, rfl⟩ := List.mem_map.1 hq
    exact one_div_pos.2 (hw z hz)
  have hsum := sum_pos_of_all (by simpa using hne) hpos
  have hsh : shares (w.map (fun q => 1 / q)) = (w.map (fun q => 1 / q)).map (fun q => q / (w.map (fun q => 1 / q)).sum) := by
    unfold shares; rw [if_neg hsum.ne']
  rw [hprob]
  obtain ⟨sel, hsel, hl, hmem⟩ := npChoice_ok (m := w.length) (n := n) (p := shares (w.map (fun q => 1 / q)))
    (by rw [hsh]; simp) (by
      intro x hx
      rw [hsh] at hx
      obtain ⟨q, hq, rfl⟩ := List.mem_map.1 hx
      exact div_nonneg (hpos q hq).le hsum.le) (by
      rw [hsh, sum_map_div, div_self hsum.ne']) hcu
  have hlt : ∀ c ∈ sel, c < w.length := by
    intro c hc
    obtain ⟨x, hx, _⟩ := hmem c hc
    have := (List.getElem?_eq_some_iff.1 hx).1
    rw [hsh] at this
    simpa using this
  have hdrawn := npChoice_drawn hcu hsel
  by_cases h0 : sel.length = 0
  · have hs0 : sel = [] := List.length_eq_zero_iff.1 h0
    subst hs0
    refine ⟨[], [], hsel, rfl, hdrawn, ⟨fun _ => [], by simp, fun j _ => ⟨rfl, by simp⟩⟩, ?_⟩
    rw [← hl]; rfl
  · obtain ⟨out, hout⟩ := sampleInClusters_ok (ss := ss) (vol := vol) (drs := drs) (d := d) (task := task) (sel := sel)
      (by rintro rfl; exact h0 rfl) (by
        intro c i hc
        obtain ⟨t, ht, o, ho, _⟩ := hP c i (sel.count c) (hlt c hc)
        exact ⟨t, ht, o, ho⟩)
    have hby := sampleInClusters_sound (m := w.length) (P := P) hlt (by
      intro c t i o hc ht ho
      obtain ⟨t', ht', o', ho', h⟩ := hP c i (sel.count c) (hlt c hc)
      rw [ht] at ht'
      injection ht' with ht'
      subst ht'
      rw [ho] at ho'
      injection ho' with ho'
      subst ho'
      exact h) hout
    refine ⟨sel, out, hsel, by unfold somoCalls; rw [if_neg h0]; exact hout, hdrawn, hby, ?_⟩
    rw [ByCluster.length hby hlt, hl]

theorem mem_of_mem_cellRows {X : List Row} {cells : List MapCell} {y : List Int} {a : Int} {c : MapCell} {r : Row}
    (h : r ∈ cellRows X cells y a c) : r ∈ X := by
  unfold cellRows at h
  obtain ⟨p, hp, rfl⟩ := List.mem_map.1 h
  exact (List.of_mem_zip (List.mem_filter.1 hp).1).1

/-- The vertices of an inter-cell simplex: a row of the first and a row of the second cell. -/
theorem SimplexOf.between {d : Nat} {A B : List Row} {ok : Nat → Prop} {x : Row}
    (h : SimplexOf d 2 A B (List.replicate A.length (0 :: List.range B.length)) ok x) : BetweenRows d A B x := by
  obtain ⟨b, base, row, nbIdx, nbrs, w, h1, h2, h3, h4, h5, h6, h7⟩ := h
  match nbIdx, h5 with
  | [i], _ =>
    cases h6 with
    | @cons _ q _ _ hq htl =>
      cases htl
      exact ⟨base, List.mem_of_getElem? h1, q, List.mem_of_getElem? hq, w, h7⟩

/-! ## The property -/

/-- **SOMO**: the dense cells `D` are those with more minority than majority rows; `P` lists the ordered pairs of adjacent dense cells.
Without dense cells the input comes back. Otherwise exactly the requested number of rows is added: half of them (all, if no two dense
cells are adjacent) within dense cells, the rest between rows of two adjacent dense cells. Cells and pairs are drawn in proportion
to the reciprocals of their densities. -/
theorem C67_somo {par : NbParams} {som : List Row → Row → MapCell} {pdist : Row → Row → ℚ} {vol : List Row → ℚ} {cu cu' : Nat → ℚ}
    {drs drs' : Nat → Draws} {d : Nat} {X : List Row} {y : List Int} {a b : Int} (hwf : WF d X y)
    (hcu : ∀ i, 0 ≤ cu i ∧ cu i < 1) (hcu' : ∀ i, 0 ≤ cu' i ∧ cu' i < 1) (hdr : ∀ i, (drs i).OK) (hdr' : ∀ i, (drs' i).OK)
    (hu : ∀ t i j, 0 < (drs t).simplexU i j) (hu' : ∀ t i j, 0 < (drs' t).simplexU i j) (hmin : IsMinority y a b)
    (hg : par.ss.gaussian = .none) (hvol : ∀ vs, 0 ≤ vol vs) (hd : 1 ≤ par.ss.nDim)
    (hwi : par.ss.within = .random ∨ (par.ss.within = .deterministic ∧ par.ss.nDim ≤ 2))
    (hmode : par.ss.simplexSampling = .random ∨ par.ss.simplexSampling = .deterministic ∨
      (par.ss.simplexSampling = .volume ∧ ∀ vs, 0 < vol vs))
    (h3 : 2 < y.count a) (hn : 0 < requested par.proportion (y.count b) (y.count a)) :
    let n := requested par.proportion (y.count b) (y.count a)
    let cells := X.map (som X)
    let rows := cellRows X cells y a
    ∃ (D : List MapCell) (P : List (MapCell × MapCell)) (f : MapCell → ℚ) (X' : List Row) (y' : List Int),
      D.Nodup ∧ (∀ c, c ∈ D ↔ cellCount cells y b c < cellCount cells y a c) ∧
      P.Nodup ∧ (∀ p, p ∈ P ↔ p.1 ∈ D ∧ p.2 ∈ D ∧ AdjacentCells p.1 p.2) ∧
      (∀ c, CellDensity pdist (rows c) (f c)) ∧
      sample defaultChecks d (somoAlg par som pdist vol cu cu' drs drs' d) X y = .ok (X', y') ∧
      (D = [] → X' = X ∧ y' = y) ∧
      (D ≠ [] → ∃ (selected : List Nat) (intra inter : List Row), X' = X ++ (intra ++ inter) ∧ y' = y ++ List.replicate n a ∧
        intra.length = (if P = [] then n else n / 2) ∧ inter.length = n - intra.length ∧
        DrawnByShares (shares (D.map (fun c => 1 / f c))) cu intra.length selected ∧
        ByCluster D.length selected (fun j x => ∃ c, D[j]? = some c ∧
          ClusterSimplex d (min par.ss.nDim (rows c).length) (rows c) (fun _ => True) x) intra ∧
        (P ≠ [] → ∃ selected' : List Nat,
          DrawnByShares (shares (P.map (fun p => 1 / (f p.1 + f p.2)))) cu' inter.length selected' ∧
          ByCluster P.length selected' (fun j x => ∃ p, P[j]? = some p ∧ BetweenRows d (rows p.1) (rows p.2) x) inter)) := by
  intro n cells rows
  obtain ⟨s, hs, rfl, rfl⟩ := stats_of_isMinority hmin
  obtain ⟨hm, hM, hab⟩ := stats_min_mem hs
  have hxy := hwf.1
  have hcl : cells.length = y.length := by simp [cells, hxy]
  obtain ⟨D, hD1, hD2, hD3⟩ := somoDensities_eq (pdist := pdist) hab hmin.2.2.1 hxy hcl
  set f : MapCell → ℚ := fun c => somoDensity pdist (rows c) with hf
  have hfpos : ∀ c, 0 < f c := fun c => somoDensity_pos pdist _
  obtain ⟨P, hP1, hP2, hP3⟩ := somoPairs_eq hD1 f
  have hrun : sample defaultChecks d (somoAlg par som pdist vol cu cu' drs drs' d) X y =
      (if D.length = 0 then .ok (X, y) else do
        let intra ← somoGenIntra par.ss vol cu drs d cells X y s.minLabel (D.map (fun c => (c, f c)))
          (if 0 < P.length then n / 2 else n)
        let inter ← somoGenInter par.ss vol cu' drs' d cells X y s.minLabel (P.map (fun p => (p, f p.1 + f p.2)))
          (n - (if 0 < P.length then n / 2 else n))
        return withSamples X y s.minLabel (intra ++ inter)) := by
    rw [sample_default hs, if_neg (by omega)]
    unfold somoAlg
    rw [stats_count hs hm, stats_count hs hM, detN_eq_requested, ok_bind, if_neg (by omega)]
    dsimp only
    rw [hD3, ok_bind, hP3]
    simp only [List.length_map]
    rfl
  have hXrow : ∀ c, ∀ r ∈ rows c, r.length = d := fun c r hr => hwf.2 r (mem_of_mem_cellRows hr)
  have hrpos : ∀ c ∈ D, 0 < (rows c).length := by
    intro c hc
    have := (hD2 c).1 hc
    rw [show (rows c).length = cellCount cells y s.minLabel c from cellRows_length hxy hcl _ _]
    omega
  by_cases hDe : D = []
  · refine ⟨D, P, f, X, y, hD1, hD2, hP1, hP2, fun c => somoDensity_spec _ _, ?_, fun _ => ⟨rfl, rfl⟩, fun h => absurd hDe h⟩
    rw [hrun, if_pos (by rw [hDe]; rfl)]
  -- within the cells
  set half := if 0 < P.length then n / 2 else n with hhalf
  obtain ⟨sel, intra, e1, e2, e3, e4, e5⟩ := somo_groups (ss := par.ss) (vol := vol) (cu := cu) (drs := drs) (d := d) (n := half)
    (task := somoIntra cells X y s.minLabel D) (w := D.map f)
    (P := fun j x => ∃ c, D[j]? = some c ∧ ClusterSimplex d (min par.ss.nDim (rows c).length) (rows c) (fun _ => True) x)
    (by intro q hq; obtain ⟨c, _, rfl⟩ := List.mem_map.1 hq; exact hfpos c) (by simpa using hDe) hcu (by
      intro j i k hj
      rw [List.length_map] at hj
      have hc : D[j]? = some D[j] := List.getElem?_eq_getElem hj
      have hrp := hrpos D[j] (List.getElem_mem hj)
      refine ⟨_, by
        unfold somoIntra
        rw [getRow_ok.2 hc, ok_bind, takeRows_gridMin hxy hcl, ok_bind]; rfl, ?_⟩
      obtain ⟨o, ho⟩ := sampleSimplex_ok (ss := par.ss) (vol := vol) (dr := drs i) (d := d) (X := rows D[j])
        (indices := circulant (rows D[j]).length) (k := (rows D[j]).length) (n := k) (a := {}) (circulant_tableOK _)
        (by rw [circulant_length])
        (by intro he; have := circulant_length (rows D[j]).length; rw [he, List.length_nil] at this; omega)
        hrp hd rfl (by intro ws hws; cases hws) (by intro hV; cases hV) hmode (hdr i).choice (hu i) (by
          rcases hwi with h | ⟨h, h'⟩
          · exact .inl h
          · exact .inr ⟨h, by omega⟩)
      refine ⟨o, ho, ?_⟩
      obtain ⟨g1, g2⟩ := sampleSimplex_simplexOf (hXrow _) (by intro V hV; cases hV) rfl
        (by intro hV; cases hV) (hdr i) (by rw [circulant_length]) hg (by intro w hw; cases hw) rfl hvol ho
      refine ⟨g1, fun x hx => ⟨_, hc, ?_⟩⟩
      obtain ⟨bb, base, nbIdx, nbrs, w, q1, _, q3⟩ := (g2 x hx).circulant
      exact ⟨bb, base, nbIdx, nbrs, w, q1, trivial, q3⟩)
  have hintra : somoGenIntra par.ss vol cu drs d cells X y s.minLabel (D.map (fun c => (c, f c))) half = .ok intra := by
    unfold somoGenIntra
    rw [List.length_map] at e1
    rw [List.length_map, List.map_map, List.map_map,
      show D.map (Prod.snd ∘ fun c => (c, f c)) = D.map f from rfl, e1, ok_bind]
    rw [show D.map (Prod.fst ∘ fun c => (c, f c)) = D from by simp [Function.comp_def]]
    exact e2
  rw [List.length_map] at e4
  rw [List.map_map] at e3
  by_cases hPe : P = []
  · have hh : half = n := by rw [hhalf, hPe]; rfl
    refine ⟨D, P, f, _, _, hD1, hD2, hP1, hP2, fun c => somoDensity_spec _ _, ?_, fun h => absurd h hDe, fun _ =>
      ⟨sel, intra, [], rfl, rfl, by rw [e5, hh, if_pos hPe], by rw [e5, hh]; simp, by rw [e5]; exact e3, e4,
        fun h => absurd hPe h⟩⟩
    rw [hrun, if_neg (by simpa using hDe), hintra, ok_bind, hPe]
    show Except.ok (withSamples X y s.minLabel (intra ++ [])) = _
    unfold withSamples
    rw [List.append_nil, e5, hh]
  -- between the cells
  obtain ⟨sel', inter, f1, f2, f3, f4, f5⟩ := somo_groups (ss := { par.ss with nDim := 2 }) (vol := vol) (cu := cu') (drs := drs')
    (d := d) (n := n - half) (task := somoInter cells X y s.minLabel P) (w := P.map (fun p => f p.1 + f p.2))
    (P := fun j x => ∃ p, P[j]? = some p ∧ BetweenRows d (rows p.1) (rows p.2) x)
    (by intro q hq; obtain ⟨p, _, rfl⟩ := List.mem_map.1 hq; exact add_pos (hfpos _) (hfpos _)) (by simpa using hPe) hcu' (by
      intro j i k hj
      rw [List.length_map] at hj
      have hc : P[j]? = some P[j] := List.getElem?_eq_getElem hj
      obtain ⟨m1, m2, _⟩ := (hP2 _).1 (List.getElem_mem hj)
      have hr1 := hrpos _ m1
      have hr2 := hrpos _ m2
      refine ⟨_, by
        unfold somoInter
        rw [getRow_ok.2 hc, ok_bind, takeRows_gridMin hxy hcl, ok_bind, takeRows_gridMin hxy hcl, ok_bind]; rfl, ?_⟩
      obtain ⟨o, ho⟩ := sampleSimplex_ok (ss := { par.ss with nDim := 2 }) (vol := vol) (dr := drs' i) (d := d)
        (X := rows P[j].1)
        (indices := List.replicate (rows P[j].1).length (0 :: List.range (rows P[j].2).length))
        (k := (rows P[j].2).length + 1) (n := k) (a := { Xv := some (rows P[j].2) })
        (by
          intro row hrow
          have := List.eq_of_mem_replicate hrow
          subst this
          refine ⟨by simp, fun v hv => ?_⟩
          rcases List.mem_cons.1 hv with rfl | hv
          · exact hr2
          · exact List.mem_range.1 hv)
        (by simp) (by intro he; have := congrArg List.length he; simp at this; rw [this] at hr1; simp at hr1) (by omega)
        (by show 1 ≤ 2; omega) rfl (by intro ws hws; cases hws) (by intro hV; cases hV) hmode (hdr' i).choice (hu' i) (by
          rcases hwi with h | ⟨h, h'⟩
          · exact .inl h
          · exact .inr ⟨h, Nat.min_le_left _ _⟩)
      refine ⟨o, ho, ?_⟩
      obtain ⟨g1, g2⟩ := sampleSimplex_simplexOf (ss := { par.ss with nDim := 2 }) (a := { Xv := some (rows P[j].2) })
        (hXrow _) (by intro V hV; injection hV with hV; subst hV; exact hXrow _) rfl
        (by intro hV; cases hV) (hdr' i) (by simp) hg (by intro w hw; cases hw) rfl hvol ho
      refine ⟨g1, fun x hx => ⟨_, hc, ?_⟩⟩
      have := g2 x hx
      rw [show min ({ par.ss with nDim := 2 } : SSParams).nDim ((rows P[j].2).length + 1) = 2 from by
        show min 2 _ = 2; omega] at this
      exact this.between)
  have hinter : somoGenInter par.ss vol cu' drs' d cells X y s.minLabel (P.map (fun p => (p, f p.1 + f p.2))) (n - half) =
      .ok inter := by
    unfold somoGenInter
    rw [List.length_map] at f1
    rw [List.length_map, if_neg (by simpa using hPe), List.map_map, List.map_map,
      show P.map (Prod.snd ∘ fun p => (p, f p.1 + f p.2)) = P.map (fun p => f p.1 + f p.2) from rfl, f1, ok_bind]
    rw [show P.map (Prod.fst ∘ fun p => (p, f p.1 + f p.2)) = P from by simp [Function.comp_def]]
    exact f2
  rw [List.length_map] at f4
  rw [List.map_map] at f3
  have hh : half = n / 2 := by rw [hhalf, if_pos (List.length_pos_of_ne_nil hPe)]
  refine ⟨D, P, f, _, _, hD1, hD2, hP1, hP2, fun c => somoDensity_spec _ _, ?_, fun h => absurd h hDe, fun _ =>
    ⟨sel, intra, inter, rfl, rfl, by rw [e5, hh, if_neg hPe], by rw [e5, f5], by rw [e5]; exact e3, e4,
      fun _ => ⟨sel', by rw [f5]; exact f3, f4⟩⟩⟩
  rw [hrun, if_neg (by simpa using hDe), hintra, ok_bind, hinter, ok_bind]
  show Except.ok (withSamples X y s.minLabel (intra ++ inter)) = _
  unfold withSamples
  rw [List.length_append, e5, f5, show half + (n - half) = n by rw [hh]; omega]

/-! ## A concrete data set -/

def soX : List Row := [[0], [1], [2], [10], [11], [12], [13], [14], [15]]
def soY : List Int := [1, 1, 1, 0, 0, 0, 0, 0, 0]
/-- Two adjacent dense cells and a cell of the majority. -/
def soSom (_ : List Row) (x : Row) : MapCell := if x.getD 0 0 < 3 / 2 then (0, 0) else if x.getD 0 0 < 5 then (0, 1) else (3, 3)
def soPar : NbParams := { proportion := 1, nNeighbors := 1, ss := exPar.ss }

/-- One row within the cell of 0 and 1, two between the cells. -/
theorem C67_example : sample defaultChecks 1 (somoAlg soPar soSom (fun p q => |p.getD 0 0 - q.getD 0 0|) (fun _ => 1)
      (fun _ => 1 / 2) (fun _ => 0) (fun _ => exDraws) (fun _ => exDraws) 1) soX soY =
    .ok (soX ++ [[3 / 5], [7 / 5], [7 / 5]], soY ++ [1, 1, 1]) := by decide +kernel

example : WF 1 soX soY ∧ IsMinority soY 1 0 ∧ exDraws.OK ∧ (∀ i j, 0 < exDraws.simplexU i j) ∧
    soPar.ss.gaussian = .none ∧ soPar.ss.within = .random ∧ soPar.ss.simplexSampling = .random ∧ 1 ≤ soPar.ss.nDim ∧
    2 < soY.count 1 ∧ 0 < requested soPar.proportion (soY.count 0) (soY.count 1) := by
  refine ⟨⟨by decide, by decide +kernel⟩, ⟨by decide, by decide, by decide, Or.inl (by decide)⟩, exDraws_ok,
    by intro i j; simp only [exDraws]; positivity, rfl, rfl, rfl, by decide, by decide, by decide +kernel⟩

end Verif

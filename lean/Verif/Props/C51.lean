import Verif.Model.Regions
import Verif.Lemmas.SelTotal
import Verif.Lemmas.SimplexAlg
import Verif.Lemmas.SmoteExample
import Verif.Props.C34
import Verif.Props.C47

/-!
# C51: AND_SMOTE restricts every minority row to its own neighbourhood
-/

namespace Verif

/-! ## Specification -/

/-- Every coordinate of `x` lies between those of `p` and `q`. -/
def BoxBetween (p q x : Row) : Prop :=
  ∀ (t : Nat) (a b c : ℚ), p[t]? = some a → q[t]? = some b → x[t]? = some c → min a b ≤ c ∧ c ≤ max a b

/-- The row number `v`, labelled `l`, belongs to a region of row `i`: the region of a position `j` of `js` in the neighbour list
consists of the neighbours up to position `j` in the box spanned by row `i` and its `j`-th neighbour. -/
def InRegions (X : List Row) (y : List Int) (i : Nat) (nbs js : List Nat) (l : Int) (v : Nat) : Prop :=
  ∃ j ∈ js, ∃ (t w : Nat) (p q x : Row), t ≤ j ∧ nbs[t]? = some v ∧ nbs[j]? = some w ∧ y[v]? = some l ∧
    X[i]? = some p ∧ X[w]? = some q ∧ X[v]? = some x ∧ BoxBetween p q x

/-- The positions, from 1 on, of the neighbours that are not labelled `b`. -/
def otherPositions (y : List Int) (b : Int) (nbs : List Nat) : List Nat :=
  (List.range' 1 (nbs.length - 1)).filter (fun j => decide ((nbs[j]?.bind (fun v => y[v]?)) ≠ some b))

/-- `c` is the number of the positions up to which row `i` is used: zero with less than two minority neighbours; otherwise
the precisions of the growing regions drop most before region number `c`. -/
def IsKappa (X : List Row) (y : List Int) (a b : Int) (i : Nat) (nbs : List Nat) (c : Nat) : Prop :=
  ((otherPositions y b nbs).length ≤ 1 ∧ c = 0) ∨
  (2 ≤ c ∧ c ≤ (otherPositions y b nbs).length ∧
    ∃ (S T : Nat → Finset Nat),
      (∀ t v, t < (otherPositions y b nbs).length → (v ∈ S t ↔ InRegions X y i nbs ((otherPositions y b nbs).take (t + 1)) a v)) ∧
      (∀ t v, t < (otherPositions y b nbs).length → (v ∈ T t ↔ InRegions X y i nbs ((otherPositions y b nbs).take (t + 1)) b v)) ∧
      ∀ t, t + 1 < (otherPositions y b nbs).length →
        ((S (c - 1)).card : ℚ) / ((S (c - 1)).card + (T (c - 1)).card)
            - ((S (c - 2)).card : ℚ) / ((S (c - 2)).card + (T (c - 2)).card)
          ≤ ((S (t + 1)).card : ℚ) / ((S (t + 1)).card + (T (t + 1)).card)
            - ((S t).card : ℚ) / ((S t).card + (T t).card))

/-! ## The regions -/

theorem inBox_iff {p q x : Row} : inBox p q x = true ↔ BoxBetween p q x := by
  unfold inBox BoxBetween
  rw [List.all_eq_true]
  constructor
  · intro h t a b c ha hb hc
    have hm : ((a, b), c) ∈ List.zip (List.zip p q) x := by
      apply List.mem_of_getElem? (i := t)
      rw [List.getElem?_zip_eq_some, List.getElem?_zip_eq_some]
      exact ⟨⟨ha, hb⟩, hc⟩
    have := h _ hm
    simpa using this
  · rintro h ⟨⟨a, b⟩, c⟩ hm
    obtain ⟨t, ht⟩ := List.mem_iff_getElem?.1 hm
    rw [List.getElem?_zip_eq_some, List.getElem?_zip_eq_some] at ht
    have := h t a b c ht.1.1 ht.1.2 ht.2
    simpa using this

theorem mem_zip_take {α : Type} {X : List α} {y : List Int} {reg : List Nat} {rows : List α} {ls : List Int}
    (h1 : takeRows X reg = .ok rows) (h2 : takeRows y reg = .ok ls) {v : Nat} {x : α} {l : Int} :
    (v, x, l) ∈ List.zip reg (List.zip rows ls) ↔ v ∈ reg ∧ X[v]? = some x ∧ y[v]? = some l := by
  have f1 := takeRows_forall h1
  have f2 := takeRows_forall h2
  clear h1 h2
  induction reg generalizing rows ls with
  | nil => simp
  | cons a reg ih =>
    cases f1 with
    | @cons _ b _ rows hb f1 =>
      cases f2 with
      | @cons _ c _ ls hc f2 =>
        simp only [List.zip_cons_cons, List.mem_cons, Prod.mk.injEq, ih f1 f2]
        constructor
        · rintro (⟨rfl, rfl, rfl⟩ | ⟨h, h', h''⟩)
          · exact ⟨.inl rfl, hb, hc⟩
          · exact ⟨.inr h, h', h''⟩
        · rintro ⟨rfl | h, h', h''⟩
          · rw [hb] at h'; rw [hc] at h''
            injection h' with h'; injection h'' with h''
            exact .inl ⟨rfl, h'.symm, h''.symm⟩
          · exact .inr ⟨h, h', h''⟩

theorem rMinMaj_spec {X : List Row} {y : List Int} {a b : Int} {i : Nat} {nbs : List Nat} {j : Nat}
    {r : Finset Nat × Finset Nat} (h : rMinMaj X y a b i nbs j = .ok r) :
    (∀ v, v ∈ r.1 ↔ InRegions X y i nbs [j] a v) ∧ (∀ v, v ∈ r.2 ↔ InRegions X y i nbs [j] b v) := by
  unfold rMinMaj at h
  rw [bind_ok] at h
  obtain ⟨p, hp, h⟩ := h
  rw [bind_ok] at h
  obtain ⟨q, hq, h⟩ := h
  rw [bind_ok] at hq
  obtain ⟨w, hw, hq⟩ := hq
  dsimp only at h
  rw [bind_ok] at h
  obtain ⟨rows, hrows, h⟩ := h
  rw [bind_ok] at h
  obtain ⟨ls, hls, h⟩ := h
  simp only [pure_ok] at h
  have hp := getRow_ok.1 hp
  have hq := getRow_ok.1 hq
  have hw := getRow_ok.1 hw
  have key : ∀ (l : Int) (v : Nat), v ∈ ((((List.zip (nbs.take (j + 1)) (List.zip rows ls)).filter
      (fun t => inBox p q t.2.1)).filter (fun t => decide (t.2.2 = l))).map Prod.fst) ↔ InRegions X y i nbs [j] l v := by
    intro l v
    rw [List.mem_map]
    constructor
    · rintro ⟨⟨v', x, l'⟩, hm, rfl⟩
      rw [List.mem_filter, List.mem_filter] at hm
      obtain ⟨⟨hm, hbox⟩, hl⟩ := hm
      simp only [decide_eq_true_eq] at hl
      subst hl
      obtain ⟨hm, hx, hy⟩ := (mem_zip_take hrows hls).1 hm
      obtain ⟨t, ht⟩ := List.mem_iff_getElem?.1 hm
      rw [List.getElem?_take] at ht
      split at ht
      · rename_i htj
        exact ⟨j, by simp, t, w, p, q, x, by omega, ht, hw, hy, hp, hq, hx, inBox_iff.1 hbox⟩
      · simp at ht
    · rintro ⟨j', hj', t, w', p', q', x, htj, ht, hw', hy, hp', hq', hx, hbox⟩
      rw [List.mem_singleton] at hj'
      subst hj'
      rw [hw] at hw'; injection hw' with hw'; subst hw'
      rw [hp] at hp'; injection hp' with hp'; subst hp'
      rw [hq] at hq'; injection hq' with hq'; subst hq'
      refine ⟨(v, x, l), ?_, rfl⟩
      rw [List.mem_filter, List.mem_filter]
      refine ⟨⟨(mem_zip_take hrows hls).2 ⟨?_, hx, hy⟩, inBox_iff.2 hbox⟩, by simp⟩
      apply List.mem_of_getElem? (i := t)
      rw [List.getElem?_take, if_pos (by omega), ht]
  subst h
  refine ⟨fun v => ?_, fun v => ?_⟩
  · rw [List.mem_toFinset]; exact key a v
  · rw [List.mem_toFinset]; exact key b v

theorem inRegions_append {X : List Row} {y : List Int} {i : Nat} {nbs js ks : List Nat} {l : Int} {v : Nat} :
    InRegions X y i nbs (js ++ ks) l v ↔ InRegions X y i nbs js l v ∨ InRegions X y i nbs ks l v := by
  unfold InRegions
  constructor
  · rintro ⟨j, hj, h⟩
    rcases List.mem_append.1 hj with hj | hj
    · exact .inl ⟨j, hj, h⟩
    · exact .inr ⟨j, hj, h⟩
  · rintro (⟨j, hj, h⟩ | ⟨j, hj, h⟩)
    · exact ⟨j, List.mem_append_left _ hj, h⟩
    · exact ⟨j, List.mem_append_right _ hj, h⟩

/-- What the accumulator stands for: the regions of the positions `pre`, none when `pre` is empty. -/
def AccOK (X : List Row) (y : List Int) (a b : Int) (i : Nat) (nbs pre : List Nat) (acc : Option (Finset Nat × Finset Nat)) : Prop :=
  (acc = none ∧ pre = []) ∨ ∃ r, acc = some r ∧ (∀ v, v ∈ r.1 ↔ InRegions X y i nbs pre a v) ∧
    (∀ v, v ∈ r.2 ↔ InRegions X y i nbs pre b v)

theorem andRegions_spec {X : List Row} {y : List Int} {a b : Int} {i : Nat} {nbs : List Nat} :
    ∀ (js pre : List Nat) (acc : Option (Finset Nat × Finset Nat)) (out : List (Finset Nat × Finset Nat)),
    AccOK X y a b i nbs pre acc → andRegions X y a b i nbs js acc = .ok out →
    out.length = (js.filter (fun j => decide ((nbs[j]?.bind (fun v => y[v]?)) ≠ some b))).length ∧
    ∀ (t : Nat) (r : Finset Nat × Finset Nat), out[t]? = some r →
      (∀ v, v ∈ r.1 ↔ InRegions X y i nbs
        (pre ++ (js.filter (fun j => decide ((nbs[j]?.bind (fun v => y[v]?)) ≠ some b))).take (t + 1)) a v) ∧
      (∀ v, v ∈ r.2 ↔ InRegions X y i nbs
        (pre ++ (js.filter (fun j => decide ((nbs[j]?.bind (fun v => y[v]?)) ≠ some b))).take (t + 1)) b v) := by
  intro js
  induction js with
  | nil =>
    intro pre acc out _ h
    simp only [andRegions] at h
    injection h with h
    subst h
    simp
  | cons j js ih =>
    intro pre acc out hacc h
    simp only [andRegions] at h
    rw [bind_ok] at h
    obtain ⟨v, hv, h⟩ := h
    rw [bind_ok] at h
    obtain ⟨l, hl, h⟩ := h
    have hb : (nbs[j]?.bind (fun v => y[v]?)) = some l := by
      rw [getRow_ok.1 hv]; exact getRow_ok.1 hl
    split at h
    · rename_i hlb
      subst hlb
      rw [List.filter_cons, if_neg (by rw [hb]; simp)]
      exact ih pre acc out hacc h
    · rename_i hlb
      rw [bind_ok] at h
      obtain ⟨r, hr, h⟩ := h
      rw [bind_ok] at h
      obtain ⟨rest, hrest, h⟩ := h
      simp only [pure_ok] at h
      rw [List.filter_cons, if_pos (by rw [hb]; simpa using hlb)]
      set F := js.filter (fun j => decide ((nbs[j]?.bind (fun v => y[v]?)) ≠ some b)) with hF
      obtain ⟨r1, r2⟩ := rMinMaj_spec hr
      set r' := (match acc with
        | none => r
        | some a => (a.1 ∪ r.1, a.2 ∪ r.2)) with hr'
      have hr'1 : (∀ v, v ∈ r'.1 ↔ InRegions X y i nbs (pre ++ [j]) a v) ∧
          (∀ v, v ∈ r'.2 ↔ InRegions X y i nbs (pre ++ [j]) b v) := by
        rcases hacc with ⟨rfl, rfl⟩ | ⟨q, rfl, q1, q2⟩
        · exact ⟨r1, r2⟩
        · constructor
          · intro v
            show v ∈ q.1 ∪ r.1 ↔ _
            rw [Finset.mem_union, q1, r1, inRegions_append]
          · intro v
            show v ∈ q.2 ∪ r.2 ↔ _
            rw [Finset.mem_union, q2, r2, inRegions_append]
      obtain ⟨i1, i2⟩ := ih (pre ++ [j]) (some r') rest (.inr ⟨r', rfl, hr'1.1, hr'1.2⟩) hrest
      subst h
      refine ⟨by simp [i1], ?_⟩
      intro t s hs
      cases t with
      | zero =>
        simp only [List.getElem?_cons_zero, Option.some.injEq] at hs
        subst hs
        simp only [Nat.zero_add, List.take_succ_cons, List.take_zero]
        exact hr'1
      | succ t =>
        simp only [List.getElem?_cons_succ] at hs
        have := i2 t s hs
        rw [List.take_succ_cons, show pre ++ j :: F.take (t + 1) = pre ++ [j] ++ F.take (t + 1) by simp]
        exact this

theorem exists_least {l : List ℚ} (hne : l ≠ []) : ∃ x ∈ l, ∀ z ∈ l, x ≤ z := by
  induction l with
  | nil => exact absurd rfl hne
  | cons a l ih =>
    by_cases hl : l = []
    · subst hl; exact ⟨a, by simp, by simp⟩
    · obtain ⟨x, hx, h⟩ := ih hl
      rcases le_total a x with hax | hax
      · refine ⟨a, by simp, fun z hz => ?_⟩
        rcases List.mem_cons.1 hz with rfl | hz
        · exact le_refl _
        · exact le_trans hax (h z hz)
      · refine ⟨x, by simp [hx], fun z hz => ?_⟩
        rcases List.mem_cons.1 hz with rfl | hz
        · exact hax
        · exact h z hz

theorem argminIdx_spec {l : List ℚ} (hne : l ≠ []) :
    argminIdx l < l.length ∧ ∀ z ∈ l, l.getD (argminIdx l) 0 ≤ z := by
  have hex : ∃ x ∈ l, l.all (fun z => decide (x ≤ z)) = true := by
    obtain ⟨x, hx, hmin⟩ := exists_least hne
    exact ⟨x, hx, by rw [List.all_eq_true]; intro z hz; simpa using hmin z hz⟩
  have hlt : argminIdx l < l.length := by
    unfold argminIdx
    rw [List.findIdx_lt_length]
    exact hex
  refine ⟨hlt, ?_⟩
  have h := List.findIdx_getElem (p := fun x => l.all (fun z => decide (x ≤ z))) (xs := l) (w := hlt)
  rw [List.all_eq_true] at h
  intro z hz
  have := h z hz
  rw [List.getD_eq_getElem?_getD, List.getElem?_eq_getElem hlt]
  simp only [decide_eq_true_eq] at this
  exact this

theorem diffs_length (l : List ℚ) : (diffs l).length = l.length - 1 := by
  unfold diffs
  rw [List.length_zipWith, List.length_tail]; omega

theorem diffs_get {l : List ℚ} {t : Nat} (h : t + 1 < l.length) : (diffs l)[t]? = some (l.getD (t + 1) 0 - l.getD t 0) := by
  unfold diffs
  rw [List.getElem?_zipWith, List.getElem?_tail, List.getElem?_eq_getElem (by omega : t < l.length),
    List.getElem?_eq_getElem h]
  simp [List.getD_eq_getElem?_getD, List.getElem?_eq_getElem (by omega : t < l.length), List.getElem?_eq_getElem h]

/-- The number computed for a row is the one described. -/
theorem C51_kappa {X : List Row} {y : List Int} {a b : Int} {i : Nat} {nbs : List Nat} {c : Nat}
    (h : andKappa X y a b i nbs = .ok c) : IsKappa X y a b i nbs c := by
  unfold andKappa at h
  rw [bind_ok] at h
  obtain ⟨regs, hregs, h⟩ := h
  simp only [pure_ok] at h
  obtain ⟨hl, hs⟩ := andRegions_spec _ [] none regs (.inl ⟨rfl, rfl⟩) hregs
  change regs.length = (otherPositions y b nbs).length at hl
  set prec := regs.map (fun r => (r.1.card : ℚ) / ((r.1.card : ℚ) + (r.2.card : ℚ))) with hprec
  have hpl : prec.length = (otherPositions y b nbs).length := by rw [hprec, List.length_map, hl]
  have hdl := diffs_length prec
  by_cases h0 : (diffs prec).length = 0
  · rw [if_pos h0] at h
    left
    exact ⟨by omega, h.symm⟩
  · rw [if_neg h0] at h
    right
    obtain ⟨hlt, hmin⟩ := argminIdx_spec (l := diffs prec) (by intro he; rw [he] at h0; simp at h0)
    refine ⟨by omega, by omega, fun t => (regs.getD t (∅, ∅)).1, fun t => (regs.getD t (∅, ∅)).2, ?_, ?_, ?_⟩
    · intro t v ht
      have hg := List.getElem?_eq_getElem (by omega : t < regs.length)
      simp only [List.getD_eq_getElem?_getD, hg, Option.getD_some]
      exact (hs t _ hg).1 v
    · intro t v ht
      have hg := List.getElem?_eq_getElem (by omega : t < regs.length)
      simp only [List.getD_eq_getElem?_getD, hg, Option.getD_some]
      exact (hs t _ hg).2 v
    · intro t ht
      have hp : ∀ t, t < regs.length → prec.getD t 0 = ((regs.getD t (∅, ∅)).1.card : ℚ) /
          ((regs.getD t (∅, ∅)).1.card + (regs.getD t (∅, ∅)).2.card) := by
        intro t ht
        rw [hprec, List.getD_eq_getElem?_getD, List.getElem?_map, List.getD_eq_getElem?_getD,
          List.getElem?_eq_getElem ht]
        rfl
      have h1 := diffs_get (l := prec) (t := argminIdx (diffs prec)) (by omega)
      have h2 := diffs_get (l := prec) (t := t) (by omega)
      have := hmin _ (List.mem_of_getElem? h2)
      rw [List.getD_eq_getElem?_getD, h1, Option.getD_some, hp _ (by omega), hp _ (by omega), hp _ (by omega), hp _ (by omega)] at this
      subst h
      simpa using this

/-! ## The oversampler -/

/-- The rows of a class stand at the positions of its label. -/
theorem labelPositions_rows {α : Type} {X : List α} {y : List Int} (h : X.length = y.length) (l : Int) :
    List.Forall₂ (fun i x => X[i]? = some x) (labelPositions y l) (classRows X y l) := by
  induction X generalizing y with
  | nil => cases y with
    | nil => exact .nil
    | cons b y => simp at h
  | cons x X ih => cases y with
    | nil => simp at h
    | cons b y =>
      have ih := ih (y := y) (by simpa using h)
      have hpos : labelPositions (b :: y) l = (if b = l then [0] else []) ++ (labelPositions y l).map (· + 1) := by
        unfold labelPositions
        rw [List.length_cons, List.range_succ_eq_map, List.filter_cons, List.filter_map]
        by_cases hb : b = l
        · simp [hb]; rfl
        · simp [hb]; rfl
      have hrows : classRows (x :: X) (b :: y) l = (if b = l then [x] else []) ++ classRows X y l := by
        unfold classRows
        rw [List.zip_cons_cons, List.filter_cons]
        by_cases hb : b = l <;> simp [hb]
      rw [hpos, hrows]
      apply List.rel_append
      · by_cases hb : b = l
        · rw [if_pos hb, if_pos hb]; exact .cons (by simp) .nil
        · rw [if_neg hb, if_neg hb]; exact .nil
      · rw [List.forall₂_map_left_iff]
        exact ih.imp (fun i x hx => by simpa using hx)

/-- The neighbour table by which AND_SMOTE describes the rows. -/
def andTab (par : NbParams) (knn : Nat → List Row → List Row → List (List Nat)) (X : List Row) (nMin : Nat) : List (List Nat) :=
  knn (min nMin par.nNeighbors) X X

/-- Row number `i` of the data set is used up to `c` of its neighbours. -/
def KappaAt (par : NbParams) (knn : Nat → List Row → List Row → List (List Nat)) (X : List Row) (y : List Int) (a b : Int)
    (i c : Nat) : Prop :=
  ∃ nbs, (andTab par knn X (y.count a))[i]? = some nbs ∧ IsKappa X y a b i nbs c

/-- `x` is a convex combination of a minority row with at least two minority neighbours, and of those minority rows that stand
at the positions 1 to `c` of its list of nearest minority rows, where `c` is the number of that row. -/
def AndGenerated (par : NbParams) (knn : Nat → List Row → List Row → List (List Nat)) (d : Nat) (X : List Row) (y : List Int)
    (a b : Int) (x : Row) : Prop :=
  ∃ (j i c K : Nat) (base : Row) (row ps vs : List Nat) (nbrs : List Row) (w : List ℚ),
    (classRows X y a)[j]? = some base ∧ X[i]? = some base ∧ y[i]? = some a ∧ KappaAt par knn X y a b i c ∧ 2 ≤ c ∧
    c < K ∧ K ≤ y.count a ∧ (knn K (classRows X y a) (classRows X y a))[j]? = some row ∧ (∀ p ∈ ps, 1 ≤ p ∧ p ≤ c) ∧ ps.Nodup ∧
    List.Forall₂ (fun p v => row[p]? = some v) ps vs ∧
    List.Forall₂ (fun v r => (classRows X y a)[v]? = some r) vs nbrs ∧ IsConvexComb d w (base :: nbrs) x

theorem andKappas_get {X : List Row} {y : List Int} {a b : Int} {ind : List (List Nat)} {kappa : List Nat}
    (h : andKappas X y a b ind = .ok kappa) {j c : Nat} (hc : kappa[j]? = some c) :
    ∃ i nbs, (labelPositions y a)[j]? = some i ∧ ind[i]? = some nbs ∧ IsKappa X y a b i nbs c := by
  unfold andKappas at h
  have hf := mapM_ok_iff.1 h
  rw [List.forall₂_iff_get] at hf
  obtain ⟨hj, rfl⟩ := List.getElem?_eq_some_iff.1 hc
  have hjl : j < (labelPositions y a).length := by rw [hf.1]; exact hj
  have := hf.2 j hjl hj
  rw [bind_ok] at this
  obtain ⟨nbs, hn, hk⟩ := this
  exact ⟨_, nbs, List.getElem?_eq_getElem hjl, getRow_ok.1 hn, C51_kappa hk⟩

theorem andWeights_pos {kappa : List Nat} {k j p : Nat} {r : List ℚ} {q : ℚ} (hr : (andWeights kappa k)[j]? = some r)
    (hq : r[p]? = some q) (hp : 0 < q) : ∃ c, kappa[j]? = some c ∧ c ≠ 0 ∧ p ≤ c := by
  unfold andWeights at hr
  rw [List.getElem?_map] at hr
  cases hc : kappa[j]? with
  | none => rw [hc] at hr; simp at hr
  | some c =>
    rw [hc] at hr
    simp at hr
    refine ⟨c, rfl, ?_⟩
    rw [← hr, List.getElem?_map] at hq
    cases hp' : (List.range k)[p]? with
    | none => rw [hp'] at hq; simp at hq
    | some p' =>
      have : p' = p := by
        obtain ⟨h1, h2⟩ := List.getElem?_eq_some_iff.1 hp'
        rw [← h2, List.getElem_range]
      subst this
      rw [hp'] at hq
      simp only [Option.map_some, Option.some.injEq] at hq
      by_cases h0 : c = 0
      · rw [if_pos h0] at hq; rw [← hq] at hp; exact absurd hp (lt_irrefl _)
      · rw [if_neg h0] at hq
        by_cases h1 : c + 1 ≤ p'
        · rw [if_pos h1] at hq; rw [← hq] at hp; exact absurd hp (lt_irrefl _)
        · exact ⟨h0, by omega⟩

theorem andWeights_nonneg {kappa : List Nat} {k : Nat} : ∀ r ∈ andWeights kappa k, k ≤ r.length ∧ ∀ x ∈ r, 0 ≤ x := by
  intro r hr
  unfold andWeights at hr
  rw [List.mem_map] at hr
  obtain ⟨c, _, rfl⟩ := hr
  refine ⟨by simp, ?_⟩
  intro x hx
  rw [List.mem_map] at hx
  obtain ⟨p, _, rfl⟩ := hx
  split
  · exact le_refl _
  · split <;> norm_num

theorem andWeights_one {kappa : List Nat} {k j p c : Nat} (hc : kappa[j]? = some c) (h0 : c ≠ 0) (hp : p ≤ c) (hpk : p < k) :
    ∃ r, (andWeights kappa k)[j]? = some r ∧ r[p]? = some 1 := by
  unfold andWeights
  refine ⟨_, by rw [List.getElem?_map, hc]; rfl, ?_⟩
  rw [List.getElem?_map, List.getElem?_eq_getElem (by simpa using hpk)]
  simp [h0]; omega

theorem otherPositions_le {y : List Int} {b : Int} {nbs : List Nat} : (otherPositions y b nbs).length ≤ nbs.length - 1 := by
  unfold otherPositions
  refine le_trans (List.length_filter_le _ _) ?_
  simp

theorem kappa_le {X : List Row} {y : List Int} {a b : Int} {i : Nat} {nbs : List Nat} {c : Nat} (h : IsKappa X y a b i nbs c) :
    c ≤ nbs.length - 1 := by
  rcases h with ⟨_, rfl⟩ | ⟨_, h, _⟩
  · omega
  · exact le_trans h otherPositions_le

theorem kappa_zero_iff {X : List Row} {y : List Int} {a b : Int} {i : Nat} {nbs : List Nat} {c : Nat}
    (h : IsKappa X y a b i nbs c) : c = 0 ↔ (otherPositions y b nbs).length ≤ 1 := by
  rcases h with ⟨h1, rfl⟩ | ⟨h2, h, _⟩
  · simp [h1]
  · constructor <;> intro h' <;> omega

theorem foldr_max_le {l : List Nat} {m : Nat} (h : ∀ x ∈ l, x ≤ m) : l.foldr max 0 ≤ m := by
  induction l with
  | nil => simp
  | cons a l ih =>
    have h1 := h a (by simp)
    have h2 := ih (fun x hx => h x (by simp [hx]))
    simp; omega

theorem foldr_max_mem {l : List Nat} (hne : l ≠ []) : l.foldr max 0 ∈ l := by
  induction l with
  | nil => exact absurd rfl hne
  | cons a l ih =>
    by_cases hl : l = []
    · subst hl; simp
    · have := ih hl
      rw [List.foldr_cons]
      rcases le_total a (l.foldr max 0) with h | h
      · rw [max_eq_right h]; simp [this]
      · rw [max_eq_left h]; simp

theorem nat_sum_zero {l : List Nat} : l.sum = 0 ↔ ∀ x ∈ l, x = 0 := by
  induction l with
  | nil => simp
  | cons a l ih => simp [ih]

/-- No minority row has two neighbours that are not majority rows. -/
def AndSkips (par : NbParams) (knn : Nat → List Row → List Row → List (List Nat)) (X : List Row) (y : List Int) (a b : Int) : Prop :=
  ∀ (i : Nat) (nbs : List Nat), y[i]? = some a → (andTab par knn X (y.count a))[i]? = some nbs → (otherPositions y b nbs).length ≤ 1

/-- The kappa values of a data set: none is positive exactly when AND_SMOTE skips, and each is less than the number of minority
rows. -/
theorem andKappas_facts {par : NbParams} {knn : Nat → List Row → List Row → List (List Nat)} {X : List Row} {y : List Int}
    {a b : Int} {kappa : List Nat} (hxy : X.length = y.length) (hk : KnnQueryOK knn) (ha : 0 < y.count a)
    (h : andKappas X y a b (andTab par knn X (y.count a)) = .ok kappa) :
    kappa.length = y.count a ∧ (kappa.sum = 0 ↔ AndSkips par knn X y a b) ∧ kappa.foldr max 0 + 1 ≤ y.count a := by
  have hcl : y.count a ≤ y.length := List.count_le_length
  obtain ⟨ht1, ht2⟩ := hk (min (y.count a) par.nNeighbors) X X (by omega)
  have hpl : (labelPositions y a).length = y.count a := by
    rw [(labelPositions_rows hxy a).length_eq, ← selectLabel_eq_classRows, selectLabel_length hxy]
  have hkl : kappa.length = y.count a := by
    unfold andKappas at h
    rw [mapM_ok_length h, hpl]
  refine ⟨hkl, ?_, ?_⟩
  · rw [nat_sum_zero]
    constructor
    · intro hz i nbs hi hn
      have hm := mem_labelPositions.2 hi
      obtain ⟨j, hj⟩ := List.mem_iff_getElem?.1 hm
      have hjk : j < kappa.length := by
        rw [hkl, ← hpl]; exact (List.getElem?_eq_some_iff.1 hj).1
      obtain ⟨i', nbs', hi', hn', hkap⟩ := andKappas_get h (List.getElem?_eq_getElem hjk)
      rw [hj] at hi'; injection hi' with hi'; subst hi'
      rw [hn] at hn'; injection hn' with hn'; subst hn'
      exact (kappa_zero_iff hkap).1 (hz _ (List.getElem_mem _))
    · intro hs c hc
      obtain ⟨j, hj⟩ := List.mem_iff_getElem?.1 hc
      obtain ⟨i, nbs, hi, hn, hkap⟩ := andKappas_get h hj
      exact (kappa_zero_iff hkap).2 (hs i nbs (mem_labelPositions.1 (List.mem_of_getElem? hi)) hn)
  · have : kappa.foldr max 0 ≤ y.count a - 1 := by
      apply foldr_max_le
      intro c hc
      obtain ⟨j, hj⟩ := List.mem_iff_getElem?.1 hc
      obtain ⟨i, nbs, hi, hn, hkap⟩ := andKappas_get h hj
      have h1 := kappa_le hkap
      have h2 := (ht2 nbs (List.mem_of_getElem? hn)).1
      omega
    omega

/-- **AND_SMOTE**: the input is returned unchanged when no minority row has two minority neighbours; otherwise exactly the
requested number of rows is added, each inside the neighbourhood that was determined for its base row. -/
theorem C51_and_smote {par : NbParams} {vol : List Row → ℚ} {dr : Draws} {d : Nat}
    {knn : Nat → List Row → List Row → List (List Nat)} {X X' : List Row} {y y' : List Int} {a b : Int} (hwf : WF d X y)
    (hk : KnnQueryOK knn) (hdr : dr.OK) (hmin : IsMinority y a b) (hg : par.ss.gaussian = .none) (hd2 : 2 ≤ par.ss.nDim)
    (hvol : ∀ vs, 0 ≤ vol vs) (h3 : 2 < y.count a)
    (h : sample defaultChecks d (andSmoteAlg par vol dr d knn) X y = .ok (X', y')) :
    (AndSkips par knn X y a b → X' = X ∧ y' = y) ∧
    (¬ AndSkips par knn X y a b →
      OversampledBy X y a (requested par.proportion (y.count b) (y.count a)) (AndGenerated par knn d X y a b) X' y') := by
  obtain ⟨s, hs, rfl, rfl⟩ := stats_of_isMinority hmin
  obtain ⟨hm, hM, hne⟩ := stats_min_mem hs
  rw [sample_default hs, if_neg (by omega)] at h
  unfold andSmoteAlg at h
  rw [stats_count hs hm, stats_count hs hM, detN_eq_requested, ok_bind] at h
  set n := requested par.proportion (y.count s.majLabel) (y.count s.minLabel) with hnd
  by_cases hn0 : n = 0
  · rw [if_pos hn0] at h
    simp only [pure_ok, Prod.mk.injEq] at h
    obtain ⟨rfl, rfl⟩ := h
    refine ⟨fun _ => ⟨rfl, rfl⟩, fun _ => ?_⟩
    rw [hn0]; exact oversampledBy_none _ _ _ _
  rw [if_neg hn0] at h
  dsimp only at h
  have hl := selectLabel_length hwf.1 s.minLabel
  have hxy := hwf.1
  rw [selectLabel_eq_classRows] at h hl
  set A := classRows X y s.minLabel with hA
  rw [hl, bind_ok] at h
  obtain ⟨kappa, hkap, h⟩ := h
  obtain ⟨hkl, hz, hmax⟩ := andKappas_facts (par := par) hxy hk (by omega) hkap
  by_cases hrz : kappa.sum = 0
  · rw [if_pos hrz] at h
    simp only [pure_ok, Prod.mk.injEq] at h
    exact ⟨fun _ => ⟨h.1.symm, h.2.symm⟩, fun hsk => absurd (hz.1 hrz) hsk⟩
  rw [if_neg hrz] at h
  rw [bind_ok] at h
  obtain ⟨out, hout, h⟩ := h
  simp only [pure_ok] at h
  refine ⟨fun hsk => absurd (hz.2 hsk) hrz, fun _ => ?_⟩
  have hAX : ∀ x ∈ A, x ∈ X := by
    intro x hx
    rw [hA, ← selectLabel_eq_classRows] at hx
    exact selectLabel_mem hx
  have hXd : ∀ x ∈ A, x.length = d := fun x hx => hwf.2 x (hAX x hx)
  obtain ⟨hk2, _⟩ := hk (kappa.foldr max 0 + 1) A A (by omega)
  obtain ⟨g1, g2⟩ := sampleSimplex_weighted (cap := fun _ => 1) hXd (by intro V hV; cases hV) (by intro V hV; cases hV)
    (by intro hV; cases hV) hdr (le_of_eq hk2) hg (by intro w hw; cases hw)
    (by
      intro m hm r hr x hx
      injection hm with hm
      subst hm
      exact (andWeights_nonneg r hr).2 x hx) hvol ⟨fun _ _ => le_refl _, by intro ws hws; cases hws⟩ hout
  refine withSamples_oversampledBy g1 ?_ h
  intro x hx
  obtain ⟨j, ps, vs, ⟨⟨row, hrow, hpv⟩, hps, hpl, _, hsw⟩, base, nbrs, w0, wr, hbase, hnb, hcx, _⟩ := g2 x hx
  obtain ⟨r, hr, hrp⟩ := hsw _ rfl
  -- there is a neighbour
  have hkpos : 2 ≤ min par.ss.nDim (kappa.foldr max 0 + 1) := by
    have : 1 ≤ kappa.foldr max 0 := by
      by_contra hc
      apply hrz
      rw [nat_sum_zero]
      intro x hx
      have := foldr_max_ge hx
      omega
    omega
  obtain ⟨p0, hp0⟩ : ∃ p0, p0 ∈ ps := by
    cases ps with
    | nil => simp at hpl; omega
    | cons p ps => exact ⟨p, by simp⟩
  obtain ⟨q0, hq0, hq0p⟩ := hrp p0 hp0
  obtain ⟨c, hc, hc0, _⟩ := andWeights_pos hr hq0 hq0p
  obtain ⟨i, nbs, hi, hn, hkap'⟩ := andKappas_get hkap hc
  have hrows := labelPositions_rows hxy s.minLabel
  rw [List.forall₂_iff_get] at hrows
  obtain ⟨hjl, hji⟩ := List.getElem?_eq_some_iff.1 hi
  obtain ⟨hjA, hjb⟩ := List.getElem?_eq_some_iff.1 hbase
  have hXi := hrows.2 j hjl hjA
  simp only [List.get_eq_getElem] at hXi
  rw [hji] at hXi
  have hc2 : 2 ≤ c := by
    rcases hkap' with ⟨_, h⟩ | ⟨h, _⟩
    · exact absurd h hc0
    · exact h
  have hcm := foldr_max_ge (List.mem_of_getElem? hc)
  refine ⟨j, i, c, kappa.foldr max 0 + 1, base, row, ps, vs, nbrs, w0 :: wr, hbase, ?_,
    mem_labelPositions.1 (List.mem_of_getElem? hi), ⟨nbs, hn, hkap'⟩, hc2, by omega, hmax, hrow, ?_,
    hps.nodup (List.nodup_range' (h := by omega)), hpv, hnb, hcx⟩
  · rw [hXi]
    exact congrArg some hjb
  · intro p hp
    obtain ⟨q, hq, hqp⟩ := hrp p hp
    obtain ⟨c', hc', _, hpc⟩ := andWeights_pos hr hq hqp
    rw [hc] at hc'; injection hc' with hc'; subst hc'
    have := hps.subset hp
    rw [List.mem_range'] at this
    omega

/-- AND_SMOTE never raises on a two-class data set. -/
theorem C51_total {par : NbParams} {vol : List Row → ℚ} {dr : Draws} {d : Nat}
    {knn : Nat → List Row → List Row → List (List Nat)} {X : List Row} {y : List Int} {a b : Int} (hwf : WF d X y)
    (hk : KnnQueryOK knn) (hdr : dr.OK) (hu : ∀ i j, 0 < dr.simplexU i j) (hmin : IsMinority y a b)
    (hd : 1 ≤ par.ss.nDim) (hms : par.ss.simplexSampling = .random ∨ par.ss.simplexSampling = .deterministic)
    (hwi : par.ss.within = .random ∨ (par.ss.within = .deterministic ∧ par.ss.nDim ≤ 2)) :
    ∃ X' y', sample defaultChecks d (andSmoteAlg par vol dr d knn) X y = .ok (X', y') := by
  obtain ⟨s, hs, rfl, rfl⟩ := stats_of_isMinority hmin
  obtain ⟨hm, hM, hne⟩ := stats_min_mem hs
  rw [sample_default hs]
  by_cases h2 : y.count s.minLabel ≤ 2
  · exact ⟨X, y, by rw [if_pos h2]⟩
  rw [if_neg h2]
  unfold andSmoteAlg
  rw [stats_count hs hm, stats_count hs hM, detN_eq_requested, ok_bind]
  set n := requested par.proportion (y.count s.majLabel) (y.count s.minLabel) with hnd
  by_cases hn0 : n = 0
  · exact ⟨X, y, by rw [if_pos hn0]; rfl⟩
  rw [if_neg hn0]
  dsimp only
  have hl := selectLabel_length hwf.1 s.minLabel
  have hxy := hwf.1
  rw [selectLabel_eq_classRows] at hl ⊢
  set A := classRows X y s.minLabel with hA
  rw [hl]
  have hcl : y.count s.minLabel ≤ y.length := List.count_le_length
  obtain ⟨ht1, ht2⟩ := hk (min (y.count s.minLabel) par.nNeighbors) X X (by omega)
  set tab := knn (min (y.count s.minLabel) par.nNeighbors) X X with htab
  obtain ⟨kappa, hkap⟩ : ∃ kappa, andKappas X y s.minLabel s.majLabel tab = .ok kappa := by
    unfold andKappas
    apply mapM_exists_ok
    intro i hi
    have hy := mem_labelPositions.1 hi
    have hiy := (List.getElem?_eq_some_iff.1 hy).1
    have hit : i < tab.length := by omega
    rw [getRow_lt hit, ok_bind]
    obtain ⟨_, hin⟩ := ht2 tab[i] (List.getElem_mem _)
    unfold andKappa
    have hreg : ∀ (js : List Nat) (acc), (∀ j ∈ js, j < tab[i].length) →
        ∃ out, andRegions X y s.minLabel s.majLabel i tab[i] js acc = .ok out := by
      intro js
      induction js with
      | nil => intro acc _; exact ⟨[], rfl⟩
      | cons j js ih =>
        intro acc hjs
        have hj := hjs j (by simp)
        have hvX := hin tab[i][j] (List.getElem_mem _)
        have hvy : tab[i][j] < y.length := by omega
        simp only [andRegions]
        rw [getRow_lt hj, ok_bind, getRow_lt hvy, ok_bind]
        split
        · exact ih acc (fun j hj => hjs j (by simp [hj]))
        · obtain ⟨rows, hrows⟩ := takeRows_ok_of_lt (X := X) (idx := tab[i].take (j + 1))
            (fun v hv => hin v (List.mem_of_mem_take hv))
          obtain ⟨ls, hls⟩ := takeRows_ok_of_lt (X := y) (idx := tab[i].take (j + 1))
            (fun v hv => by rw [← hxy]; exact hin v (List.mem_of_mem_take hv))
          have hrm : ∃ r, rMinMaj X y s.minLabel s.majLabel i tab[i] j = .ok r := by
            unfold rMinMaj
            rw [getRow_lt (by omega), ok_bind, getRow_lt hj, ok_bind, getRow_lt hvX, ok_bind]
            dsimp only
            rw [hrows, ok_bind, hls, ok_bind]
            exact ⟨_, rfl⟩
          obtain ⟨r, hr⟩ := hrm
          rw [hr, ok_bind]
          have hjs' := fun j hj => hjs j (List.mem_cons_of_mem _ hj)
          cases acc with
          | none =>
            obtain ⟨rest, hrest⟩ := ih (some r) hjs'
            simp only
            rw [hrest]
            exact ⟨_, rfl⟩
          | some a =>
            obtain ⟨rest, hrest⟩ := ih (some (a.1 ∪ r.1, a.2 ∪ r.2)) hjs'
            simp only
            rw [hrest]
            exact ⟨_, rfl⟩
    obtain ⟨out, hout⟩ := hreg (List.range' 1 (tab[i].length - 1)) none (by
      intro j hj
      rw [List.mem_range'] at hj
      omega)
    rw [hout]
    exact ⟨_, rfl⟩
  rw [hkap, ok_bind]
  obtain ⟨hkl, hz, hmax⟩ := andKappas_facts (par := par) hxy hk (by omega) hkap
  by_cases hrz : kappa.sum = 0
  · exact ⟨X, y, by rw [if_pos hrz]; rfl⟩
  rw [if_neg hrz]
  obtain ⟨hk2, hk2t⟩ := hk (kappa.foldr max 0 + 1) A A (by omega)
  have hkne : kappa ≠ [] := by intro he; rw [he] at hkl; simp at hkl; omega
  have hsel := simplicesSel_ok_sw (mode := par.ss.simplexSampling) (vol := vol) (cu := dr.choiceU) (X := A) (n := n)
    (bw := none) (indices := knn (kappa.foldr max 0 + 1) A A) (k := kappa.foldr max 0 + 1) (Xv := none)
    (nDim := min par.ss.nDim (kappa.foldr max 0 + 1)) (m := andWeights kappa (kappa.foldr max 0 + 1))
    hk2t (le_of_eq hk2) hdr.choice
    (by
      show par.ss.simplexSampling = .random ∨ par.ss.simplexSampling = .deterministic ∨ _
      rcases hms with h | h
      · exact .inl h
      · exact .inr (.inl h))
    (by unfold andWeights; rw [List.length_map, hk2, hkl, hl]) andWeights_nonneg
    (by
      obtain ⟨j, hj⟩ := List.mem_iff_getElem?.1 (foldr_max_mem hkne)
      have hjl := (List.getElem?_eq_some_iff.1 hj).1
      have hc0 : kappa.foldr max 0 ≠ 0 := by
        intro h0
        apply hrz
        rw [nat_sum_zero]
        intro x hx
        have := foldr_max_ge hx
        omega
      refine ⟨j, List.range' 1 (min par.ss.nDim (kappa.foldr max 0 + 1) - 1), by rw [hk2]; omega, ?_, ?_, ?_, ?_⟩
      · rw [show List.range' 1 (kappa.foldr max 0 + 1 - 1) =
            (List.range' 1 (min par.ss.nDim (kappa.foldr max 0 + 1) - 1)) ++ List.range'
              (1 + (min par.ss.nDim (kappa.foldr max 0 + 1) - 1)) (kappa.foldr max 0 + 1 - 1 - (min par.ss.nDim (kappa.foldr max 0 + 1) - 1)) by
          rw [List.range'_append_1]; congr 1; omega]
        exact List.sublist_append_left _ _
      · rw [List.length_range']; omega
      · intro w hw; cases hw
      · obtain ⟨r, hr, _⟩ := andWeights_one (k := kappa.foldr max 0 + 1) (p := 0) hj hc0 (by omega) (by omega)
        refine ⟨r, hr, ?_⟩
        intro p hp
        rw [List.mem_range'] at hp
        obtain ⟨r', hr', hp'⟩ := andWeights_one (k := kappa.foldr max 0 + 1) (p := p) hj hc0 (by omega) (by omega)
        rw [hr] at hr'; injection hr' with hr'; subst hr'
        exact ⟨1, hp', one_pos⟩)
  obtain ⟨out, hout⟩ := sampleSimplex_ok_of_sel (ss := par.ss) (vol := vol) (dr := dr) (d := d) (X := A)
    (indices := knn (kappa.foldr max 0 + 1) A A) (k := kappa.foldr max 0 + 1) (n := n)
    (a := { simplexWeights := some (andWeights kappa (kappa.foldr max 0 + 1)) }) hk2t (le_of_eq hk2)
    (by intro ws hws; cases hws) (by intro hV; cases hV) hsel hu
    (by
      rcases hwi with h | ⟨h, h'⟩
      · exact .inl h
      · exact .inr ⟨h, by omega⟩)
  rw [hout]
  exact ⟨_, _, rfl⟩

/-! ## A concrete case -/

/-- Four minority rows close together, then the majority. -/
def andX : List Row := [[0], [1], [2], [3], [10], [11], [12], [13], [14], [15]]
def andY : List Int := [1, 1, 1, 1, 0, 0, 0, 0, 0, 0]
def andPar : NbParams := { proportion := 1, nNeighbors := 4, ss := exPar.ss }

example : WF 1 andX andY ∧ IsMinority andY 1 0 ∧ 2 < andY.count 1 ∧ KnnQueryOK bruteQuery ∧
    andKappas andX andY 1 0 (bruteQuery 4 andX andX) = .ok [2, 2, 2, 2] ∧
    (match sample defaultChecks 1 (andSmoteAlg andPar (fun _ => 1) exDraws 1 bruteQuery) andX andY with
     | .ok r => decide (r.1.length = 12 ∧ r.2 = andY ++ [1, 1] ∧ ∀ q ∈ r.1.drop 10, 0 ≤ q.getD 0 0 ∧ q.getD 0 0 ≤ 3)
     | .error _ => false) = true := by
  refine ⟨⟨by decide, by decide +kernel⟩, ⟨by decide, by decide, by decide, Or.inl (by decide)⟩, by decide, bruteQuery_ok,
    by decide +kernel, by decide +kernel⟩

end Verif

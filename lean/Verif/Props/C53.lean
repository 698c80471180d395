import Verif.Model.Regions
import Verif.Spec.Search
import Verif.Lemmas.SelTotal
import Verif.Props.C51
import Verif.Props.C52

/-!
# C53: ANS keeps to rows that are not outcast, and to a common radius
-/

namespace Verif

/-! ## Specification -/

/-- The distance from minority row `j` to the nearest other minority row. -/
def firstDist (dist : Row → Row → ℚ) (A : List Row) (j : Nat) : ℚ :=
  ((A.map (dist (A.getD j []))).insertionSort (· ≤ ·)).getD 1 0

/-- How many rows labelled `b` lie within that distance of minority row `j`. -/
def outerBorder (dist : Row → Row → ℚ) (X : List Row) (y : List Int) (A : List Row) (b : Int) (j : Nat) : Nat :=
  ((List.range X.length).filter
    (fun i => decide (y[i]? = some b ∧ dist (A.getD j []) (X.getD i []) ≤ firstDist dist A j))).length

/-- The outer borders of all minority rows. -/
def outerBorders (dist : Row → Row → ℚ) (X : List Row) (y : List Int) (A : List Row) (b : Int) : List Nat :=
  (List.range A.length).map (outerBorder dist X y A b)

/-- How many minority rows have an outer border of at least `c`. -/
def nOver (borders : List Nat) (c : Nat) : Nat := borders.countP (fun v => decide (c ≤ v))

/-- The change of that number against the candidate before. -/
def overChange (borders : List Nat) (c : Nat) : Int :=
  |(nOver borders c : Int) - (if c = 1 then -1 else (nOver borders (c - 1) : Int))|

/-- `C` is the number for the first of the candidates `1, ..., m - 1` with the smallest change; zero without a candidate. -/
def IsAnsC (borders : List Nat) (m C : Nat) : Prop :=
  (m ≤ 1 ∧ C = 0) ∨ ∃ c, 1 ≤ c ∧ c < m ∧ C = nOver borders c ∧
    (∀ c', 1 ≤ c' → c' < m → overChange borders c ≤ overChange borders c') ∧
    (∀ c', 1 ≤ c' → c' < c → overChange borders c < overChange borders c')

/-- Minority row `j` may be used: its outer border is less than `C`. -/
def AnsUsed (dist : Row → Row → ℚ) (X : List Row) (y : List Int) (A : List Row) (b : Int) (C j : Nat) : Prop :=
  j < A.length ∧ outerBorder dist X y A b j < C

/-- `e` is the largest of the first distances of the used rows. -/
def IsAnsEps (dist : Row → Row → ℚ) (X : List Row) (y : List Int) (A : List Row) (b : Int) (C : Nat) (e : ℚ) : Prop :=
  (∃ j, AnsUsed dist X y A b C j ∧ firstDist dist A j = e) ∧ ∀ j, AnsUsed dist X y A b C j → firstDist dist A j ≤ e

/-- `x` is a convex combination of a used minority row and of used minority rows within the radius `e` of it. -/
def AnsGenerated (dist : Row → Row → ℚ) (X : List Row) (y : List Int) (A : List Row) (b : Int) (C : Nat) (e : ℚ) (d : Nat)
    (x : Row) : Prop :=
  ∃ (j : Nat) (base : Row) (is : List Nat) (nbrs : List Row) (w : List ℚ), A[j]? = some base ∧ AnsUsed dist X y A b C j ∧
    List.Forall₂ (fun i r => A[i]? = some r) is nbrs ∧ is ≠ [] ∧ (∀ i ∈ is, AnsUsed dist X y A b C i) ∧
    (∀ r ∈ nbrs, dist base r ≤ e) ∧ IsConvexComb d w (base :: nbrs) x

/-! ## The threshold -/

theorem ansLoop_spec (borders : List Nat) : ∀ (len lo : Nat) (prev : Int) (best : Option Int) (C : Nat), 1 ≤ lo →
    prev = (if lo = 1 then -1 else (nOver borders (lo - 1) : Int)) →
    ((best = none ∧ lo = 1 ∧ C = 0) ∨ ∃ c, 1 ≤ c ∧ c < lo ∧ C = nOver borders c ∧ best = some (overChange borders c) ∧
      (∀ c', 1 ≤ c' → c' < lo → overChange borders c ≤ overChange borders c') ∧
      (∀ c', 1 ≤ c' → c' < c → overChange borders c < overChange borders c')) →
    IsAnsC borders (lo + len) (ansLoop borders (List.range' lo len) prev best C) := by
  intro len
  induction len with
  | zero =>
    intro lo prev best C hlo hprev hinv
    simp only [List.range'_zero, ansLoop]
    rcases hinv with ⟨_, h1, h2⟩ | ⟨c, h1, h2, h3, _, h4, h5⟩
    · exact .inl ⟨by omega, h2⟩
    · exact .inr ⟨c, h1, by omega, h3, fun c' e1 e2 => h4 c' e1 (by omega), h5⟩
  | succ len ih =>
    intro lo prev best C hlo hprev hinv
    rw [List.range'_succ]
    simp only [ansLoop]
    have hn : borders.countP (fun v => decide (lo ≤ v)) = nOver borders lo := rfl
    have hch : |((nOver borders lo : Nat) : Int) - prev| = overChange borders lo := by rw [hprev]; rfl
    rw [hn, hch]
    have hnext : ((nOver borders lo : Nat) : Int) = if lo + 1 = 1 then -1 else (nOver borders (lo + 1 - 1) : Int) := by
      rw [if_neg (by omega)]; rfl
    rw [show lo + (len + 1) = (lo + 1) + len by omega]
    split
    · rename_i hc
      refine ih (lo + 1) _ _ _ (by omega) hnext (.inr ⟨lo, hlo, by omega, rfl, rfl, ?_, ?_⟩)
      · intro c' e1 e2
        rcases Nat.lt_or_ge c' lo with h | h
        · rcases hinv with ⟨_, h1, _⟩ | ⟨c, h1, h2, h3, hb, h4, h5⟩
          · omega
          · rcases hc with hc | ⟨b, hb', hc⟩
            · rw [hc] at hb; cases hb
            · rw [hb] at hb'
              simp only [Option.mem_some_iff] at hb'
              have := h4 c' e1 h
              omega
        · have : c' = lo := by omega
          rw [this]
      · intro c' e1 e2
        rcases hinv with ⟨_, h1, _⟩ | ⟨c, h1, h2, h3, hb, h4, h5⟩
        · omega
        · rcases hc with hc | ⟨b, hb', hc⟩
          · rw [hc] at hb; cases hb
          · rw [hb] at hb'
            simp only [Option.mem_some_iff] at hb'
            have := h4 c' e1 e2
            omega
    · rename_i hc
      refine ih (lo + 1) _ _ _ (by omega) hnext (.inr ?_)
      rcases hinv with ⟨h0, _⟩ | ⟨c, h1, h2, h3, hb, h4, h5⟩
      · exact absurd (.inl h0) hc
      · refine ⟨c, h1, by omega, h3, hb, ?_, h5⟩
        intro c' e1 e2
        rcases Nat.lt_or_ge c' lo with h | h
        · exact h4 c' e1 h
        · have : c' = lo := by omega
          subst this
          by_contra hlt
          exact hc (.inr ⟨_, by rw [hb]; rfl, by omega⟩)

theorem ansC_spec (borders : List Nat) (n : Nat) : IsAnsC borders (n / 4) (ansC borders n) := by
  unfold ansC
  rcases Nat.lt_or_ge (n / 4) 2 with h | h
  · rw [show n / 4 - 1 = 0 by omega]
    simp only [List.range'_zero, ansLoop]
    exact .inl ⟨by omega, rfl⟩
  · have := ansLoop_spec borders (n / 4 - 1) 1 (-1) none 0 (by omega) (by simp) (.inl ⟨rfl, rfl, rfl⟩)
    rwa [show 1 + (n / 4 - 1) = n / 4 by omega] at this

/-! ## The outer borders -/

theorem count_perm_filter {y : List Int} {b : Int} {idx : List Nat} {ls : List Int} {n : Nat} {p : Nat → Bool}
    (hp : idx.Perm ((List.range n).filter p)) (h : takeRows y idx = .ok ls) :
    ls.count b = ((List.range n).filter (fun i => decide (y[i]? = some b) && p i)).length := by
  have h1 : ls.count b = (idx.filter (fun i => decide (y[i]? = some b))).length := by
    have hf := takeRows_forall h
    clear hp h
    induction hf with
    | nil => rfl
    | cons hi _ ih =>
      rename_i i l idx' ls' _
      rw [List.count_cons, List.filter_cons, hi, ih]
      by_cases hl : l = b
      · simp [hl]
      · simp [hl]
  rw [h1, (hp.filter _).length_eq, List.filter_filter]

theorem ans_first {dist : Row → Row → ℚ} {knnDist : Nat → List Row → List Row → List (List ℚ)}
    (hkd : NearestDistOK dist knnDist) {A : List Row} (hA : 2 ≤ A.length) :
    (knnDist 2 A A).mapM (fun row => getRow row 1) = .ok ((List.range A.length).map (firstDist dist A)) := by
  rw [hkd 2 A A hA, mapM_ok_iff]
  rw [List.forall₂_map_left_iff, List.forall₂_map_right_iff]
  rw [List.forall₂_iff_get]
  refine ⟨by simp, ?_⟩
  intro i h1 h2
  simp only [List.get_eq_getElem, List.getElem_range]
  rw [getRow_ok, List.getElem?_take, if_pos (by omega)]
  unfold firstDist
  have hl : (1 : Nat) < ((A.map (dist A[i])).insertionSort (· ≤ ·)).length := by
    rw [List.length_insertionSort, List.length_map]; omega
  have hg : A.getD i [] = A[i] := by rw [List.getD_eq_getElem?_getD, List.getElem?_eq_getElem h1]; rfl
  rw [hg, List.getD_eq_getElem?_getD, List.getElem?_eq_getElem hl]
  rfl

theorem ans_outerBorder {dist : Row → Row → ℚ} {radius : List Row → List Row → ℚ → List (List Nat)}
    (hr : RadiusExact dist radius) {X : List Row} {y : List Int} (hxy : X.length = y.length) (b : Int) (A : List Row) :
    ansOuterBorder radius X y b A ((List.range A.length).map (firstDist dist A)) = .ok (outerBorders dist X y A b) := by
  unfold ansOuterBorder outerBorders
  rw [mapM_ok_iff, List.forall₂_iff_get]
  refine ⟨by simp, ?_⟩
  intro i h1 h2
  have hiA : i < A.length := by simpa using h2
  simp only [List.get_eq_getElem, List.getElem_zip, List.getElem_map, List.getElem_range]
  have hg : A.getD i [] = A[i] := by rw [List.getD_eq_getElem?_getD, List.getElem?_eq_getElem hiA]; rfl
  have hf := hr X [A[i]] (firstDist dist A i)
  obtain ⟨row, rest, hp, hnil, hrad⟩ := List.forall₂_cons_left_iff.1 hf
  cases hnil
  rw [hrad]
  obtain ⟨ls, hls⟩ := takeRows_ok_of_lt (X := y) (idx := row) (fun v hv => by
    have := hp.mem_iff.1 hv
    rw [List.mem_filter, List.mem_range] at this
    omega)
  show (do let ls ← takeRows y row; pure (ls.count b)) = _
  rw [hls, ok_bind]
  show Except.ok _ = _
  rw [count_perm_filter hp hls]
  unfold outerBorder
  congr 2
  apply List.filter_congr
  intro j _
  rw [hg]
  by_cases h1 : y[j]? = some b <;> simp [h1]

theorem mem_ansPused {dist : Row → Row → ℚ} {X : List Row} {y : List Int} {A : List Row} {b : Int} {C j : Nat} :
    j ∈ ansPused (outerBorders dist X y A b) C ↔ AnsUsed dist X y A b C j := by
  unfold ansPused AnsUsed
  rw [List.mem_filter, List.mem_range]
  have hl : (outerBorders dist X y A b).length = A.length := by simp [outerBorders]
  rw [hl]
  constructor
  · rintro ⟨h1, h2⟩
    refine ⟨h1, ?_⟩
    rw [List.getD_eq_getElem?_getD, outerBorders, List.getElem?_map, List.getElem?_eq_getElem (by simpa using h1)] at h2
    simpa using h2
  · rintro ⟨h1, h2⟩
    refine ⟨h1, ?_⟩
    rw [List.getD_eq_getElem?_getD, outerBorders, List.getElem?_map, List.getElem?_eq_getElem (by simpa using h1)]
    simpa using h2

theorem foldr_max_spec {l : List ℚ} (hne : l ≠ []) :
    l.foldr max (l.headD 0) ∈ l ∧ ∀ x ∈ l, x ≤ l.foldr max (l.headD 0) := by
  have hge : ∀ (l : List ℚ) (m : ℚ), (∀ x ∈ l, x ≤ l.foldr max m) ∧ (l.foldr max m = m ∨ l.foldr max m ∈ l) := by
    intro l m
    induction l with
    | nil => simp
    | cons a l ih =>
      rw [List.foldr_cons]
      constructor
      · intro x hx
        rcases List.mem_cons.1 hx with rfl | hx
        · exact le_max_left _ _
        · exact le_trans (ih.1 x hx) (le_max_right _ _)
      · rcases le_total a (l.foldr max m) with h | h
        · rw [max_eq_right h]
          rcases ih.2 with h | h
          · exact .inl h
          · exact .inr (by simp [h])
        · rw [max_eq_left h]; exact .inr (by simp)
  refine ⟨?_, (hge _ _).1⟩
  rcases (hge l (l.headD 0)).2 with h | h
  · rw [h]
    cases l with
    | nil => exact absurd rfl hne
    | cons a l => simp
  · exact h

/-! ## The nearest rows and the radius -/

/-- Of the nearest rows, as many as lie within the radius do so. -/
theorem nearest_within {dist : Row → Row → ℚ} {F : List Row} {q : Row} {row rad : List Nat} {e : ℚ}
    (hn : NearestRows dist F q row)
    (hr : rad.Perm ((List.range F.length).filter (fun i => decide (dist q (F.getD i []) ≤ e)))) {p v : Nat}
    (hp : p < rad.length) (hv : row[p]? = some v) : dist q (F.getD v []) ≤ e := by
  obtain ⟨h1, h2, h3⟩ := hn
  by_contra hgt
  rw [not_le] at hgt
  have hvm := List.mem_of_getElem? hv
  obtain ⟨hpl, hpv⟩ := List.getElem?_eq_some_iff.1 hv
  have hsub : rad ⊆ row.take p := by
    intro i hi
    have := hr.mem_iff.1 hi
    rw [List.mem_filter, List.mem_range, decide_eq_true_eq] at this
    obtain ⟨hiF, hie⟩ := this
    by_cases him : i ∈ row
    · obtain ⟨t, ht⟩ := List.mem_iff_getElem?.1 him
      obtain ⟨htl, hti⟩ := List.getElem?_eq_some_iff.1 ht
      rcases Nat.lt_or_ge t p with h | h
      · exact List.mem_of_getElem? (i := t) (by rw [List.getElem?_take, if_pos h]; exact ht)
      · exfalso
        rcases Nat.eq_or_lt_of_le h with h | h
        · subst h
          rw [hpv] at hti
          subst hti
          exact absurd hie (not_le.2 hgt)
        · have := List.pairwise_iff_getElem.1 h2 p t hpl htl h
          rw [hpv, hti] at this
          exact absurd (le_trans this hie) (not_le.2 hgt)
    · exact absurd (le_trans (h3 i v hiF him hvm) hie) (not_le.2 hgt)
  have hnd : rad.Nodup := hr.nodup_iff.2 (List.nodup_range.filter _)
  have hle := (List.subperm_of_subset hnd hsub).length_le
  rw [List.length_take] at hle
  omega

/-- What the code computes before it samples. -/
theorem ans_prepare {dist : Row → Row → ℚ} {X : List Row} {y : List Int} {A : List Row} {b : Int} {C : Nat} {used : List Nat}
    (hused : used = ansPused (outerBorders dist X y A b) C) (hne : used.length ≠ 0) :
    ∃ dists Xu, takeRows ((List.range A.length).map (firstDist dist A)) used = .ok dists ∧ takeRows A used = .ok Xu ∧
      Xu.length = used.length ∧ IsAnsEps dist X y A b C (dists.foldr max (dists.headD 0)) ∧
      (∀ (t : Nat) (r : Row), Xu[t]? = some r → ∃ j, used[t]? = some j ∧ A[j]? = some r ∧ AnsUsed dist X y A b C j) := by
  have hlt : ∀ j ∈ used, j < A.length := fun j hj => by
    rw [hused] at hj
    exact (mem_ansPused.1 hj).1
  obtain ⟨dists, hd⟩ := takeRows_ok_of_lt (X := (List.range A.length).map (firstDist dist A)) (idx := used)
    (fun j hj => by simpa using hlt j hj)
  obtain ⟨Xu, hXu⟩ := takeRows_ok_of_lt (X := A) (idx := used) hlt
  have hfd := takeRows_forall hd
  have hfX := takeRows_forall hXu
  refine ⟨dists, Xu, hd, hXu, takeRows_length hXu, ?_, ?_⟩
  · have hdl := takeRows_length hd
    have hdne : dists ≠ [] := by intro h0; rw [h0] at hdl; simp at hdl; omega
    obtain ⟨m1, m2⟩ := foldr_max_spec hdne
    have hval : ∀ (j : Nat) (q : ℚ), ((List.range A.length).map (firstDist dist A))[j]? = some q → q = firstDist dist A j := by
      intro j q hq
      obtain ⟨hj, rfl⟩ := List.getElem?_eq_some_iff.1 hq
      simp
    constructor
    · obtain ⟨j, hj, hjq⟩ := forall2_mem_right hfd m1
      rw [hused] at hj
      exact ⟨j, mem_ansPused.1 hj, (hval j _ hjq).symm⟩
    · intro j hj
      have hju : j ∈ used := by rw [hused]; exact mem_ansPused.2 hj
      obtain ⟨q, hq, hjq⟩ := forall₂_mem_left hfd hju
      rw [← hval j q hjq]
      exact m2 q hq
  · intro t r hr
    rw [List.forall₂_iff_get] at hfX
    obtain ⟨ht, rfl⟩ := List.getElem?_eq_some_iff.1 hr
    have htu : t < used.length := by rw [hfX.1]; exact ht
    refine ⟨used[t], List.getElem?_eq_getElem htu, hfX.2 t htu ht, ?_⟩
    have hall : ∀ j ∈ used, AnsUsed dist X y A b C j := fun j hj => by
      rw [hused] at hj
      exact mem_ansPused.1 hj
    exact hall _ (List.getElem_mem _)

/-! ## The oversampler -/

/-- No used row has another used row within the radius. -/
def AnsAlone (dist : Row → Row → ℚ) (X : List Row) (y : List Int) (A : List Row) (b : Int) (C : Nat) (e : ℚ) : Prop :=
  ∀ j i, AnsUsed dist X y A b C j → AnsUsed dist X y A b C i → dist (A.getD j []) (A.getD i []) ≤ e → i = j

theorem nodup_ansPused {borders : List Nat} {C : Nat} : (ansPused borders C).Nodup := by
  unfold ansPused
  exact List.nodup_range.filter _

theorem firstDist_nonneg {dist : Row → Row → ℚ} (hnn : ∀ p q, 0 ≤ dist p q) (A : List Row) (j : Nat) :
    0 ≤ firstDist dist A j := by
  unfold firstDist
  rw [List.getD_eq_getElem?_getD]
  cases h : ((A.map (dist (A.getD j []))).insertionSort (· ≤ ·))[1]? with
  | none => exact le_refl _
  | some q =>
    have := (List.perm_insertionSort _ _).mem_iff.1 (List.mem_of_getElem? h)
    rw [List.mem_map] at this
    obtain ⟨r, _, rfl⟩ := this
    exact hnn _ _

/-- The radius answers among the used rows. -/
theorem ans_ind {dist : Row → Row → ℚ} {radius : List Row → List Row → ℚ → List (List Nat)} (hr : RadiusExact dist radius)
    {Xu : List Row} {e : ℚ} {t : Nat} {row : List Nat} (h : (radius Xu Xu e)[t]? = some row) :
    ∃ q, Xu[t]? = some q ∧ row.Perm ((List.range Xu.length).filter (fun i => decide (dist q (Xu.getD i []) ≤ e))) := by
  have hf := hr Xu Xu e
  rw [List.forall₂_iff_get] at hf
  obtain ⟨ht, rfl⟩ := List.getElem?_eq_some_iff.1 h
  have htX : t < Xu.length := by rw [hf.1]; exact ht
  exact ⟨Xu[t], List.getElem?_eq_getElem htX, hf.2 t htX ht⟩

theorem ansWeights_get {ind : List (List Nat)} {k j p : Nat} {r : List ℚ} {q : ℚ} (hr : (ansWeights ind k)[j]? = some r)
    (hq : r[p]? = some q) (hp : 0 < q) : ∃ row, ind[j]? = some row ∧ p < row.length := by
  unfold ansWeights at hr
  rw [List.getElem?_map] at hr
  cases hc : ind[j]? with
  | none => rw [hc] at hr; simp at hr
  | some row =>
    rw [hc] at hr
    simp only [Option.map_some, Option.some.injEq] at hr
    refine ⟨row, rfl, ?_⟩
    rw [← hr, List.getElem?_map] at hq
    cases hp' : (List.range k)[p]? with
    | none => rw [hp'] at hq; simp at hq
    | some p' =>
      have : p' = p := by
        obtain ⟨h1, h2⟩ := List.getElem?_eq_some_iff.1 hp'
        rw [← h2, List.getElem_range]
      subst this
      rw [hp'] at hq
      simp only [Option.map_some, Option.some.injEq] at hq
      by_contra h0
      rw [if_pos (by omega)] at hq
      rw [← hq] at hp
      exact absurd hp (lt_irrefl _)

theorem ansWeights_nonneg {ind : List (List Nat)} {k : Nat} : ∀ r ∈ ansWeights ind k, k ≤ r.length ∧ ∀ x ∈ r, 0 ≤ x := by
  intro r hr
  unfold ansWeights at hr
  rw [List.mem_map] at hr
  obtain ⟨c, _, rfl⟩ := hr
  refine ⟨by simp, ?_⟩
  intro x hx
  rw [List.mem_map] at hx
  obtain ⟨p, _, rfl⟩ := hx
  split <;> norm_num

/-- The index of a row taken from the used rows. -/
theorem ans_used_at {A Xu : List Row} {used : List Nat} (hXu : takeRows A used = .ok Xu) {t : Nat} (ht : t < Xu.length) :
    ∃ j, used[t]? = some j ∧ A.getD j [] = Xu.getD t [] ∧ A[j]? = some (Xu.getD t []) := by
  have hfX := takeRows_forall hXu
  rw [List.forall₂_iff_get] at hfX
  have htu : t < used.length := by rw [hfX.1]; exact ht
  have h1 := hfX.2 t htu ht
  simp only [List.get_eq_getElem] at h1
  have h2 : Xu.getD t [] = Xu[t] := by rw [List.getD_eq_getElem?_getD, List.getElem?_eq_getElem ht]; rfl
  refine ⟨used[t], List.getElem?_eq_getElem htu, ?_, by rw [h2]; exact h1⟩
  rw [List.getD_eq_getElem?_getD, h1, h2]; rfl

/-- All radius answers have one entry exactly when no used row has another one within the radius. -/
theorem ans_alone_iff {dist : Row → Row → ℚ} {radius : List Row → List Row → ℚ → List (List Nat)} (hr : RadiusExact dist radius)
    (hself : ∀ p, dist p p = 0) {X : List Row} {y : List Int} {A : List Row} {b : Int} {C : Nat} {Xu : List Row} {e : ℚ}
    (he : 0 ≤ e) (hXu : takeRows A (ansPused (outerBorders dist X y A b) C) = .ok Xu) :
    (radius Xu Xu e).all (fun row => decide (row.length = 1)) = true ↔ AnsAlone dist X y A b C e := by
  have hlen : (radius Xu Xu e).length = Xu.length := (hr Xu Xu e).length_eq.symm
  have hul := takeRows_length hXu
  rw [List.all_eq_true]
  constructor
  · intro h j i hj hi hd
    obtain ⟨t, ht⟩ := List.mem_iff_getElem?.1 (mem_ansPused.2 hj)
    obtain ⟨s, hs⟩ := List.mem_iff_getElem?.1 (mem_ansPused.2 hi)
    have htl := (List.getElem?_eq_some_iff.1 ht).1
    have hsl := (List.getElem?_eq_some_iff.1 hs).1
    obtain ⟨j', hj', hAj, _⟩ := ans_used_at hXu (t := t) (by omega)
    obtain ⟨i', hi', hAi, _⟩ := ans_used_at hXu (t := s) (by omega)
    rw [ht] at hj'; injection hj' with hj'; subst hj'
    rw [hs] at hi'; injection hi' with hi'; subst hi'
    have htr : t < (radius Xu Xu e).length := by omega
    obtain ⟨q, hq, hp⟩ := ans_ind hr (List.getElem?_eq_getElem htr)
    have h1 := h _ (List.getElem_mem htr)
    rw [decide_eq_true_eq] at h1
    have hqt : q = Xu.getD t [] := by rw [List.getD_eq_getElem?_getD, hq]; rfl
    have hmt : t ∈ (radius Xu Xu e)[t] := by
      rw [hp.mem_iff, List.mem_filter, List.mem_range]
      exact ⟨by omega, by simp [hqt, hself, he]⟩
    have hms : s ∈ (radius Xu Xu e)[t] := by
      rw [hp.mem_iff, List.mem_filter, List.mem_range]
      refine ⟨by omega, ?_⟩
      rw [hqt, ← hAj, ← hAi]; simpa using hd
    obtain ⟨v, hv⟩ := List.length_eq_one_iff.1 h1
    rw [hv, List.mem_singleton] at hmt hms
    rw [hmt, ← hms, hs] at ht
    injection ht
  · intro h row hrow
    rw [decide_eq_true_eq]
    obtain ⟨t, ht⟩ := List.mem_iff_getElem?.1 hrow
    have htl := (List.getElem?_eq_some_iff.1 ht).1
    obtain ⟨q, hq, hp⟩ := ans_ind hr ht
    have hqt : q = Xu.getD t [] := by rw [List.getD_eq_getElem?_getD, hq]; rfl
    obtain ⟨j, hj, hAj, _⟩ := ans_used_at hXu (t := t) (by omega)
    have hsing : row.Perm [t] := by
      apply (List.perm_ext_iff_of_nodup (hp.nodup_iff.2 (List.nodup_range.filter _)) (List.nodup_singleton _)).2
      intro s
      rw [hp.mem_iff, List.mem_filter, List.mem_range, List.mem_singleton, decide_eq_true_eq]
      constructor
      · rintro ⟨hs, hd⟩
        obtain ⟨i, hi, hAi, _⟩ := ans_used_at hXu (t := s) hs
        rw [hqt, ← hAj, ← hAi] at hd
        have := h j i (mem_ansPused.1 (List.mem_of_getElem? hj)) (mem_ansPused.1 (List.mem_of_getElem? hi)) hd
        subst this
        obtain ⟨h1, h2⟩ := List.getElem?_eq_some_iff.1 hi
        obtain ⟨h3, h4⟩ := List.getElem?_eq_some_iff.1 hj
        exact (List.Nodup.getElem_inj_iff nodup_ansPused).1 (h2.trans h4.symm)
      · rintro rfl
        exact ⟨by omega, by simp [hqt, hself, he]⟩
    rw [hsing.length_eq]; rfl

theorem foldr_max_length_le {ind : List (List Nat)} {m : Nat} (h : ∀ r ∈ ind, r.length ≤ m) :
    (ind.map List.length).foldr max 0 ≤ m := by
  apply foldr_max_le
  intro x hx
  rw [List.mem_map] at hx
  obtain ⟨r, hr, rfl⟩ := hx
  exact h r hr

/-- **ANS**: the threshold `C`, the radius and the minority rows used are as specified; without a used row, or when no used row
has another one within the radius, the input is returned; otherwise exactly the requested number of rows is added, each a convex
combination of used minority rows within the radius of one of them. -/
theorem C53_ans {par : NbParams} {vol : List Row → ℚ} {dr : Draws} {d : Nat} {dist : Row → Row → ℚ}
    {knn : Nat → List Row → List Row → List (List Nat)} {knnDist : Nat → List Row → List Row → List (List ℚ)}
    {radius : List Row → List Row → ℚ → List (List Nat)} {X X' : List Row} {y y' : List Int} {a b : Int} (hwf : WF d X y)
    (hk : NearestOK dist knn) (hkd : NearestDistOK dist knnDist) (hr : RadiusExact dist radius)
    (hself : ∀ p, dist p p = 0) (hnn : ∀ p q, 0 ≤ dist p q) (hdr : dr.OK) (hmin : IsMinority y a b)
    (hg : par.ss.gaussian = .none) (hd2 : 2 ≤ par.ss.nDim) (hvol : ∀ vs, 0 ≤ vol vs) (h3 : 2 < y.count a)
    (h : sample defaultChecks d (ansAlg par vol dr d knn knnDist radius) X y = .ok (X', y')) :
    ∃ C, IsAnsC (outerBorders dist X y (classRows X y a) b) (X.length / 4) C ∧
      ((∀ j, ¬ AnsUsed dist X y (classRows X y a) b C j) → X' = X ∧ y' = y) ∧
      ((∃ j, AnsUsed dist X y (classRows X y a) b C j) → ∃ e, IsAnsEps dist X y (classRows X y a) b C e ∧
        (AnsAlone dist X y (classRows X y a) b C e → X' = X ∧ y' = y) ∧
        (¬ AnsAlone dist X y (classRows X y a) b C e →
          OversampledBy X y a (requested par.proportion (y.count b) (y.count a))
            (AnsGenerated dist X y (classRows X y a) b C e d) X' y')) := by
  obtain ⟨s, hs, rfl, rfl⟩ := stats_of_isMinority hmin
  obtain ⟨hm, hM, hne⟩ := stats_min_mem hs
  have hxy := hwf.1
  have hl := selectLabel_length hxy s.minLabel
  rw [sample_default hs, if_neg (by omega)] at h
  unfold ansAlg at h
  rw [selectLabel_eq_classRows] at h hl
  rw [stats_count hs hm, stats_count hs hM, detN_eq_requested, ok_bind] at h
  have hAd : ∀ r ∈ classRows X y s.minLabel, r.length = d := by
    intro r hr
    rw [← selectLabel_eq_classRows] at hr
    exact hwf.2 r (selectLabel_mem hr)
  set A := classRows X y s.minLabel with hA
  set n := requested par.proportion (y.count s.majLabel) (y.count s.minLabel) with hnd
  refine ⟨ansC (outerBorders dist X y A s.majLabel) X.length, ansC_spec _ _, ?_⟩
  set C := ansC (outerBorders dist X y A s.majLabel) X.length with hC
  by_cases hn0 : n = 0
  · rw [if_pos hn0] at h
    simp only [pure_ok, Prod.mk.injEq] at h
    obtain ⟨rfl, rfl⟩ := h
    refine ⟨fun _ => ⟨rfl, rfl⟩, ?_⟩
    rintro ⟨j, hj⟩
    obtain ⟨dists, Xu, _, _, _, heps, _⟩ := ans_prepare (used := ansPused (outerBorders dist X y A s.majLabel) C) rfl (by
      intro h0
      have := mem_ansPused.2 hj
      rw [List.length_eq_zero_iff.1 h0] at this
      simp at this)
    refine ⟨_, heps, fun _ => ⟨rfl, rfl⟩, fun _ => ?_⟩
    rw [hn0]; exact oversampledBy_none _ _ _ _
  rw [if_neg hn0] at h
  dsimp only at h
  rw [ans_first hkd (by omega), ok_bind, ans_outerBorder hr hxy, ok_bind, ← hC] at h
  by_cases hu : (ansPused (outerBorders dist X y A s.majLabel) C).length = 0
  · rw [if_pos hu] at h
    simp only [pure_ok, Prod.mk.injEq] at h
    refine ⟨fun _ => ⟨h.1.symm, h.2.symm⟩, ?_⟩
    rintro ⟨j, hj⟩
    have := mem_ansPused.2 hj
    rw [List.length_eq_zero_iff.1 hu] at this
    simp at this
  rw [if_neg hu] at h
  obtain ⟨dists, Xu, hdists, hXu, hXul, heps, hXuj⟩ := ans_prepare rfl hu
  rw [hdists, ok_bind, hXu, ok_bind] at h
  set e := dists.foldr max (dists.headD 0) with hedef
  have he0 : 0 ≤ e := by
    obtain ⟨⟨j, _, hj⟩, _⟩ := heps
    rw [← hj]; exact firstDist_nonneg hnn _ _
  refine ⟨fun hno => ?_, fun _ => ⟨e, heps, ?_⟩⟩
  · obtain ⟨⟨j, hj, _⟩, _⟩ := heps
    exact absurd hj (hno j)
  have halone := ans_alone_iff hr hself he0 hXu
  by_cases hall : (radius Xu Xu e).all (fun row => decide (row.length = 1)) = true
  · rw [if_pos hall] at h
    simp only [pure_ok, Prod.mk.injEq] at h
    exact ⟨fun _ => ⟨h.1.symm, h.2.symm⟩, fun hno => absurd (halone.1 hall) hno⟩
  rw [if_neg hall, bind_ok] at h
  obtain ⟨out, hout, h⟩ := h
  simp only [pure_ok] at h
  refine ⟨fun ha => absurd (halone.2 ha) hall, fun _ => ?_⟩
  have hlen : (radius Xu Xu e).length = Xu.length := (hr Xu Xu e).length_eq.symm
  have hXud : ∀ r ∈ Xu, r.length = d := by
    intro r hr
    obtain ⟨t, ht⟩ := List.mem_iff_getElem?.1 hr
    obtain ⟨j, _, hj, _⟩ := hXuj t r ht
    exact hAd r (List.mem_of_getElem? hj)
  have hkle : ((radius Xu Xu e).map List.length).foldr max 0 ≤ Xu.length := by
    apply foldr_max_length_le
    intro row hrow
    obtain ⟨t, ht⟩ := List.mem_iff_getElem?.1 hrow
    obtain ⟨q, _, hp⟩ := ans_ind hr ht
    rw [hp.length_eq]
    refine le_trans (List.length_filter_le _ _) (by simp)
  set k := ((radius Xu Xu e).map List.length).foldr max 0 with hkdef
  obtain ⟨hk2, _⟩ := hk.1 k Xu Xu hkle
  obtain ⟨g1, g2⟩ := sampleSimplex_weighted (cap := fun _ => 1) hXud (by intro V hV; cases hV) (by intro V hV; cases hV)
    (by intro hV; cases hV) hdr (le_of_eq hk2) hg
    (by
      intro w hw
      injection hw with hw
      subst hw
      refine ⟨by rw [List.length_map, List.length_map, hlen, hk2], ?_⟩
      intro x hx
      rw [List.mem_map] at hx
      obtain ⟨q, hq, rfl⟩ := hx
      have hnn' : ∀ z ∈ (radius Xu Xu e).map (fun row => (row.length : ℚ)), 0 ≤ z := by
        intro z hz
        rw [List.mem_map] at hz
        obtain ⟨r, _, rfl⟩ := hz
        exact Nat.cast_nonneg _
      exact div_nonneg (hnn' q hq) (List.sum_nonneg hnn'))
    (by
      intro m hm r hr x hx
      injection hm with hm
      subst hm
      exact (ansWeights_nonneg r hr).2 x hx) hvol ⟨fun _ _ => le_refl _, by intro ws hws; cases hws⟩ hout
  refine withSamples_oversampledBy g1 ?_ h
  intro x hx
  obtain ⟨t, ps, vs, ⟨⟨row, hrow, hpv⟩, hps, hpl, _, hsw⟩, base, nbrs, w0, wr, hbase, hnb, hcx, hcap⟩ := g2 x hx
  clear hcap
  replace hnb : List.Forall₂ (fun i r => Xu[i]? = some r) vs nbrs := hnb
  obtain ⟨r, hrr, hrp⟩ := hsw _ rfl
  obtain ⟨j, _, hAj, hju⟩ := hXuj t base hbase
  -- some answer has two entries, so `k` is at least two
  have hk2' : 2 ≤ k := by
    by_contra hlt
    apply hall
    rw [List.all_eq_true]
    intro rw' hrw
    rw [decide_eq_true_eq]
    have h1 := foldr_max_ge (List.mem_map_of_mem (f := List.length) hrw)
    obtain ⟨t', ht'⟩ := List.mem_iff_getElem?.1 hrw
    obtain ⟨q, hq, hp⟩ := ans_ind hr ht'
    have hqt : q = Xu.getD t' [] := by rw [List.getD_eq_getElem?_getD, hq]; rfl
    have : t' ∈ rw' := by
      rw [hp.mem_iff, List.mem_filter, List.mem_range]
      exact ⟨(List.getElem?_eq_some_iff.1 hq).1, by simp [hqt, hself, he0]⟩
    have h2 := List.length_pos_of_mem this
    have h3 : ((radius Xu Xu e).map List.length).foldr max 0 = k := rfl
    omega
  have hnear := hk.2 k Xu Xu hkle
  rw [List.forall₂_iff_get] at hnear
  obtain ⟨htk, hrow'⟩ := List.getElem?_eq_some_iff.1 hrow
  obtain ⟨htX, hbase'⟩ := List.getElem?_eq_some_iff.1 hbase
  have hnr := hnear.2 t htX htk
  simp only [List.get_eq_getElem] at hnr
  rw [hrow', hbase'] at hnr
  obtain ⟨rad, hrad⟩ : ∃ rad, (radius Xu Xu e)[t]? = some rad := ⟨_, List.getElem?_eq_getElem (by omega)⟩
  obtain ⟨q, hq, hp⟩ := ans_ind hr hrad
  rw [hbase] at hq
  injection hq with hq
  subst hq
  have hidx : ∃ is : List Nat, List.Forall₂ (fun i r => A[i]? = some r) is nbrs ∧ is.length = vs.length ∧
      ∀ i ∈ is, AnsUsed dist X y A s.majLabel C i := by
    clear hpv hcx
    induction hnb with
    | nil => exact ⟨[], .nil, rfl, by simp⟩
    | cons hv _ ih =>
      obtain ⟨is, h1, h2, h3⟩ := ih
      obtain ⟨i, _, hi, hiu⟩ := hXuj _ _ hv
      refine ⟨i :: is, .cons hi h1, by simp [h2], ?_⟩
      intro i' hi'
      rcases List.mem_cons.1 hi' with rfl | hi'
      · exact hiu
      · exact h3 i' hi'
  obtain ⟨is, his, hisl, hisu⟩ := hidx
  refine ⟨j, base, is, nbrs, w0 :: wr, hAj, hju, his, ?_, hisu, ?_, hcx⟩
  · intro h0
    rw [h0] at hisl
    have := hpv.length_eq
    simp at hisl
    omega
  · intro rn hrn
    obtain ⟨v, hv, hvr⟩ := forall2_mem_right hnb hrn
    obtain ⟨p, hpp, hprow⟩ := forall2_mem_right hpv hv
    obtain ⟨q, hq, hqp⟩ := hrp p hpp
    obtain ⟨rad', hrad', hlt⟩ := ansWeights_get hrr hq hqp
    rw [hrad] at hrad'
    injection hrad' with hrad'
    subst hrad'
    have := nearest_within hnr hp hlt hprow
    rwa [List.getD_eq_getElem?_getD, hvr] at this

/-- ANS never raises on a two-class data set. -/
theorem C53_total {par : NbParams} {vol : List Row → ℚ} {dr : Draws} {d : Nat} {dist : Row → Row → ℚ}
    {knn : Nat → List Row → List Row → List (List Nat)} {knnDist : Nat → List Row → List Row → List (List ℚ)}
    {radius : List Row → List Row → ℚ → List (List Nat)} {X : List Row} {y : List Int} {a b : Int} (hwf : WF d X y)
    (hk : NearestOK dist knn) (hkd : NearestDistOK dist knnDist) (hr : RadiusExact dist radius)
    (hself : ∀ p, dist p p = 0) (hnn : ∀ p q, 0 ≤ dist p q) (hdr : dr.OK) (hu : ∀ i j, 0 < dr.simplexU i j)
    (hmin : IsMinority y a b) (hd : 1 ≤ par.ss.nDim)
    (hwi : par.ss.within = .random ∨ (par.ss.within = .deterministic ∧ par.ss.nDim ≤ 2)) :
    ∃ r, sample defaultChecks d (ansAlg par vol dr d knn knnDist radius) X y = .ok r := by
  obtain ⟨s, hs, rfl, rfl⟩ := stats_of_isMinority hmin
  obtain ⟨hm, hM, hne⟩ := stats_min_mem hs
  have hxy := hwf.1
  have hl := selectLabel_length hxy s.minLabel
  rw [sample_default hs]
  by_cases h2 : y.count s.minLabel ≤ 2
  · rw [if_pos h2]; exact ⟨_, rfl⟩
  rw [if_neg h2]
  unfold ansAlg
  rw [selectLabel_eq_classRows] at hl ⊢
  rw [stats_count hs hm, stats_count hs hM, detN_eq_requested, ok_bind]
  set A := classRows X y s.minLabel with hA
  set n := requested par.proportion (y.count s.majLabel) (y.count s.minLabel) with hnd
  by_cases hn0 : n = 0
  · rw [if_pos hn0]; exact ⟨_, rfl⟩
  rw [if_neg hn0]
  dsimp only
  rw [ans_first hkd (by omega), ok_bind, ans_outerBorder hr hxy, ok_bind]
  set C := ansC (outerBorders dist X y A s.majLabel) X.length with hC
  by_cases huz : (ansPused (outerBorders dist X y A s.majLabel) C).length = 0
  · rw [if_pos huz]; exact ⟨_, rfl⟩
  rw [if_neg huz]
  obtain ⟨dists, Xu, hdists, hXu, hXul, heps, hXuj⟩ := ans_prepare rfl huz
  rw [hdists, ok_bind, hXu, ok_bind]
  set e := dists.foldr max (dists.headD 0) with hedef
  have he0 : 0 ≤ e := by
    obtain ⟨⟨j, _, hj⟩, _⟩ := heps
    rw [← hj]; exact firstDist_nonneg hnn _ _
  by_cases hall : (radius Xu Xu e).all (fun row => decide (row.length = 1)) = true
  · rw [if_pos hall]; exact ⟨_, rfl⟩
  rw [if_neg hall]
  have hlen : (radius Xu Xu e).length = Xu.length := (hr Xu Xu e).length_eq.symm
  have hrl : ∀ row ∈ radius Xu Xu e, 1 ≤ row.length ∧ row.length ≤ Xu.length := by
    intro row hrow
    obtain ⟨t, ht⟩ := List.mem_iff_getElem?.1 hrow
    obtain ⟨q, hq, hp⟩ := ans_ind hr ht
    have hqt : q = Xu.getD t [] := by rw [List.getD_eq_getElem?_getD, hq]; rfl
    constructor
    · have : t ∈ row := by
        rw [hp.mem_iff, List.mem_filter, List.mem_range]
        exact ⟨(List.getElem?_eq_some_iff.1 hq).1, by simp [hqt, hself, he0]⟩
      exact List.length_pos_of_mem this
    · rw [hp.length_eq]
      refine le_trans (List.length_filter_le _ _) (by simp)
  have hkle : ((radius Xu Xu e).map List.length).foldr max 0 ≤ Xu.length :=
    foldr_max_length_le (fun row hrow => (hrl row hrow).2)
  have hradne : (radius Xu Xu e).map List.length ≠ [] := by
    intro h0
    have := congrArg List.length h0
    rw [List.length_map, hlen, hXul] at this
    simp at this
    rw [this] at huz
    simp at huz
  obtain ⟨t, ht⟩ := List.mem_iff_getElem?.1 (foldr_max_mem hradne)
  set k := ((radius Xu Xu e).map List.length).foldr max 0 with hkdef
  obtain ⟨hk2, hk2t⟩ := hk.1 k Xu Xu hkle
  rw [List.getElem?_map] at ht
  obtain ⟨rad, hrad, hradk⟩ : ∃ rad, (radius Xu Xu e)[t]? = some rad ∧ rad.length = k := by
    cases hx : (radius Xu Xu e)[t]? with
    | none => rw [hx] at ht; simp at ht
    | some rad => rw [hx] at ht; simp only [Option.map_some, Option.some.injEq] at ht; exact ⟨rad, rfl, ht⟩
  have hk1 : 1 ≤ k := by rw [← hradk]; exact (hrl rad (List.mem_of_getElem? hrad)).1
  have htl := (List.getElem?_eq_some_iff.1 hrad).1
  have hsum : 0 < ((radius Xu Xu e).map (fun row => (row.length : ℚ))).sum := by
    apply sum_pos_of_all
    · intro h0
      apply hradne
      have := congrArg List.length h0
      apply List.length_eq_zero_iff.1
      simpa using this
    · intro x hx
      rw [List.mem_map] at hx
      obtain ⟨r, hr', rfl⟩ := hx
      have := (hrl r hr').1
      exact_mod_cast this
  have hsel := simplicesSel_ok_sw (mode := par.ss.simplexSampling) (vol := vol) (cu := dr.choiceU) (X := Xu) (n := n)
    (bw := some (((radius Xu Xu e).map (fun row => (row.length : ℚ))).map
      (· / ((radius Xu Xu e).map (fun row => (row.length : ℚ))).sum)))
    (indices := knn k Xu Xu) (k := k) (Xv := none) (nDim := min par.ss.nDim k) (m := ansWeights (radius Xu Xu e) k)
    hk2t (le_of_eq hk2) hdr.choice
    (by
      refine ⟨by rw [List.length_map, List.length_map, hlen, hk2], ?_, ?_⟩
      · intro x hx
        rw [List.mem_map] at hx
        obtain ⟨q, hq, rfl⟩ := hx
        rw [List.mem_map] at hq
        obtain ⟨r, _, rfl⟩ := hq
        exact div_nonneg (Nat.cast_nonneg _) hsum.le
      · rw [sum_map_div]
        exact div_pos hsum hsum)
    (by unfold ansWeights; rw [List.length_map, hk2, hlen]) ansWeights_nonneg
    (by
      refine ⟨t, List.range' 1 (min par.ss.nDim k - 1), by omega, ?_, ?_, ?_, ?_⟩
      · rw [show List.range' 1 (k - 1) = (List.range' 1 (min par.ss.nDim k - 1)) ++ List.range'
              (1 + (min par.ss.nDim k - 1)) (k - 1 - (min par.ss.nDim k - 1)) by
          rw [List.range'_append_1]; congr 1; omega]
        exact List.sublist_append_left _ _
      · rw [List.length_range']; omega
      · intro w hw
        injection hw with hw
        subst hw
        refine ⟨(rad.length : ℚ) / ((radius Xu Xu e).map (fun row => (row.length : ℚ))).sum, ?_, ?_⟩
        · rw [List.getElem?_map, List.getElem?_map, hrad]; rfl
        · refine div_pos ?_ hsum
          rw [hradk]
          exact_mod_cast hk1
      · refine ⟨_, by unfold ansWeights; rw [List.getElem?_map, hrad]; rfl, ?_⟩
        intro p hp
        rw [List.mem_range'] at hp
        refine ⟨1, ?_, one_pos⟩
        rw [List.getElem?_map, List.getElem?_eq_getElem (by rw [List.length_range]; omega)]
        simp only [List.getElem_range, Option.map_some, Option.some.injEq]
        rw [if_neg (by omega)])
  obtain ⟨out, hout⟩ := sampleSimplex_ok_of_sel (ss := par.ss) (vol := vol) (dr := dr) (d := d) (X := Xu)
    (indices := knn k Xu Xu) (k := k) (n := n)
    (a := { baseWeights := some (((radius Xu Xu e).map (fun row => (row.length : ℚ))).map
        (· / ((radius Xu Xu e).map (fun row => (row.length : ℚ))).sum)),
            simplexWeights := some (ansWeights (radius Xu Xu e) k) }) hk2t (le_of_eq hk2)
    (by intro ws hws; cases hws) (by intro hV; cases hV) hsel hu
    (by
      rcases hwi with h | ⟨h, h'⟩
      · exact .inl h
      · exact .inr ⟨h, by omega⟩)
  rw [hout]
  exact ⟨_, rfl⟩

/-! ## When ANS does nothing -/

/-- With less than eight rows, or with classes so far apart that no majority row is as close to a minority row as the nearest
other minority row, ANS returns its input whatever is asked for. -/
theorem C53_does_nothing {par : NbParams} {vol : List Row → ℚ} {dr : Draws} {d : Nat} {dist : Row → Row → ℚ}
    {knn : Nat → List Row → List Row → List (List Nat)} {knnDist : Nat → List Row → List Row → List (List ℚ)}
    {radius : List Row → List Row → ℚ → List (List Nat)} {X X' : List Row} {y y' : List Int} {a b : Int} (hwf : WF d X y)
    (hk : NearestOK dist knn) (hkd : NearestDistOK dist knnDist) (hr : RadiusExact dist radius)
    (hself : ∀ p, dist p p = 0) (hnn : ∀ p q, 0 ≤ dist p q) (hdr : dr.OK) (hmin : IsMinority y a b)
    (hg : par.ss.gaussian = .none) (hd2 : 2 ≤ par.ss.nDim) (hvol : ∀ vs, 0 ≤ vol vs)
    (hq : X.length < 8 ∨ ∀ (j i : Nat) (p q : Row), (classRows X y a)[j]? = some p → X[i]? = some q → y[i]? = some b →
      firstDist dist (classRows X y a) j < dist p q)
    (h : sample defaultChecks d (ansAlg par vol dr d knn knnDist radius) X y = .ok (X', y')) : X' = X ∧ y' = y := by
  by_cases h3 : 2 < y.count a
  · obtain ⟨C, hC, h1, _⟩ := C53_ans hwf hk hkd hr hself hnn hdr hmin hg hd2 hvol h3 h
    apply h1
    intro j hj
    have hC0 : C = 0 := by
      rcases hC with ⟨_, hC⟩ | ⟨c, hc1, hc2, hC, _⟩
      · exact hC
      · rcases hq with hq | hq
        · omega
        · rw [hC]
          unfold nOver
          rw [List.countP_eq_zero]
          intro v hv
          unfold outerBorders at hv
          rw [List.mem_map] at hv
          obtain ⟨j', hj', rfl⟩ := hv
          rw [List.mem_range] at hj'
          have : outerBorder dist X y (classRows X y a) b j' = 0 := by
            unfold outerBorder
            rw [List.length_eq_zero_iff, List.filter_eq_nil_iff]
            intro i hi
            rw [List.mem_range] at hi
            rw [decide_eq_true_eq]
            rintro ⟨hy, hd⟩
            have e1 : (classRows X y a).getD j' [] = (classRows X y a)[j'] := by
              rw [List.getD_eq_getElem?_getD, List.getElem?_eq_getElem hj']; rfl
            have e2 : X.getD i [] = X[i] := by rw [List.getD_eq_getElem?_getD, List.getElem?_eq_getElem hi]; rfl
            rw [e1, e2] at hd
            exact absurd hd (not_le.2 (hq j' i _ _ (List.getElem?_eq_getElem hj') (List.getElem?_eq_getElem hi) hy))
          rw [this]
          simp; omega
    rw [hC0] at hj
    exact absurd hj.2 (by omega)
  · obtain ⟨s, hs, rfl, rfl⟩ := stats_of_isMinority hmin
    rw [sample_default hs, if_pos (by omega)] at h
    injection h with h
    obtain ⟨rfl, rfl⟩ := Prod.mk.inj h
    exact ⟨rfl, rfl⟩

/-! ## A concrete case -/

/-- Radius search by brute force. -/
def bruteRadiusAll (F Q : List Row) (r : ℚ) : List (List Nat) :=
  Q.map (fun q => (List.range F.length).filter (fun i => decide (sqDist q (F.getD i []) ≤ r)))

theorem bruteRadiusAll_ok : RadiusExact sqDist bruteRadiusAll := by
  intro F Q r
  unfold bruteRadiusAll
  rw [List.forall₂_map_right_iff, List.forall₂_same]
  intro q _
  exact List.Perm.refl _

/-- Distances by brute force. -/
def bruteDists (k : Nat) (F Q : List Row) : List (List ℚ) :=
  Q.map (fun q => ((F.map (sqDist q)).insertionSort (· ≤ ·)).take k)

theorem bruteDists_ok : NearestDistOK sqDist bruteDists := fun _ _ _ _ => rfl

theorem bruteQuery_nearest : NearestOK sqDist bruteQuery := by
  refine ⟨bruteQuery_ok, ?_⟩
  intro k F Q _
  unfold bruteQuery
  rw [List.forall₂_map_right_iff, List.forall₂_same]
  intro q _
  unfold nearestTo
  have : Std.Total (fun a b : Nat => sqDist q (F.getD a []) ≤ sqDist q (F.getD b [])) := ⟨fun i j => le_total _ _⟩
  have : IsTrans Nat (fun a b : Nat => sqDist q (F.getD a []) ≤ sqDist q (F.getD b [])) := ⟨fun i j k h1 h2 => le_trans h1 h2⟩
  have hs := List.pairwise_insertionSort (fun a b : Nat => sqDist q (F.getD a []) ≤ sqDist q (F.getD b [])) (List.range F.length)
  have hp := List.perm_insertionSort (fun a b : Nat => sqDist q (F.getD a []) ≤ sqDist q (F.getD b [])) (List.range F.length)
  refine ⟨(hp.nodup_iff.2 List.nodup_range).sublist (List.take_sublist _ _), hs.sublist (List.take_sublist _ _), ?_⟩
  intro i j hi hni hj
  have him := hp.mem_iff.2 (List.mem_range.2 hi)
  rw [← List.take_append_drop k (List.insertionSort _ _), List.mem_append] at him
  rcases him with h | h
  · exact absurd h hni
  · rw [← List.take_append_drop k (List.insertionSort _ _), List.pairwise_append] at hs
    exact hs.2.2 j hj i h

theorem sqDist_self (p : Row) : sqDist p p = 0 := by
  unfold sqDist
  induction p with
  | nil => rfl
  | cons a p ih => simp

theorem sqDist_nonneg (p q : Row) : 0 ≤ sqDist p q := by
  unfold sqDist
  apply List.sum_nonneg
  intro x hx
  rw [List.mem_map] at hx
  obtain ⟨t, _, rfl⟩ := hx
  exact mul_self_nonneg t

/-- Five minority rows, one of them surrounded by majority rows. -/
def ansX : List Row := [[0], [1], [2], [3], [8], [6], [7], [9], [10], [20], [21], [22], [23]]
def ansY : List Int := [1, 1, 1, 1, 1, 0, 0, 0, 0, 0, 0, 0, 0]
def ansPar : NbParams := { proportion := 1, nNeighbors := 3, ss := exPar.ss }

example : WF 1 ansX ansY ∧ IsMinority ansY 1 0 ∧ 2 < ansY.count 1 ∧ NearestOK sqDist bruteQuery ∧
    NearestDistOK sqDist bruteDists ∧ RadiusExact sqDist bruteRadiusAll ∧
    outerBorders sqDist ansX ansY (classRows ansX ansY 1) 0 = [0, 0, 0, 0, 4] ∧
    ansC [0, 0, 0, 0, 4] 13 = 1 ∧
    (match sample defaultChecks 1 (ansAlg ansPar (fun _ => 1) exDraws 1 bruteQuery bruteDists bruteRadiusAll) ansX ansY with
     | .ok r => decide (r.1.length = 16 ∧ r.2 = ansY ++ [1, 1, 1] ∧ ∀ q ∈ r.1.drop 13, 0 ≤ q.getD 0 0 ∧ q.getD 0 0 ≤ 3)
     | .error _ => false) = true := by
  refine ⟨⟨by decide, by decide +kernel⟩, ⟨by decide, by decide, by decide, Or.inl (by decide)⟩, by decide, bruteQuery_nearest,
    bruteDists_ok, bruteRadiusAll_ok, by decide +kernel, by decide +kernel, by decide +kernel⟩

end Verif

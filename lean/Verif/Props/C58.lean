import Verif.Model.Mwmote
import Verif.Props.C57

/-!
# C58: MWMOTE samples around informative minority rows, within their clusters
-/

namespace Verif

/-! ## Specification -/

/-- The positions below `m` which occur in the table. -/
def listed (m : Nat) (table : List (List Nat)) : List Nat :=
  (List.range m).filter (fun q => table.any (fun row => row.contains q))

/-- The positions of the minority rows with another minority row among their `k1` nearest rows (the first entry of the answer,
the row itself, does not count). -/
def mwKept (knn : Nat → List Row → List Row → List (List Nat)) (k1 : Nat) (X : List Row) (y : List Int) (a : Int) : List Nat :=
  (List.range X.length).filter (fun i => decide (y[i]? = some a) &&
    (((knn (min X.length (k1 + 1)) X X).getD i []).drop 1).any (fun j => decide (y[j]? = some a)))

/-- The majority rows listed among the `k2 + 1` nearest majority rows of some kept minority row. -/
def mwBorderRows (knn : Nat → List Row → List Row → List (List Nat)) (k1 k2 : Nat) (X : List Row) (y : List Int) (a b : Int) :
    List Row :=
  (listed (classRows X y b).length (knn (min (classRows X y b).length (k2 + 1)) (classRows X y b)
    ((mwKept knn k1 X y a).map (fun i => X.getD i [])))).map (fun q => (classRows X y b).getD q [])

/-- The positions, in the minority, of the rows listed among the `k3` nearest minority rows of some border row. -/
def mwInform (knn : Nat → List Row → List Row → List (List Nat)) (k1 k2 k3 : Nat) (X : List Row) (y : List Int) (a b : Int) :
    List Nat :=
  listed (classRows X y a).length (knn (min k3 (classRows X y a).length) (classRows X y a) (mwBorderRows knn k1 k2 X y a b))

/-- The closeness of a border row and an informative row: the reciprocal of the distance (at least `1/10`), cut off at `cfTh`,
scaled to have the maximum `cmax`. -/
def closenessOf (dist : Row → Row → ℚ) (cfTh cmax : ℚ) (q p : Row) : ℚ :=
  min (1 / max (1 / 10) (dist q p)) cfTh * (cmax / cfTh)

/-- The weight of an informative row: over the border rows, closeness times the share of the closeness. -/
def mwWeight (dist : Row → Row → ℚ) (cfTh cmax : ℚ) (Bs Ps : List Row) (p : Row) : ℚ :=
  (Bs.map (fun q => closenessOf dist cfTh cmax q p *
    (closenessOf dist cfTh cmax q p / (Ps.map (closenessOf dist cfTh cmax q)).sum))).sum

/-- `x` is a convex combination of a row of the cluster, at an eligible position, and of `nDim - 1` other rows of the cluster, all at
different positions. -/
def ClusterSimplex (d nDim : Nat) (rows : List Row) (ok : Nat → Prop) (x : Row) : Prop :=
  ∃ (b : Nat) (base : Row) (nbIdx : List Nat) (nbrs : List Row) (w : List ℚ),
    rows[b]? = some base ∧ ok b ∧ (b :: nbIdx).Nodup ∧ nbIdx.length + 1 = nDim ∧
    List.Forall₂ (fun i r => rows[i]? = some r) nbIdx nbrs ∧ IsConvexComb d w (base :: nbrs) x

/-! ## The circulant table -/

theorem circ_mod {i m j : Nat} (hi : i < m) (hj : j < m) : (i + m - j) % m = if j ≤ i then i - j else i + m - j := by
  split
  · rw [show i + m - j = (i - j) + m by omega, Nat.add_mod_right, Nat.mod_eq_of_lt (by omega)]
  · exact Nat.mod_eq_of_lt (by omega)

theorem circulant_row {m b : Nat} {row : List Nat} (h : (circulant m)[b]? = some row) :
    b < m ∧ row.length = m ∧ row.Nodup ∧ (∀ i ∈ row, i < m) ∧ row = b :: row.drop 1 := by
  unfold circulant at h
  rw [List.getElem?_map, Option.map_eq_some_iff] at h
  obtain ⟨i, hi, rfl⟩ := h
  obtain ⟨hlt, hib⟩ := List.getElem?_eq_some_iff.1 hi
  rw [List.getElem_range] at hib
  subst hib
  rw [List.length_range] at hlt
  refine ⟨hlt, by simp, ?_, ?_, ?_⟩
  · apply List.Nodup.map_on _ List.nodup_range
    intro j hj k hk he
    rw [List.mem_range] at hj hk
    rw [circ_mod hlt hj, circ_mod hlt hk] at he
    split at he <;> split at he <;> omega
  · intro j hj
    obtain ⟨k, _, rfl⟩ := List.mem_map.1 hj
    exact Nat.mod_lt _ (by omega)
  · cases m with
    | zero => omega
    | succ m =>
      rw [List.range_succ_eq_map]
      simp only [List.map_cons, List.drop_succ_cons, List.drop_zero, Nat.sub_zero, List.cons.injEq, and_true]
      rw [Nat.add_mod_right, Nat.mod_eq_of_lt hlt]

theorem circulant_tableOK (m : Nat) : TableOK (circulant m) m m := by
  intro row hrow
  obtain ⟨i, hi⟩ := List.mem_iff_getElem?.1 hrow
  obtain ⟨_, h1, _, h2, _⟩ := circulant_row hi
  exact ⟨h1, h2⟩

theorem circulant_length (m : Nat) : (circulant m).length = m := by simp [circulant]

theorem SimplexOf.circulant {d nDim : Nat} {rows : List Row} {ok : Nat → Prop} {x : Row}
    (h : SimplexOf d nDim rows rows (circulant rows.length) ok x) : ClusterSimplex d nDim rows ok x := by
  obtain ⟨b, base, row, nbIdx, nbrs, w, h1, h2, h3, h4, h5, h6, h7⟩ := h
  obtain ⟨_, _, hnd, _, he⟩ := circulant_row h3
  refine ⟨b, base, nbIdx, nbrs, w, h1, h2, ?_, h5, h6, h7⟩
  exact hnd.sublist (by rw [he]; exact h4.cons_cons _)

/-! ## Helpers -/

theorem npUnique_flatten_eq_listed {table : List (List Nat)} {k m : Nat} (h : TableOK table k m) :
    npUnique table.flatten = listed m table := by
  rw [npUnique_eq_filter_range (m := m)]
  · unfold listed
    apply List.filter_congr
    intro q _
    rw [Bool.eq_iff_iff]
    simp [List.mem_flatten]
  · intro c hc
    obtain ⟨row, hrow, hc⟩ := List.mem_flatten.1 hc
    exact (h row hrow).2 c hc

theorem takeRows_map_getD {α : Type} {X : List α} {idx : List Nat} (dflt : α) (h : ∀ i ∈ idx, i < X.length) :
    takeRows X idx = .ok (idx.map (fun i => X.getD i dflt)) := by
  apply mapM_ok_of
  intro i hi
  rw [getRow_ok, List.getElem?_eq_getElem (h i hi), List.getD_eq_getElem?_getD, List.getElem?_eq_getElem (h i hi)]
  rfl

theorem filter_zip_map {α : Type} (l : List α) (p : α → Bool) :
    ((l.zip (l.map p)).filter (fun q => q.2)).map Prod.fst = l.filter p := by
  induction l with
  | nil => rfl
  | cons a l ih =>
    simp only [List.map_cons, List.zip_cons_cons, List.filter_cons]
    cases hp : p a with
    | true => simp [ih]
    | false => simp [ih]

theorem listed_lt {m : Nat} {table : List (List Nat)} : ∀ q ∈ listed m table, q < m := by
  intro q hq
  exact List.mem_range.1 (List.mem_filter.1 hq).1

theorem mwKept_lt {knn : Nat → List Row → List Row → List (List Nat)} {k1 : Nat} {X : List Row} {y : List Int} {a : Int} :
    ∀ i ∈ mwKept knn k1 X y a, i < X.length := by
  intro q hq
  exact List.mem_range.1 (List.mem_filter.1 hq).1

theorem mwFiltered_eq {knn : Nat → List Row → List Row → List (List Nat)} (hk : KnnQueryOK knn) {k1 : Nat} {X : List Row}
    {y : List Int} {a : Int} (hxy : X.length = y.length) : mwFiltered k1 knn X y a = .ok (mwKept knn k1 X y a) := by
  unfold mwFiltered
  obtain ⟨h1, h2⟩ := hk (min X.length (k1 + 1)) X X (Nat.min_le_left _ _)
  dsimp only
  have hkeep : (labelPositions y a).mapM (fun i => do
      let row ← getRow (knn (min X.length (k1 + 1)) X X) i
      let ls ← takeRows y (row.drop 1)
      return decide (0 < ls.count a)) = .ok ((labelPositions y a).map (fun i =>
        (((knn (min X.length (k1 + 1)) X X).getD i []).drop 1).any (fun j => decide (y[j]? = some a)))) := by
    apply mapM_ok_of
    intro i hi
    have hi' : i < (knn (min X.length (k1 + 1)) X X).length := by
      have := (List.mem_filter.1 hi).1
      rw [List.mem_range] at this
      omega
    rw [getRow_lt hi', ok_bind, List.getD_eq_getElem?_getD, List.getElem?_eq_getElem hi', Option.getD_some]
    have hrow := h2 _ (List.getElem_mem hi')
    have hlt : ∀ j ∈ ((knn (min X.length (k1 + 1)) X X)[i]).drop 1, j < y.length := by
      intro j hj; rw [← hxy]; exact hrow.2 j (List.mem_of_mem_drop hj)
    rw [takeRows_map_getD 0 hlt, ok_bind]
    show Except.ok _ = _
    congr 1
    rw [Bool.eq_iff_iff, decide_eq_true_eq, List.count_pos_iff, List.any_eq_true, List.mem_map]
    constructor
    · rintro ⟨j, hj, he⟩
      refine ⟨j, hj, ?_⟩
      have := hlt j hj
      rw [List.getD_eq_getElem?_getD, List.getElem?_eq_getElem this] at he
      rw [decide_eq_true_eq, List.getElem?_eq_getElem this]
      simpa using he
    · rintro ⟨j, hj, he⟩
      rw [decide_eq_true_eq] at he
      exact ⟨j, hj, by rw [List.getD_eq_getElem?_getD, he]; rfl⟩
  rw [hkeep, ok_bind]
  show Except.ok _ = _
  congr 1
  rw [filter_zip_map]
  unfold labelPositions mwKept
  rw [List.filter_filter, hxy]
  apply List.filter_congr
  intro i _
  rw [Bool.and_comm]

theorem mwBorder_eq {knn : Nat → List Row → List Row → List (List Nat)} (hk : KnnQueryOK knn) {k1 k2 : Nat} {X M : List Row}
    {y : List Int} {a : Int} : mwBorder k2 knn X M (mwKept knn k1 X y a) = .ok (listed M.length (knn (min M.length (k2 + 1)) M
      ((mwKept knn k1 X y a).map (fun i => X.getD i [])))) := by
  unfold mwBorder
  rw [takeRows_map_getD [] mwKept_lt, ok_bind]
  show Except.ok _ = _
  congr 1
  exact npUnique_flatten_eq_listed (hk _ _ _ (Nat.min_le_left _ _)).2

theorem mwInformative_eq {knn : Nat → List Row → List Row → List (List Nat)} (hk : KnnQueryOK knn) {k3 m : Nat}
    {A M : List Row} {border : List Nat} (hb : ∀ q ∈ border, q < M.length) (hm : m = A.length) :
    mwInformative k3 knn A M border = .ok (listed m (knn (min k3 A.length) A (border.map (fun q => M.getD q [])))) := by
  unfold mwInformative
  rw [takeRows_map_getD [] hb, ok_bind]
  show Except.ok _ = _
  congr 1
  rw [hm]
  exact npUnique_flatten_eq_listed (hk _ _ _ (Nat.min_le_right _ _)).2

theorem closenessOf_pos {dist : Row → Row → ℚ} {cfTh cmax : ℚ} (h1 : 0 < cfTh) (h2 : 0 < cmax) (q p : Row) :
    0 < closenessOf dist cfTh cmax q p := by
  unfold closenessOf
  have : 0 < max (1 / 10 : ℚ) (dist q p) := lt_of_lt_of_le (by norm_num) (le_max_left _ _)
  exact mul_pos (lt_min (by positivity) h1) (by positivity)

theorem mwCloseness_eq (dist : Row → Row → ℚ) (cfTh cmax : ℚ) (q p : Row) :
    mwCloseness dist cfTh cmax q p = closenessOf dist cfTh cmax q p := by
  unfold mwCloseness closenessOf; ring

theorem mwWeight_pos {dist : Row → Row → ℚ} {cfTh cmax : ℚ} (h1 : 0 < cfTh) (h2 : 0 < cmax) {Bs Ps : List Row} (hB : Bs ≠ [])
    (hP : Ps ≠ []) (p : Row) : 0 < mwWeight dist cfTh cmax Bs Ps p := by
  unfold mwWeight
  apply sum_pos_of_all (by simpa using hB)
  intro x hx
  obtain ⟨q, _, rfl⟩ := List.mem_map.1 hx
  have := closenessOf_pos (dist := dist) h1 h2 q p
  have h3 : 0 < (Ps.map (closenessOf dist cfTh cmax q)).sum := by
    apply sum_pos_of_all (by simpa using hP)
    intro x hx
    obtain ⟨r, _, rfl⟩ := List.mem_map.1 hx
    exact closenessOf_pos h1 h2 q r
  positivity

theorem mwSelection_eq {dist : Row → Row → ℚ} {cfTh cmax : ℚ} (h1 : 0 < cfTh) (h2 : 0 < cmax) {Bs Ps : List Row} (hB : Bs ≠ [])
    (hP : Ps ≠ []) : mwSelection dist cfTh cmax Bs Ps = some ((Ps.map (mwWeight dist cfTh cmax Bs Ps)).map
      (fun x => x / (Ps.map (mwWeight dist cfTh cmax Bs Ps)).sum)) := by
  unfold mwSelection
  have hf : mwCloseness dist cfTh cmax = closenessOf dist cfTh cmax := by
    funext q p; exact mwCloseness_eq dist cfTh cmax q p
  simp only [hf]
  have hs : ∀ q, 0 < (Ps.map (closenessOf dist cfTh cmax q)).sum := by
    intro q
    apply sum_pos_of_all (by simpa using hP)
    intro x hx
    obtain ⟨r, _, rfl⟩ := List.mem_map.1 hx
    exact closenessOf_pos h1 h2 q r
  rw [if_neg]
  · have hw : (List.range Ps.length).map (fun j => ((Bs.map (fun q => Ps.map (closenessOf dist cfTh cmax q))).map
        (fun r => (r.getD j 0) ^ 2 / r.sum)).sum) = Ps.map (mwWeight dist cfTh cmax Bs Ps) := by
      rw [← map_range_getD Ps [] (mwWeight dist cfTh cmax Bs Ps)]
      apply List.map_congr_left
      intro j hj
      rw [List.mem_range] at hj
      unfold mwWeight
      rw [List.map_map]
      congr 1
      apply List.map_congr_left
      intro q _
      simp only [Function.comp_def]
      have : (Ps.map (closenessOf dist cfTh cmax q)).getD j 0 = closenessOf dist cfTh cmax q (Ps.getD j []) := by
        rw [List.getD_eq_getElem?_getD, List.getElem?_map, List.getElem?_eq_getElem hj, List.getD_eq_getElem?_getD,
          List.getElem?_eq_getElem hj]
        rfl
      rw [this]
      ring
    rw [hw, if_neg]
    have := sum_pos_of_all (l := Ps.map (mwWeight dist cfTh cmax Bs Ps)) (by simpa using hP) (by
      intro x hx
      obtain ⟨p, _, rfl⟩ := List.mem_map.1 hx
      exact mwWeight_pos h1 h2 hB hP p)
    exact this.ne'
  · rintro (h | h)
    · exact h1.ne' h
    · obtain ⟨r, hr, h⟩ := List.any_eq_true.1 h
      obtain ⟨q, _, rfl⟩ := List.mem_map.1 hr
      rw [decide_eq_true_eq] at h
      exact (hs q).ne' h

/-- With a zero threshold or a zero maximum all probabilities are NaN. -/
theorem mwSelection_nan {dist : Row → Row → ℚ} {cfTh cmax : ℚ} (h : cfTh = 0 ∨ cmax = 0) {Bs Ps : List Row} (hB : Bs ≠ []) :
    mwSelection dist cfTh cmax Bs Ps = none := by
  unfold mwSelection
  dsimp only
  rw [if_pos]
  rcases h with h | h
  · exact .inl h
  · right
    obtain ⟨q, hq⟩ := List.exists_mem_of_ne_nil _ hB
    rw [List.any_eq_true]
    refine ⟨Ps.map (mwCloseness dist cfTh cmax q), List.mem_map.2 ⟨q, hq, rfl⟩, ?_⟩
    rw [decide_eq_true_eq]
    apply List.sum_eq_zero
    intro x hx
    obtain ⟨p, _, rfl⟩ := List.mem_map.1 hx
    unfold mwCloseness
    rw [h, mul_zero]

theorem lt_numLabels {labels : List Int} (h0 : ∀ l ∈ labels, 0 ≤ l) {l : Int} (h : l ∈ labels) :
    l.toNat < numLabels labels ∧ ((l.toNat : Nat) : Int) = l := by
  have hle : ∀ (ls : List Int), l ∈ ls → l ≤ ls.foldr max (-1) := by
    intro ls
    induction ls with
    | nil => intro h; simp at h
    | cons a ls ih =>
      intro h
      rw [List.foldr_cons]
      rcases List.mem_cons.1 h with rfl | h
      · exact le_max_left _ _
      · exact le_trans (ih h) (le_max_right _ _)
  have := hle labels h
  have h0' := h0 l h
  unfold numLabels
  omega

/-- The sums over the clusters add up to the whole. -/
theorem sum_by_label {α : Type} (f : α → ℚ) (lab : α → Nat) (N : Nat) (l : List α) (h : ∀ a ∈ l, lab a < N) :
    ((List.range N).map (fun c => ((l.filter (fun a => decide (lab a = c))).map f).sum)).sum = (l.map f).sum := by
  induction l with
  | nil => simp
  | cons a l ih =>
    have ih' := ih (fun b hb => h b (by simp [hb]))
    have ha := h a (by simp)
    have key : ∀ N, ((List.range N).map (fun c => (((a :: l).filter (fun a => decide (lab a = c))).map f).sum)).sum =
        ((List.range N).map (fun c => ((l.filter (fun a => decide (lab a = c))).map f).sum)).sum +
          (if lab a < N then f a else 0) := by
      intro N
      induction N with
      | zero => simp
      | succ N ihN =>
        rw [List.range_succ, List.map_append, List.map_append, List.sum_append, List.sum_append, ihN]
        simp only [List.map_cons, List.map_nil, List.sum_cons, List.sum_nil]
        by_cases hN : lab a = N
        · have e1 : (a :: l).filter (fun a => decide (lab a = N)) = a :: l.filter (fun a => decide (lab a = N)) := by
            rw [List.filter_cons]; simp [hN]
          have e2 : ¬ lab a < N := by omega
          have e3 : lab a < N + 1 := by omega
          rw [e1, if_neg e2, if_pos e3, List.map_cons, List.sum_cons]
          ring
        · have e1 : (a :: l).filter (fun a => decide (lab a = N)) = l.filter (fun a => decide (lab a = N)) := by
            rw [List.filter_cons]; simp [hN]
          rw [e1]
          by_cases hlt : lab a < N
          · have e3 : lab a < N + 1 := by omega
            rw [if_pos hlt, if_pos e3]; ring
          · have e3 : ¬ lab a < N + 1 := by omega
            rw [if_neg hlt, if_neg e3]; ring
    rw [key, ih', if_pos ha, List.map_cons, List.sum_cons]
    ring

/-- The weight of every cluster: the weights of its informative rows. -/
def mwClusterShares (labels : List Int) (informative : List Nat) (weight : Nat → ℚ) : List ℚ :=
  (List.range (numLabels labels)).map (fun (c : Nat) =>
    ((informative.filter (fun p => decide (labels[p]? = some (c : Int)))).map weight).sum)

theorem mwClusterShares_sum {labels : List Int} {informative : List Nat} {weight : Nat → ℚ} (h0 : ∀ l ∈ labels, 0 ≤ l)
    (hi : ∀ p ∈ informative, p < labels.length) :
    (mwClusterShares labels informative weight).sum = (informative.map weight).sum := by
  unfold mwClusterShares
  rw [← sum_by_label weight (fun p => (labels.getD p 0).toNat) (numLabels labels) informative (by
    intro p hp
    have := hi p hp
    rw [List.getD_eq_getElem?_getD, List.getElem?_eq_getElem this]
    exact (lt_numLabels h0 (List.getElem_mem this)).1)]
  congr 1
  apply List.map_congr_left
  intro c _
  congr 2
  apply List.filter_congr
  intro p hp
  have hp' := hi p hp
  rw [List.getD_eq_getElem?_getD, List.getElem?_eq_getElem hp', Option.getD_some]
  have := (lt_numLabels h0 (List.getElem_mem hp')).2
  rw [decide_eq_decide, Option.some.injEq]
  omega

theorem mwClusterWeights_eq {labels : List Int} {informative : List Nat} {weight : Nat → ℚ} {t : ℚ} :
    mwClusterWeights informative (informative.map (fun p => weight p / t)) labels =
      (mwClusterShares labels informative weight).map (fun x => x / t) := by
  unfold mwClusterWeights mwClusterShares
  rw [List.map_map]
  apply List.map_congr_left
  intro c _
  simp only [Function.comp_def]
  induction informative with
  | nil => simp
  | cons p l ih =>
    simp only [List.map_cons, List.zip_cons_cons, List.filter_cons]
    split
    · simp only [List.map_cons, List.sum_cons, ih]
      ring
    · exact ih

/-- The normalised cluster weights are the shares. -/
theorem normalize_shares {ws : List ℚ} {t : ℚ} (ht : t = ws.sum) (hpos : 0 < t) :
    normalize (ws.map (fun x => x / t)) = .ok (shares ws) := by
  unfold normalize shares
  have h1 : (ws.map (fun x => x / t)).sum = 1 := by
    rw [sum_map_div, ht, div_self]; rw [← ht]; exact hpos.ne'
  rw [h1, if_neg one_ne_zero, if_neg (by rw [← ht]; exact hpos.ne'), ht]
  congr 1
  rw [List.map_map]
  simp [Function.comp_def]

theorem getD_idxOf_map {l : List Nat} {f : Nat → ℚ} {c : Nat} (h : c ∈ l) : (l.map f).getD (l.idxOf c) 0 = f c := by
  have := List.idxOf_lt_length_iff.2 h
  rw [List.getD_eq_getElem?_getD, List.getElem?_map, List.getElem?_eq_getElem this, List.getElem_idxOf]
  rfl

/-- The weights within a cluster, before normalisation. -/
theorem mwWithin_pre {cluster informative : List Nat} {f : Nat → ℚ} :
    cluster.map (fun c => if c ∈ informative then (informative.map f).getD (informative.idxOf c) 0 else 0) =
      cluster.map (fun c => if c ∈ informative then f c else 0) := by
  apply List.map_congr_left
  intro c _
  split
  · rename_i h; rw [getD_idxOf_map h]
  · rfl

theorem mwWithin_spec {cluster informative : List Nat} {f : Nat → ℚ} (hf : ∀ p, 0 < f p) {within : List ℚ}
    (h : mwWithin cluster informative (informative.map f) = .ok within) :
    within.length = cluster.length ∧ (∀ x ∈ within, 0 ≤ x) ∧
      ∀ (b : Nat) (c : ℚ), within[b]? = some c → 0 < c → ∃ p, cluster[b]? = some p ∧ p ∈ informative := by
  unfold mwWithin at h
  rw [mwWithin_pre] at h
  unfold normalize at h
  split at h
  · cases h
  injection h with h
  subst h
  have hnn : ∀ x ∈ cluster.map (fun c => if c ∈ informative then f c else 0), 0 ≤ x := by
    intro x hx
    obtain ⟨c, _, rfl⟩ := List.mem_map.1 hx
    split
    · exact (hf c).le
    · exact le_refl _
  refine ⟨by simp, ?_, ?_⟩
  · intro x hx
    obtain ⟨z, hz, rfl⟩ := List.mem_map.1 hx
    exact div_nonneg (hnn z hz) (List.sum_nonneg hnn)
  · intro b c hb hc
    rw [List.getElem?_map, List.getElem?_map, Option.map_map, Option.map_eq_some_iff] at hb
    obtain ⟨p, hp, rfl⟩ := hb
    refine ⟨p, hp, ?_⟩
    by_contra hne
    simp [hne] at hc

theorem mwWithin_ok {cluster informative : List Nat} {f : Nat → ℚ} (hf : ∀ p, 0 < f p) {p : Nat} (hp : p ∈ cluster)
    (hi : p ∈ informative) : ∃ within, mwWithin cluster informative (informative.map f) = .ok within ∧ 0 < within.sum := by
  unfold mwWithin
  rw [mwWithin_pre]
  have hnn : ∀ x ∈ cluster.map (fun c => if c ∈ informative then f c else 0), 0 ≤ x := by
    intro x hx
    obtain ⟨c, _, rfl⟩ := List.mem_map.1 hx
    split
    · exact (hf c).le
    · exact le_refl _
  have hpos : 0 < (cluster.map (fun c => if c ∈ informative then f c else 0)).sum := by
    have hmem : f p ∈ cluster.map (fun c => if c ∈ informative then f c else 0) :=
      List.mem_map.2 ⟨p, hp, by simp [hi]⟩
    exact lt_of_lt_of_le (hf p) (List.single_le_sum hnn _ hmem)
  obtain ⟨w, h1, _, _, h2⟩ := normalize_ok hnn hpos
  exact ⟨w, h1, by rw [h2]; norm_num⟩

theorem listed_ne_nil {table : List (List Nat)} {k m : Nat} (h : TableOK table k m) (hk : 0 < k) (hne : table ≠ []) :
    listed m table ≠ [] := by
  obtain ⟨row, hrow⟩ := List.exists_mem_of_ne_nil _ hne
  obtain ⟨h1, h2⟩ := h row hrow
  have hr : row ≠ [] := by intro h0; rw [h0, List.length_nil] at h1; omega
  obtain ⟨i, hi⟩ := List.exists_mem_of_ne_nil _ hr
  apply List.ne_nil_of_mem (a := i)
  unfold listed
  rw [List.mem_filter, List.mem_range, List.any_eq_true]
  exact ⟨h2 i hi, row, hrow, by simpa using hi⟩

theorem mwBorderRows_ne_nil {knn : Nat → List Row → List Row → List (List Nat)} (hk : KnnQueryOK knn) {k1 k2 : Nat}
    {X : List Row} {y : List Int} {a b : Int} (hb : 0 < (classRows X y b).length) (hkept : mwKept knn k1 X y a ≠ []) :
    mwBorderRows knn k1 k2 X y a b ≠ [] := by
  obtain ⟨h1, h2⟩ := hk (min (classRows X y b).length (k2 + 1)) (classRows X y b)
    ((mwKept knn k1 X y a).map (fun i => X.getD i [])) (Nat.min_le_left _ _)
  unfold mwBorderRows
  intro h0
  rw [List.map_eq_nil_iff] at h0
  refine listed_ne_nil h2 (by omega) ?_ h0
  intro h3
  rw [h3] at h1
  simp only [List.length_nil, List.length_map] at h1
  exact hkept (List.length_eq_zero_iff.1 h1.symm)

theorem mwInform_ne_nil {knn : Nat → List Row → List Row → List (List Nat)} (hk : KnnQueryOK knn) {k1 k2 k3 : Nat}
    {X : List Row} {y : List Int} {a b : Int} (hk3 : 1 ≤ k3) (ha : 0 < (classRows X y a).length)
    (hB : mwBorderRows knn k1 k2 X y a b ≠ []) : mwInform knn k1 k2 k3 X y a b ≠ [] := by
  obtain ⟨h1, h2⟩ := hk (min k3 (classRows X y a).length) (classRows X y a) (mwBorderRows knn k1 k2 X y a b)
    (Nat.min_le_right _ _)
  refine listed_ne_nil h2 (by omega) ?_
  intro h3
  rw [h3] at h1
  exact hB (List.length_eq_zero_iff.1 (by simpa using h1.symm))

/-- The part of the algorithm behind the search. -/
def mwTail (par : MwParams) (vol : List Row → ℚ) (cu : Nat → ℚ) (drs : Nat → Draws) (d n : Nat)
    (dist : Row → Row → ℚ) (a : Int) (X : List Row) (y labels : List Int) (A Bs : List Row) (inf : List Nat) :
    Res (List Row × List Int) :=
  match mwSelection dist par.cfTh par.cmax Bs (inf.map (fun p => A.getD p [])) with
  | none => throw .valueError
  | some probs => do
    let cw ← normalize (mwClusterWeights inf probs labels)
    let selected ← npChoice cw.length n cw cu
    let samples ← sampleInClusters par.ss vol drs d (fun c => do
      let r ← takeRows A (labelPositions labels c)
      let within ← mwWithin (labelPositions labels c) inf probs
      return { rows := r, indices := circulant r.length, k := r.length, args := { baseWeights := some within } }) selected
    return withSamples X y a samples

theorem mwmote_eq {par : MwParams} {vol : List Row → ℚ} {cu : Nat → ℚ} {drs : Nat → Draws} {d : Nat}
    {kmeans : Nat → List Row → List Int} {dist : Row → Row → ℚ} {knn : Nat → List Row → List Row → List (List Nat)}
    {X : List Row} {y : List Int} {a b : Int} (hwf : WF d X y) (hk : KnnQueryOK knn) (hmin : IsMinority y a b)
    (h3 : 2 < y.count a) (hn : 0 < requested par.proportion (y.count b) (y.count a)) :
    sample defaultChecks d (mwmoteAlg par vol cu drs d kmeans dist knn) X y =
      if mwKept knn par.k1 X y a = [] then .ok (X, y)
      else mwTail par vol cu drs d (requested par.proportion (y.count b) (y.count a)) dist a X y
        (kmeans (min (classRows X y a).length par.m) (classRows X y a)) (classRows X y a)
        (mwBorderRows knn par.k1 par.k2 X y a b) (mwInform knn par.k1 par.k2 par.k3 X y a b) := by
  obtain ⟨s, hs, rfl, rfl⟩ := stats_of_isMinority hmin
  obtain ⟨hm, hM, _⟩ := stats_min_mem hs
  rw [sample_default hs, if_neg (by omega)]
  unfold mwmoteAlg
  rw [stats_count hs hm, stats_count hs hM, detN_eq_requested, ok_bind, if_neg (by omega)]
  simp only [selectLabel_eq_classRows]
  rw [mwFiltered_eq hk hwf.1, ok_bind]
  by_cases hkept : mwKept knn par.k1 X y s.minLabel = []
  · rw [if_pos hkept, if_pos (by rw [hkept]; rfl)]; rfl
  rw [if_neg hkept, if_neg (by intro h; exact hkept (List.length_eq_zero_iff.1 h)), mwBorder_eq hk, ok_bind,
    mwInformative_eq hk listed_lt rfl, ok_bind, takeRows_map_getD [] listed_lt, ok_bind, takeRows_map_getD [] listed_lt, ok_bind]
  rfl

/-! ## The property -/

/-- **MWMOTE** (with positive `cf_th` and `cmax`). The input comes back if no minority row has another minority row among its `k1`
nearest. Otherwise exactly the requested number of rows is added. A cluster of the minority is drawn in proportion to the
weights of its informative rows, and every new row is a convex combination of an informative row of the drawn cluster and of
`n_dim - 1` (fewer in small clusters) other rows of the same cluster. -/
theorem C58_mwmote {par : MwParams} {vol : List Row → ℚ} {cu : Nat → ℚ} {drs : Nat → Draws} {d : Nat}
    {kmeans : Nat → List Row → List Int} {dist : Row → Row → ℚ} {knn : Nat → List Row → List Row → List (List Nat)}
    {X X' : List Row} {y y' : List Int} {a b : Int} (hwf : WF d X y) (hkm : KmeansOK kmeans)
    (hkm0 : ∀ n rows, ∀ l ∈ kmeans n rows, 0 ≤ l) (hk : KnnQueryOK knn) (hcu : ∀ i, 0 ≤ cu i ∧ cu i < 1)
    (hdr : ∀ i, (drs i).OK) (hmin : IsMinority y a b) (hg : par.ss.gaussian = .none) (hvol : ∀ vs, 0 ≤ vol vs)
    (h3 : 2 < y.count a) (hn : 0 < requested par.proportion (y.count b) (y.count a)) (hk3 : 1 ≤ par.k3)
    (hcf : 0 < par.cfTh) (hcm : 0 < par.cmax)
    (h : sample defaultChecks d (mwmoteAlg par vol cu drs d kmeans dist knn) X y = .ok (X', y')) :
    let A := classRows X y a
    let labels := kmeans (min A.length par.m) A
    let inf := mwInform knn par.k1 par.k2 par.k3 X y a b
    let weight := fun p => mwWeight dist par.cfTh par.cmax (mwBorderRows knn par.k1 par.k2 X y a b)
      (inf.map (fun p => A.getD p [])) (A.getD p [])
    let rows := fun c : Nat => classRows A labels c
    if mwKept knn par.k1 X y a = [] then X' = X ∧ y' = y
    else ∃ (selected : List Nat) (new : List Row), X' = X ++ new ∧
      y' = y ++ List.replicate (requested par.proportion (y.count b) (y.count a)) a ∧
      new.length = requested par.proportion (y.count b) (y.count a) ∧
      DrawnByShares (shares (mwClusterShares labels inf weight)) cu (requested par.proportion (y.count b) (y.count a)) selected ∧
      ByCluster (numLabels labels) selected (fun c => ClusterSimplex d (min par.ss.nDim (rows c).length) (rows c)
        (fun i => ∃ p, (labelPositions labels c)[i]? = some p ∧ p ∈ inf)) new := by
  intro A labels inf weight rows
  rw [mwmote_eq hwf hk hmin h3 hn] at h
  by_cases hkept : mwKept knn par.k1 X y a = []
  · rw [if_pos hkept] at h ⊢
    injection h with h
    obtain ⟨rfl, rfl⟩ := Prod.mk.inj h
    exact ⟨rfl, rfl⟩
  rw [if_neg hkept] at h ⊢
  have hAl : A.length = y.count a := classRows_length hwf.1 _
  have hMl : (classRows X y b).length = y.count b := classRows_length hwf.1 _
  have hbpos : 0 < y.count b := List.count_pos_iff.2 hmin.2.1
  have hB := mwBorderRows_ne_nil (k2 := par.k2) hk (by omega : 0 < (classRows X y b).length) hkept
  have hI := mwInform_ne_nil (k3 := par.k3) hk hk3 (by show 0 < A.length; omega) hB
  have hll : labels.length = A.length := hkm _ _
  have hl0 : ∀ l ∈ labels, 0 ≤ l := hkm0 _ _
  unfold mwTail at h
  rw [mwSelection_eq hcf hcm hB (by simpa using hI)] at h
  dsimp only at h
  have hPs : ((inf.map (fun p => A.getD p [])).map (mwWeight dist par.cfTh par.cmax (mwBorderRows knn par.k1 par.k2 X y a b)
      (inf.map (fun p => A.getD p [])))) = inf.map weight := by
    rw [List.map_map]; rfl
  have hwpos : ∀ p, 0 < weight p := fun p => mwWeight_pos hcf hcm hB (by simpa using hI) _
  have htot : 0 < (inf.map weight).sum := by
    apply sum_pos_of_all (by simpa using hI)
    intro x hx
    obtain ⟨p, _, rfl⟩ := List.mem_map.1 hx
    exact hwpos p
  change (normalize (mwClusterWeights inf (((inf.map (fun p => A.getD p [])).map _).map _) labels) >>= _) = _ at h
  rw [hPs, List.map_map] at h
  change (normalize (mwClusterWeights inf (inf.map (fun p => weight p / (inf.map weight).sum)) labels) >>= _) = _ at h
  rw [mwClusterWeights_eq, normalize_shares (mwClusterShares_sum hl0 (fun p hp => by
    rw [hll]; exact listed_lt p hp)).symm htot, ok_bind] at h
  obtain ⟨selected, hsel, h⟩ := bind_ok.1 h
  obtain ⟨out, hout, h⟩ := bind_ok.1 h
  have h := pure_ok.1 h
  have hdrawn := npChoice_drawn hcu hsel
  have hlt : ∀ c ∈ selected, c < numLabels labels := by
    intro c hc
    obtain ⟨i, hi⟩ := List.mem_iff_getElem?.1 hc
    have := (hdrawn.2 i c hi).1
    have hl : ∀ l : List ℚ, (shares l).length = l.length := by
      intro l; unfold shares; split <;> simp
    rw [hl] at this
    simpa [mwClusterShares] using this
  have hby := sampleInClusters_sound (m := numLabels labels)
    (P := fun c => ClusterSimplex d (min par.ss.nDim (rows c).length) (rows c)
        (fun i => ∃ p, (labelPositions labels c)[i]? = some p ∧ p ∈ inf))
    hlt (by
      intro c t i o hc ht ho
      rw [takeRows_labelPositions hll.symm, ok_bind] at ht
      obtain ⟨within, hwi, ht⟩ := bind_ok.1 ht
      have ht := pure_ok.1 ht
      subst ht
      dsimp only at ho
      obtain ⟨w1, w2, w3⟩ := mwWithin_spec (f := fun p => weight p / (inf.map weight).sum)
        (fun p => div_pos (hwpos p) htot) hwi
      have hlp : (labelPositions labels (c : Int)).length = (rows c).length :=
        (takeRows_length (takeRows_labelPositions hll.symm c)).symm
      obtain ⟨g1, g2⟩ := sampleSimplex_simplexOf
        (fun r hr => hwf.2 r (mem_of_mem_classRows (mem_of_mem_classRows hr))) (by intro V hV; cases hV) rfl
        (by intro hV; cases hV) (hdr i) (by rw [circulant_length]) hg
        (by
          intro w hw
          injection hw with hw
          subst hw
          rw [circulant_length, w1, hlp]
          exact ⟨rfl, w2⟩) rfl hvol ho
      refine ⟨g1, fun x hx => ?_⟩
      obtain ⟨bb, base, nbIdx, nbrs, w, e1, e2, e3⟩ := (g2 x hx).circulant
      obtain ⟨cc, e4, e5⟩ := e2 within rfl
      exact ⟨bb, base, nbIdx, nbrs, w, e1, w3 bb cc e4 e5, e3⟩) hout
  have hlen := ByCluster.length hby hlt
  rw [hdrawn.1] at hlen
  unfold withSamples at h
  obtain ⟨rfl, rfl⟩ := Prod.mk.inj h
  exact ⟨selected, out, rfl, by rw [hlen], hlen, hdrawn, hby⟩

/-- MWMOTE with positive `cf_th` and `cmax` returns on every two-class data set. -/
theorem C58_total {par : MwParams} {vol : List Row → ℚ} {cu : Nat → ℚ} {drs : Nat → Draws} {d : Nat}
    {kmeans : Nat → List Row → List Int} {dist : Row → Row → ℚ} {knn : Nat → List Row → List Row → List (List Nat)}
    {X : List Row} {y : List Int} {a b : Int} (hwf : WF d X y) (hkm : KmeansOK kmeans)
    (hkm0 : ∀ n rows, ∀ l ∈ kmeans n rows, 0 ≤ l) (hk : KnnQueryOK knn) (hcu : ∀ i, 0 ≤ cu i ∧ cu i < 1)
    (hdr : ∀ i, (drs i).OK) (hu : ∀ t i j, 0 < (drs t).simplexU i j) (hmin : IsMinority y a b) (hd : 1 ≤ par.ss.nDim)
    (hk3 : 1 ≤ par.k3) (hcf : 0 < par.cfTh) (hcm : 0 < par.cmax)
    (hwi : par.ss.within = .random ∨ (par.ss.within = .deterministic ∧ par.ss.nDim ≤ 2)) :
    ∃ r, sample defaultChecks d (mwmoteAlg par vol cu drs d kmeans dist knn) X y = .ok r := by
  by_cases h3 : 2 < y.count a
  case neg =>
    obtain ⟨s, hs, rfl, rfl⟩ := stats_of_isMinority hmin
    rw [sample_default hs, if_pos (by omega)]
    exact ⟨_, rfl⟩
  by_cases hn : 0 < requested par.proportion (y.count b) (y.count a)
  case neg =>
    obtain ⟨s, hs, rfl, rfl⟩ := stats_of_isMinority hmin
    obtain ⟨hm, hM, _⟩ := stats_min_mem hs
    rw [sample_default hs, if_neg (by omega)]
    unfold mwmoteAlg
    rw [stats_count hs hm, stats_count hs hM, detN_eq_requested, ok_bind, if_pos (by omega)]
    exact ⟨_, rfl⟩
  rw [mwmote_eq hwf hk hmin h3 hn]
  split
  · exact ⟨_, rfl⟩
  rename_i hkept
  set A := classRows X y a with hA
  set labels := kmeans (min A.length par.m) A with hlab
  set inf := mwInform knn par.k1 par.k2 par.k3 X y a b with hinf
  have hAl : A.length = y.count a := classRows_length hwf.1 _
  have hMl : (classRows X y b).length = y.count b := classRows_length hwf.1 _
  have hbpos : 0 < y.count b := List.count_pos_iff.2 hmin.2.1
  have hB := mwBorderRows_ne_nil (k2 := par.k2) hk (by omega : 0 < (classRows X y b).length) hkept
  have hI : inf ≠ [] := mwInform_ne_nil (k3 := par.k3) hk hk3 (by rw [← hA]; omega) hB
  have hll : labels.length = A.length := hkm _ _
  have hl0 : ∀ l ∈ labels, 0 ≤ l := hkm0 _ _
  have hinflt : ∀ p ∈ inf, p < labels.length := fun p hp => by rw [hll]; exact listed_lt p hp
  unfold mwTail
  rw [mwSelection_eq hcf hcm hB (by simpa using hI)]
  dsimp only
  set weight := fun p => mwWeight dist par.cfTh par.cmax (mwBorderRows knn par.k1 par.k2 X y a b)
      (inf.map (fun p => A.getD p [])) (A.getD p []) with hweight
  have hPs : ((inf.map (fun p => A.getD p [])).map (mwWeight dist par.cfTh par.cmax (mwBorderRows knn par.k1 par.k2 X y a b)
      (inf.map (fun p => A.getD p [])))) = inf.map weight := by
    rw [List.map_map]; rfl
  have hwpos : ∀ p, 0 < weight p := fun p => mwWeight_pos hcf hcm hB (by simpa using hI) _
  have htot : 0 < (inf.map weight).sum := by
    apply sum_pos_of_all (by simpa using hI)
    intro x hx
    obtain ⟨p, _, rfl⟩ := List.mem_map.1 hx
    exact hwpos p
  have hsum := mwClusterShares_sum (weight := weight) hl0 hinflt
  rw [hPs, List.map_map]
  change ∃ r, (normalize (mwClusterWeights inf (inf.map (fun p => weight p / (inf.map weight).sum)) labels) >>= _) = _
  rw [mwClusterWeights_eq, normalize_shares hsum.symm htot, ok_bind]
  have hcs0 : ∀ x ∈ mwClusterShares labels inf weight, 0 ≤ x := by
    intro x hx
    obtain ⟨c, _, rfl⟩ := List.mem_map.1 hx
    apply List.sum_nonneg
    intro z hz
    obtain ⟨p, _, rfl⟩ := List.mem_map.1 hz
    exact (hwpos p).le
  have hsne : (mwClusterShares labels inf weight).sum ≠ 0 := by rw [hsum]; exact htot.ne'
  have hsh : shares (mwClusterShares labels inf weight) = (mwClusterShares labels inf weight).map
      (fun q => q / (mwClusterShares labels inf weight).sum) := by unfold shares; rw [if_neg hsne]
  obtain ⟨sel, hsel, hl, hmem⟩ := npChoice_ok (n := requested par.proportion (y.count b) (y.count a))
    (p := shares (mwClusterShares labels inf weight)) rfl (by
      intro x hx
      rw [hsh] at hx
      obtain ⟨q, hq, rfl⟩ := List.mem_map.1 hx
      exact div_nonneg (hcs0 q hq) (List.sum_nonneg hcs0)) (by
      rw [hsh, sum_map_div, div_self hsne]) hcu
  rw [hsel, ok_bind]
  obtain ⟨out, hout⟩ := sampleInClusters_ok (ss := par.ss) (vol := vol) (drs := drs) (d := d) (sel := sel)
    (task := fun (c : Nat) => do
      let r ← takeRows A (labelPositions labels c)
      let within ← mwWithin (labelPositions labels c) inf (inf.map (fun p => weight p / (inf.map weight).sum))
      return { rows := r, indices := circulant r.length, k := r.length, args := { baseWeights := some within } })
    (by intro h0; rw [h0, List.length_nil] at hl; omega) (by
      intro c i hc
      obtain ⟨x, hx, hxpos⟩ := hmem c hc
      have hlp : (labelPositions labels (c : Int)).length = (classRows A labels c).length :=
        (takeRows_length (takeRows_labelPositions hll.symm c)).symm
      -- the cluster has an informative row
      obtain ⟨p, hp1, hp2⟩ : ∃ p, p ∈ labelPositions labels c ∧ p ∈ inf := by
        rw [hsh, List.getElem?_map, Option.map_eq_some_iff] at hx
        obtain ⟨q, hq, rfl⟩ := hx
        unfold mwClusterShares at hq
        rw [List.getElem?_map, Option.map_eq_some_iff] at hq
        obtain ⟨c', hc', rfl⟩ := hq
        have hcc : c' = c := by
          obtain ⟨hlt, hji⟩ := List.getElem?_eq_some_iff.1 hc'
          rw [← hji, List.getElem_range]
        subst hcc
        by_cases hne : inf.filter (fun p => decide (labels[p]? = some (c' : Int))) = []
        · rw [hne] at hxpos; simp at hxpos
        · obtain ⟨p, hp⟩ := List.exists_mem_of_ne_nil _ hne
          obtain ⟨hp1, hp2⟩ := List.mem_filter.1 hp
          refine ⟨p, ?_, hp1⟩
          unfold labelPositions
          rw [List.mem_filter, List.mem_range]
          exact ⟨hinflt p hp1, hp2⟩
      obtain ⟨within, hw, hwsum⟩ := mwWithin_ok (f := fun p => weight p / (inf.map weight).sum)
        (fun p => div_pos (hwpos p) htot) hp1 hp2
      obtain ⟨w1, w2, _⟩ := mwWithin_spec (f := fun p => weight p / (inf.map weight).sum)
        (fun p => div_pos (hwpos p) htot) hw
      have hrpos : 0 < (classRows A labels c).length := by
        rw [← hlp]; exact List.length_pos_of_mem hp1
      refine ⟨_, by rw [takeRows_labelPositions hll.symm, ok_bind, hw, ok_bind]; rfl, ?_⟩
      exact sampleSimplex_ok (circulant_tableOK _) (by rw [circulant_length])
        (by intro he; have := circulant_length (classRows A labels c).length; dsimp only at he; rw [he, List.length_nil] at this; omega)
        hrpos hd rfl (by intro ws hws; cases hws) (by intro hV; cases hV)
        ⟨by rw [circulant_length, w1, hlp], w2, hwsum⟩ (hdr i).choice (hu i) (by
          rcases hwi with h | ⟨h, h'⟩
          · exact .inl h
          · exact .inr ⟨h, by omega⟩))
  refine ⟨withSamples X y a out, ?_⟩
  change (sampleInClusters par.ss vol drs d (fun (c : Nat) => do
      let r ← takeRows A (labelPositions labels c)
      let within ← mwWithin (labelPositions labels c) inf (inf.map (fun p => weight p / (inf.map weight).sum))
      return { rows := r, indices := circulant r.length, k := r.length, args := { baseWeights := some within } }) sel >>= _) = _
  rw [hout]
  rfl

/-- The constructor accepts `cf_th = 0` and `cmax = 0`; with either of them MWMOTE raises `ValueError` (all probabilities are NaN)
whenever there is something to do. -/
theorem C58_zero_parameter {par : MwParams} {vol : List Row → ℚ} {cu : Nat → ℚ} {drs : Nat → Draws} {d : Nat}
    {kmeans : Nat → List Row → List Int} {dist : Row → Row → ℚ} {knn : Nat → List Row → List Row → List (List Nat)}
    {X : List Row} {y : List Int} {a b : Int} (hwf : WF d X y) (hk : KnnQueryOK knn) (hmin : IsMinority y a b)
    (h3 : 2 < y.count a) (hn : 0 < requested par.proportion (y.count b) (y.count a))
    (hkept : mwKept knn par.k1 X y a ≠ []) (h0 : par.cfTh = 0 ∨ par.cmax = 0) :
    sample defaultChecks d (mwmoteAlg par vol cu drs d kmeans dist knn) X y = .error .valueError := by
  have hMl : (classRows X y b).length = y.count b := classRows_length hwf.1 _
  have hbpos : 0 < y.count b := List.count_pos_iff.2 hmin.2.1
  have hB := mwBorderRows_ne_nil (k2 := par.k2) hk (by omega : 0 < (classRows X y b).length) hkept
  rw [mwmote_eq hwf hk hmin h3 hn, if_neg hkept]
  unfold mwTail
  rw [mwSelection_nan h0 hB]
  rfl

/-! ## A concrete data set -/

def mwPar (cf cm : ℚ) : MwParams :=
  { proportion := 1, k1 := 3, k2 := 2, k3 := 2, m := 3, cfTh := cf, cmax := cm,
    ss := { nDim := 2, simplexSampling := .random, within := .random, gaussian := .none } }

theorem clKmeans_nonneg : ∀ n rows, ∀ l ∈ clKmeans n rows, 0 ≤ l := by
  intro n rows l hl
  unfold clKmeans at hl
  split at hl
  · obtain ⟨_, _, rfl⟩ := List.mem_map.1 hl; exact le_refl _
  · obtain ⟨r, _, rfl⟩ := List.mem_map.1 hl
    split
    · exact le_refl _
    · split <;> decide

example : WF 1 clX clY ∧ IsMinority clY 1 0 ∧ KnnQueryOK bruteQuery ∧ KmeansOK clKmeans ∧
    (∀ n rows, ∀ l ∈ clKmeans n rows, 0 ≤ l) ∧ mwKept bruteQuery 3 clX clY 1 = [0, 1, 2, 3] ∧
    mwInform bruteQuery 3 2 2 clX clY 1 0 = [2, 3] ∧
    (match sample defaultChecks 1 (mwmoteAlg (mwPar 5 10) (fun _ => 1) (fun _ => 1/2) (fun _ => exDraws) 1 clKmeans
        clDist bruteQuery) clX clY with
     | .ok r => decide (r.1.length = 10 ∧ ∀ x ∈ r.1.drop 9, 10 < x.getD 0 0 ∧ x.getD 0 0 < 12)
     | .error _ => false) = true ∧
    sample defaultChecks 1 (mwmoteAlg (mwPar 0 10) (fun _ => 1) (fun _ => 1/2) (fun _ => exDraws) 1 clKmeans
        clDist bruteQuery) clX clY = .error .valueError := by
  refine ⟨⟨by decide, by decide +kernel⟩, ⟨by decide, by decide, by decide, Or.inl (by decide)⟩, bruteQuery_ok, clKmeans_ok,
    clKmeans_nonneg, by decide +kernel, by decide +kernel, by decide +kernel, by decide +kernel⟩

end Verif

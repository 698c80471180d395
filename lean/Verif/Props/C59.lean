import Verif.Model.CeNras
import Verif.Props.C55
import Verif.Props.C58

/-!
# C59: CE_SMOTE samples in the boundary of an ensemble of clusterings, NRAS removes noise and keeps the totals
-/

namespace Verif

/-! ## Specification -/

/-- The minority rows no label of which is given by more than the share `alpha` of the `h` clusterings. -/
def ceBoundary (labelings : List (List Int)) (h : Nat) (alpha : ℚ) (X : List Row) (y : List Int) (a : Int) : List Row :=
  ((List.range X.length).filter (fun i => decide (y[i]? = some a) &&
    labelings.all (fun L => decide (((labelings.countP (fun L' => L'.getD i 0 == L.getD i 0) : Nat) : ℚ) ≤ alpha * h)))).map
      (fun i => X.getD i [])

/-- Both arrays of labels describe the same partition. -/
def SamePartition (L L' : List Int) : Prop :=
  L.length = L'.length ∧ ∀ i j, i < L.length → j < L.length → (L[i]? = L[j]? ↔ L'[i]? = L'[j]?)

/-- The `i`-th minority row is noise: fewer than `t * k` of its neighbours (the first entry, the row itself, does not count) belong
to the minority. -/
def nrasIsNoise (t : ℚ) (k : Nat) (y : List Int) (a : Int) (table : List (List Nat)) (i : Nat) : Bool :=
  decide (((((table.getD i []).drop 1).countP (fun j => decide (y[j]? = some a)) : Nat) : ℚ) < t * k)

/-- The neighbours of the minority rows, searched among the scaled rows with the propensity score as a further coordinate. -/
def nrasTable (n : Nat) (fitScaler : List Row → Row × Row) (propensity : List Row → List Int → List ℚ)
    (knn : Nat → List Row → List Row → List (List Nat)) (X : List Row) (y : List Int) (a : Int) : List (List Nat) :=
  let Xt := X.map (scaleRow (fitScaler X).1 (fitScaler X).2)
  let Xn := List.zipWith (fun r p => r ++ [p]) Xt (propensity Xt y)
  knn (min X.length (n + 1)) Xn (classRows Xn y a)

/-! ## CE_SMOTE -/

theorem zipWith_self_map {α β γ : Type} (f : α → β → γ) (g : α → β) (l : List α) :
    List.zipWith f l (l.map g) = l.map (fun a => f a (g a)) := by
  induction l with
  | nil => rfl
  | cons a l ih => simp [ih]

theorem ceRelabel_prefix (k : Nat) (L : List Int) (m : Nat) :
    (List.range (m + 1)).foldl (fun relabeling (j : Nat) =>
      List.zipWith (fun l x => if l = ((k - 1 : Nat) : Int) then (j : Int) else x) L relabeling) L =
    L.map (fun l => if l = ((k - 1 : Nat) : Int) then (m : Int) else l) := by
  induction m with
  | zero => simp
  | succ m ih =>
    rw [List.range_succ, List.foldl_append, ih, List.foldl_cons, List.foldl_nil, zipWith_self_map]
    apply List.map_congr_left
    intro l _
    by_cases h : l = ((k - 1 : Nat) : Int) <;> simp [h]

theorem ceRelabel_eq (k : Nat) (L : List Int) : ceRelabel k L = L := by
  unfold ceRelabel
  cases k with
  | zero => rfl
  | succ k =>
    rw [ceRelabel_prefix]
    conv_rhs => rw [← List.map_id L]
    apply List.map_congr_left
    intro l _
    by_cases h : l = ((k + 1 - 1 : Nat) : Int)
    · rw [if_pos h, h]; simp
    · rw [if_neg h]; rfl

/-- **CE_SMOTE does not match the clusters**: the labels come out of the matching as they went in. -/
theorem C59_ce_matching (k : Nat) (labelings : List (List Int)) : ceMatching k labelings = labelings := by
  cases labelings with
  | nil => rfl
  | cons L rest =>
    have h : rest.map (ceRelabel k) = rest := by
      conv_rhs => rw [← List.map_id rest]
      exact List.map_congr_left (fun L _ => ceRelabel_eq k L)
    change L :: rest.map (ceRelabel k) = L :: rest
    rw [h]

theorem ceMode_aux {col : List Int} (l : List Int) (x : Int) :
    (∀ v ∈ l, col.count v ≤ col.count (l.foldl (fun best v => if col.count best < col.count v then v else best) x)) ∧
    col.count x ≤ col.count (l.foldl (fun best v => if col.count best < col.count v then v else best) x) ∧
    (x ∈ col → (∀ v ∈ l, v ∈ col) → l.foldl (fun best v => if col.count best < col.count v then v else best) x ∈ col) := by
  induction l generalizing x with
  | nil => simp
  | cons w l ih =>
    rw [List.foldl_cons]
    obtain ⟨h1, h2, h3⟩ := ih (if col.count x < col.count w then w else x)
    refine ⟨?_, ?_, ?_⟩
    · intro v hv
      rcases List.mem_cons.1 hv with rfl | hv
      · refine le_trans ?_ h2
        split <;> omega
      · exact h1 v hv
    · refine le_trans ?_ h2
      split <;> omega
    · intro hx hl
      apply h3
      · split
        · exact hl w (by simp)
        · exact hx
      · exact fun v hv => hl v (by simp [hv])

theorem ceMode_spec {col : List Int} (hne : col ≠ []) : ceMode col ∈ col ∧ ∀ v ∈ col, col.count v ≤ col.count (ceMode col) := by
  unfold ceMode
  obtain ⟨h1, _, h3⟩ := ceMode_aux (col := col) (npUnique col) ((npUnique col).headD 0)
  refine ⟨h3 ?_ (fun v hv => mem_npUnique.1 hv), fun v hv => h1 v (mem_npUnique.2 hv)⟩
  obtain ⟨v, hv⟩ := List.exists_mem_of_ne_nil _ hne
  have := mem_npUnique.2 hv
  match hq : npUnique col with
  | [] => rw [hq] at this; simp at this
  | w :: _ => exact mem_npUnique.1 (by rw [hq]; simp)

theorem ceIndex_le {h : Nat} {labels : List (List Int)} {i : Nat} {alpha : ℚ} (hh : 0 < h) (hne : labels ≠ []) :
    ceIndex h labels i ≤ alpha ↔
      ∀ L ∈ labels, ((labels.countP (fun L' => L'.getD i 0 == L.getD i 0) : Nat) : ℚ) ≤ alpha * h := by
  have hq : (0:ℚ) < h := by exact_mod_cast hh
  unfold ceIndex
  dsimp only
  set col := labels.map (fun l => l.getD i 0) with hcol
  have hc : ∀ L : List Int, labels.countP (fun L' => L'.getD i 0 == L.getD i 0) = col.count (L.getD i 0) := by
    intro L
    rw [hcol, List.count, List.countP_map]
    rfl
  obtain ⟨hm, hmax⟩ := ceMode_spec (col := col) (by rw [hcol]; simpa using hne)
  rw [div_le_iff₀ hq]
  constructor
  · intro hle L hL
    rw [hc]
    refine le_trans ?_ hle
    exact_mod_cast hmax _ (List.mem_map.2 ⟨L, hL, rfl⟩)
  · intro hall
    rw [hcol] at hm
    obtain ⟨L, hL, he⟩ := List.mem_map.1 hm
    have := hall L hL
    rw [hc, he] at this
    exact this

theorem ceBoundary_eq {labels : List (List Int)} {h : Nat} {alpha : ℚ} {X : List Row} {y : List Int} {a : Int}
    (hxy : X.length = y.length) (hh : 0 < h) (hne : labels ≠ []) :
    ((X.zip (y.zip ((List.range X.length).map (ceIndex h labels)))).filter
      (fun p => decide (p.2.1 = a) && decide (p.2.2 ≤ alpha))).map Prod.fst = ceBoundary labels h alpha X y a := by
  have e : X.zip (y.zip ((List.range X.length).map (ceIndex h labels))) =
      (List.range X.length).map (fun i => (X.getD i [], y.getD i 0, ceIndex h labels i)) := by
    apply List.ext_getElem?
    intro i
    by_cases hi : i < X.length
    · rw [List.getElem?_map, List.getElem?_range hi]
      rw [List.getElem?_eq_getElem (by simp; omega)]
      simp [List.getD_eq_getElem?_getD, hi, show i < y.length by omega]
    · rw [List.getElem?_eq_none (by simp; omega), List.getElem?_eq_none (by simp; omega)]
  rw [e, List.filter_map, List.map_map]
  unfold ceBoundary
  congr 1
  apply List.filter_congr
  intro i hi
  rw [List.mem_range] at hi
  rw [Bool.eq_iff_iff]
  simp only [Function.comp_apply, Bool.and_eq_true, decide_eq_true_eq, List.all_eq_true]
  rw [ceIndex_le hh hne]
  rw [List.getElem?_eq_getElem (by omega : i < y.length), List.getD_eq_getElem?_getD,
    List.getElem?_eq_getElem (by omega : i < y.length)]
  simp

theorem mem_of_mem_ceBoundary {labels : List (List Int)} {h : Nat} {alpha : ℚ} {X : List Row} {y : List Int} {a : Int}
    {r : Row} (hr : r ∈ ceBoundary labels h alpha X y a) : r ∈ X := by
  unfold ceBoundary at hr
  obtain ⟨i, hi, rfl⟩ := List.mem_map.1 hr
  have := List.mem_range.1 (List.mem_filter.1 hi).1
  rw [List.getD_eq_getElem?_getD, List.getElem?_eq_getElem this]
  exact List.getElem_mem this

theorem ceSmoteAlg_eq {par : CeParams} {vol : List Row → ℚ} {dr : Draws} {d : Nat} {clusterings : List Row → List (List Int)}
    {knn : Nat → List Row → List Row → List (List Nat)} {X : List Row} {y : List Int} {a b : Int}
    (hxy : X.length = y.length) (hcl : (clusterings X).length = par.h) (hh : 0 < par.h) (hmin : IsMinority y a b)
    (h3 : 2 < y.count a) :
    sample defaultChecks d (ceSmoteAlg par vol dr d clusterings knn) X y =
      (let B := ceBoundary (clusterings X) par.h par.alpha X y a
       if B.length ≤ par.ss.nDim - 1 then .ok (X, y)
       else do
        let samples ← sampleSimplex par.ss vol dr d B (knn (min B.length par.k) B B) (min B.length par.k)
          (requested par.proportion (y.count b) (y.count a)) {}
        return withSamples X y a samples) := by
  obtain ⟨s, hs, rfl, rfl⟩ := stats_of_isMinority hmin
  obtain ⟨hm, hM, _⟩ := stats_min_mem hs
  rw [sample_default hs, if_neg (by omega)]
  unfold ceSmoteAlg
  rw [stats_count hs hm, stats_count hs hM, detN_eq_requested, ok_bind]
  dsimp only
  rw [C59_ce_matching, ceBoundary_eq hxy hh (by intro h0; rw [h0] at hcl; simp at hcl; omega)]
  rfl

/-- **CE_SMOTE**: with the boundary no larger than `n_dim - 1` the input comes back; otherwise the requested number of rows is
appended, each a convex combination of a boundary row and of nearest boundary rows. -/
theorem C59_ce {par : CeParams} {vol : List Row → ℚ} {dr : Draws} {d : Nat} {clusterings : List Row → List (List Int)}
    {knn : Nat → List Row → List Row → List (List Nat)} {X X' : List Row} {y y' : List Int} {a b : Int} (hwf : WF d X y)
    (hcl : (clusterings X).length = par.h) (hh : 0 < par.h) (hk : KnnQueryOK knn) (hdr : dr.OK) (hmin : IsMinority y a b)
    (hg : par.ss.gaussian = .none) (hvol : ∀ vs, 0 ≤ vol vs) (h3 : 2 < y.count a)
    (h : sample defaultChecks d (ceSmoteAlg par vol dr d clusterings knn) X y = .ok (X', y')) :
    let B := ceBoundary (clusterings X) par.h par.alpha X y a
    let k := min B.length par.k
    if B.length ≤ par.ss.nDim - 1 then X' = X ∧ y' = y
    else OversampledBy X y a (requested par.proportion (y.count b) (y.count a))
      (SimplexOf d (min par.ss.nDim k) B B (knn k B B) (fun _ => True)) X' y' := by
  intro B k
  rw [ceSmoteAlg_eq hwf.1 hcl hh hmin h3] at h
  dsimp only at h
  by_cases hB : B.length ≤ par.ss.nDim - 1
  · rw [if_pos hB] at h ⊢
    injection h with h
    obtain ⟨rfl, rfl⟩ := Prod.mk.inj h
    exact ⟨rfl, rfl⟩
  rw [if_neg hB] at h ⊢
  rw [bind_ok] at h
  obtain ⟨out, hout, h⟩ := h
  rw [pure_ok] at h
  have hBd : ∀ r ∈ B, r.length = d := fun r hr => hwf.2 r (mem_of_mem_ceBoundary hr)
  obtain ⟨g1, g2⟩ := sampleSimplex_simplexOf hBd (by intro V hV; cases hV) rfl (by intro h; cases h) hdr
    (le_of_eq (hk k B B (Nat.min_le_left _ _)).1) hg (by intro w hw; cases hw) rfl hvol hout
  refine withSamples_oversampledBy g1 (fun x hx => ?_) h
  obtain ⟨b', base, row, nbIdx, nbrs, w, q1, _, q3⟩ := g2 x hx
  exact ⟨b', base, row, nbIdx, nbrs, w, q1, trivial, q3⟩

/-- With one clustering and `alpha` below one, CE_SMOTE always gives the input back. -/
theorem C59_ce_single {par : CeParams} {vol : List Row → ℚ} {dr : Draws} {d : Nat} {clusterings : List Row → List (List Int)}
    {knn : Nat → List Row → List Row → List (List Nat)} {X : List Row} {y : List Int} {a b : Int} (hxy : X.length = y.length)
    (hcl : (clusterings X).length = par.h) (hmin : IsMinority y a b) (h1 : par.h = 1) (ha : par.alpha < 1) :
    sample defaultChecks d (ceSmoteAlg par vol dr d clusterings knn) X y = .ok (X, y) := by
  by_cases h3 : 2 < y.count a
  case neg =>
    obtain ⟨s, hs, rfl, rfl⟩ := stats_of_isMinority hmin
    rw [sample_default hs, if_pos (by omega)]
  rw [ceSmoteAlg_eq hxy hcl (by omega) hmin h3]
  dsimp only
  rw [if_pos]
  have : ceBoundary (clusterings X) par.h par.alpha X y a = [] := by
    unfold ceBoundary
    rw [List.map_eq_nil_iff, List.filter_eq_nil_iff]
    intro i _ hc
    simp only [Bool.and_eq_true, List.all_eq_true, decide_eq_true_eq] at hc
    rw [h1] at hcl
    match hq : clusterings X, hcl with
    | [L], _ =>
      have := hc.2 L (by rw [hq]; simp)
      rw [hq, h1] at this
      simp at this
      linarith
  rw [this]
  simp

/-- CE_SMOTE never raises. -/
theorem C59_ce_total {par : CeParams} {vol : List Row → ℚ} {dr : Draws} {d : Nat} {clusterings : List Row → List (List Int)}
    {knn : Nat → List Row → List Row → List (List Nat)} {X : List Row} {y : List Int} {a b : Int} (hxy : X.length = y.length)
    (hcl : (clusterings X).length = par.h) (hh : 0 < par.h) (hk : KnnQueryOK knn) (hdr : dr.OK)
    (hu : ∀ i j, 0 < dr.simplexU i j) (hmin : IsMinority y a b) (hd : 1 ≤ par.ss.nDim) (hk1 : 1 ≤ par.k)
    (hmode : par.ss.simplexSampling = .random ∨ par.ss.simplexSampling = .deterministic ∨
      (par.ss.simplexSampling = .volume ∧ ∀ vs, 0 < vol vs))
    (hwi : par.ss.within = .random ∨ (par.ss.within = .deterministic ∧ par.ss.nDim ≤ 2)) :
    ∃ r, sample defaultChecks d (ceSmoteAlg par vol dr d clusterings knn) X y = .ok r := by
  by_cases h3 : 2 < y.count a
  case neg =>
    obtain ⟨s, hs, rfl, rfl⟩ := stats_of_isMinority hmin
    rw [sample_default hs, if_pos (by omega)]
    exact ⟨_, rfl⟩
  rw [ceSmoteAlg_eq hxy hcl hh hmin h3]
  dsimp only
  split
  · exact ⟨_, rfl⟩
  rename_i hB
  set B := ceBoundary (clusterings X) par.h par.alpha X y a with hBe
  obtain ⟨q1, q2⟩ := hk (min B.length par.k) B B (Nat.min_le_left _ _)
  obtain ⟨out, hout⟩ := sampleSimplex_ok (ss := par.ss) (vol := vol) (dr := dr) (d := d) (X := B)
    (indices := knn (min B.length par.k) B B) (k := min B.length par.k)
    (n := requested par.proportion (y.count b) (y.count a)) (a := {}) q2 (le_of_eq q1)
    (by intro h0; rw [h0, List.length_nil] at q1; omega) (by omega) hd rfl (by intro w hw; cases hw) (by intro h; cases h)
    hmode (fun i => hdr.choice i) hu (by
      rcases hwi with h | ⟨h, h'⟩
      · exact Or.inl h
      · exact Or.inr ⟨h, le_trans (Nat.min_le_left _ _) h'⟩)
  rw [hout]
  exact ⟨_, rfl⟩

/-! ## NRAS -/

theorem nrasNoise_eq {t : ℚ} {k : Nat} {y : List Int} {a : Int} {ind : List (List Nat)} (ht : TableOK ind k y.length) :
    nrasNoise t k y a ind = .ok ((List.range ind.length).map (nrasIsNoise t k y a ind)) := by
  have e : (List.range ind.length).map (nrasIsNoise t k y a ind) = ind.map (fun row =>
      decide ((((row.drop 1).countP (fun j => decide (y[j]? = some a)) : Nat) : ℚ) < t * k)) :=
    map_range_getD ind [] (fun row => decide ((((row.drop 1).countP (fun j => decide (y[j]? = some a)) : Nat) : ℚ) < t * k))
  rw [e]
  unfold nrasNoise
  apply mapM_ok_of
  intro row hrow
  have hlt : ∀ j ∈ row.drop 1, j < y.length := fun j hj => (ht row hrow).2 j (List.mem_of_mem_drop hj)
  rw [takeRows_map_getD 0 hlt, ok_bind]
  have : List.count a ((row.drop 1).map (fun i => y.getD i 0)) = (row.drop 1).countP (fun j => decide (y[j]? = some a)) := by
    rw [List.count, List.countP_map]
    apply List.countP_congr
    intro j hj
    rw [List.getElem?_eq_getElem (hlt j hj)]
    simp [List.getD_eq_getElem?_getD, hlt j hj]
  rw [this]
  rfl

theorem count_true_map {α : Type} (l : List α) (f : α → Bool) : (l.map f).count true = (l.filter f).length := by
  induction l with
  | nil => rfl
  | cons a l ih =>
    cases h : f a <;> simp [h, ih]

theorem kept_eq {A : List Row} (g : Row → Row) (f : Nat → Bool) :
    (((A.map g).zip ((List.range A.length).map f)).filter (fun p => !p.2)).map Prod.fst =
      ((List.range A.length).filter (fun i => !f i)).map (fun i => g (A.getD i [])) := by
  rw [← map_range_getD A [] g, List.zip_map', List.filter_map, List.map_map]
  rfl

theorem SimplexOf.unscale {d nDim : Nat} {m s : Row} {A V : List Row} {table : List (List Nat)} {ok : Nat → Prop} {x : Row}
    (hm : m.length = d) (hs : s.length = d) (hpos : ∀ x ∈ s, 0 < x) (hA : ∀ r ∈ A, r.length = d) (hV : ∀ r ∈ V, r.length = d)
    (h : SimplexOf d nDim (A.map (scaleRow m s)) (V.map (scaleRow m s)) table ok x) :
    SimplexOf d nDim A V table ok (unscaleRow m s x) := by
  obtain ⟨b, base, row, nbIdx, nbrs, w, h1, h2, h3, h4, h5, h6, h7⟩ := h
  rw [List.getElem?_map, Option.map_eq_some_iff] at h1
  obtain ⟨base', hb', rfl⟩ := h1
  have hb'd := hA base' (List.mem_of_getElem? hb')
  have hf : List.Forall₂ (fun i r => V[i]? = some r) nbIdx (nbrs.map (unscaleRow m s)) ∧ (∀ r ∈ nbrs, r.length = d) := by
    clear h4 h5 h7
    induction h6 with
    | nil => exact ⟨.nil, by simp⟩
    | cons h1 _ ih =>
      rw [List.getElem?_map, Option.map_eq_some_iff] at h1
      obtain ⟨v, hv, rfl⟩ := h1
      have hvd := hV v (List.mem_of_getElem? hv)
      refine ⟨.cons (by rw [unscale_scale hm hs hpos hvd]; exact hv) ih.1, ?_⟩
      intro r hr
      rcases List.mem_cons.1 hr with rfl | hr
      · exact scaleRow_length hm hs hvd
      · exact ih.2 r hr
  refine ⟨b, base', row, nbIdx, nbrs.map (unscaleRow m s), w, hb', h2, h3, h4, h5, hf.1, ?_⟩
  obtain ⟨c1, c2, c3, c4, c5⟩ := h7
  have hl : ∀ v ∈ scaleRow m s base' :: nbrs, v.length = d := by
    intro v hv
    rcases List.mem_cons.1 hv with rfl | hv
    · exact scaleRow_length hm hs hb'd
    · exact hf.2 v hv
  have he : (scaleRow m s base' :: nbrs).map (unscaleRow m s) = base' :: nbrs.map (unscaleRow m s) := by
    rw [List.map_cons, unscale_scale hm hs hpos hb'd]
  refine ⟨by rw [← he, List.length_map]; exact c1, c2, c3, unscaleRow_length hm hs c4, ?_⟩
  intro k hk
  rw [← he, wsum_unscale hm hs hk w _ c1 hl, unscaleRow_getD hm hs c4 hk, c5 k hk, c3, one_mul]

/-- The part of NRAS behind the noise detection. -/
def nrasTail (par : NbParams) (t : ℚ) (sc : Row × Row) (vol : List Row → ℚ) (dr : Draws) (d k n : Nat) (ind : List (List Nat))
    (X : List Row) (y : List Int) (a b : Int) : Res (List Row × List Int) :=
  let A := classRows X y a
  let f := nrasIsNoise t k y a ind
  let removed := ((List.range A.length).filter f).length
  if removed ≥ A.length - 1 then .ok (X, y)
  else do
    let samples ← sampleSimplex par.ss vol dr d (A.map (scaleRow sc.1 sc.2)) ind k (n + removed)
      { Xv := some (X.map (scaleRow sc.1 sc.2)), vertexWeights := some (List.replicate X.length 1),
        baseWeights := some ((List.range A.length).map (fun i => if f i then 0 else 1)) }
    let kept := ((List.range A.length).filter (fun i => !f i)).map (fun i => scaleRow sc.1 sc.2 (A.getD i []))
    return (((classRows X y b).map (scaleRow sc.1 sc.2) ++ kept ++ samples).map (unscaleRow sc.1 sc.2),
      List.replicate (y.count b) b ++ List.replicate kept.length a ++ List.replicate samples.length a)

theorem nrasTable_ok {n : Nat} {fitScaler : List Row → Row × Row} {propensity : List Row → List Int → List ℚ}
    {knn : Nat → List Row → List Row → List (List Nat)} {X : List Row} {y : List Int} {a : Int} (hxy : X.length = y.length)
    (hp : ∀ rows, (propensity rows y).length = rows.length) (hk : KnnQueryOK knn) :
    (nrasTable n fitScaler propensity knn X y a).length = (classRows X y a).length ∧
    TableOK (nrasTable n fitScaler propensity knn X y a) (min X.length (n + 1)) X.length := by
  unfold nrasTable
  dsimp only
  have hl : (List.zipWith (fun (r : Row) p => r ++ [p]) (X.map (scaleRow (fitScaler X).1 (fitScaler X).2))
      (propensity (X.map (scaleRow (fitScaler X).1 (fitScaler X).2)) y)).length = X.length := by
    rw [List.length_zipWith, hp]; simp
  obtain ⟨h1, h2⟩ := hk (min X.length (n + 1)) (List.zipWith (fun (r : Row) p => r ++ [p])
    (X.map (scaleRow (fitScaler X).1 (fitScaler X).2)) (propensity (X.map (scaleRow (fitScaler X).1 (fitScaler X).2)) y))
    (classRows (List.zipWith (fun (r : Row) p => r ++ [p]) (X.map (scaleRow (fitScaler X).1 (fitScaler X).2))
      (propensity (X.map (scaleRow (fitScaler X).1 (fitScaler X).2)) y)) y a) (by rw [hl]; exact Nat.min_le_left _ _)
  rw [hl] at h2
  refine ⟨?_, h2⟩
  rw [h1, classRows_length (by rw [hl]; exact hxy), classRows_length hxy]

theorem nras_eq {par : NbParams} {t : ℚ} {fitScaler : List Row → Row × Row} {propensity : List Row → List Int → List ℚ}
    {vol : List Row → ℚ} {dr : Draws} {d : Nat} {knn : Nat → List Row → List Row → List (List Nat)} {X : List Row}
    {y : List Int} {a b : Int} (hxy : X.length = y.length) (hp : ∀ rows, (propensity rows y).length = rows.length)
    (hk : KnnQueryOK knn) (hmin : IsMinority y a b) (h3 : 2 < y.count a)
    (hn : 0 < requested par.proportion (y.count b) (y.count a)) :
    sample defaultChecks d (nrasAlg par t fitScaler propensity vol dr d knn) X y =
      nrasTail par t (fitScaler X) vol dr d (min X.length (par.nNeighbors + 1))
        (requested par.proportion (y.count b) (y.count a)) (nrasTable par.nNeighbors fitScaler propensity knn X y a) X y a b := by
  obtain ⟨s, hs, rfl, rfl⟩ := stats_of_isMinority hmin
  obtain ⟨hm, hM, _⟩ := stats_min_mem hs
  rw [sample_default hs, if_neg (by omega)]
  unfold nrasAlg
  rw [stats_count hs hm, stats_count hs hM, detN_eq_requested, ok_bind, if_neg (by omega)]
  dsimp only
  have hl : (List.zipWith (fun (r : Row) p => r ++ [p]) (X.map (scaleRow (fitScaler X).1 (fitScaler X).2))
      (propensity (X.map (scaleRow (fitScaler X).1 (fitScaler X).2)) y)).length = X.length := by
    rw [List.length_zipWith, hp]; simp
  obtain ⟨t1, t2⟩ := nrasTable_ok (n := par.nNeighbors) (fitScaler := fitScaler) (a := s.minLabel) hxy hp hk
  have htab : knn (min X.length (par.nNeighbors + 1)) (List.zipWith (fun (r : Row) p => r ++ [p])
      (X.map (scaleRow (fitScaler X).1 (fitScaler X).2)) (propensity (X.map (scaleRow (fitScaler X).1 (fitScaler X).2)) y))
      (selectLabel (List.zipWith (fun (r : Row) p => r ++ [p]) (X.map (scaleRow (fitScaler X).1 (fitScaler X).2))
        (propensity (X.map (scaleRow (fitScaler X).1 (fitScaler X).2)) y)) y s.minLabel) =
      nrasTable par.nNeighbors fitScaler propensity knn X y s.minLabel := by
    rw [selectLabel_eq_classRows]; rfl
  rw [hl, htab]
  rw [nrasNoise_eq (by rw [← hxy]; exact t2), ok_bind, t1]
  have hcm : ∀ l, selectLabel (X.map (scaleRow (fitScaler X).1 (fitScaler X).2)) y l =
      (classRows X y l).map (scaleRow (fitScaler X).1 (fitScaler X).2) := by
    intro l; rw [selectLabel_map, selectLabel_eq_classRows]
  rw [hcm, hcm]
  unfold nrasTail
  dsimp only
  rw [count_true_map, kept_eq, List.length_map, List.length_map, List.map_map]
  rfl

/-- **NRAS**: with at most one minority row that is not noise the input comes back. Otherwise the result consists of the majority
rows, the minority rows which are not noise, both unchanged and in order, and new minority rows, as many as requested plus one for
every removed row; so the sizes of both classes are as if nothing had been removed. Every new row is a convex combination of a
minority row which is not noise and of its neighbours of either class. -/
theorem C59_nras {par : NbParams} {t : ℚ} {fitScaler : List Row → Row × Row} {propensity : List Row → List Int → List ℚ}
    {vol : List Row → ℚ} {dr : Draws} {d : Nat} {knn : Nat → List Row → List Row → List (List Nat)} {X X' : List Row}
    {y y' : List Int} {a b : Int} (hwf : WF d X y) (hp : ∀ rows, (propensity rows y).length = rows.length)
    (hk : KnnQueryOK knn) (hdr : dr.OK) (hmin : IsMinority y a b)
    (hm : (fitScaler X).1.length = d) (hsc : (fitScaler X).2.length = d) (hpos : ∀ x ∈ (fitScaler X).2, 0 < x)
    (hg : par.ss.gaussian = .none) (hvol : ∀ vs, 0 ≤ vol vs) (h3 : 2 < y.count a)
    (hn : 0 < requested par.proportion (y.count b) (y.count a))
    (h : sample defaultChecks d (nrasAlg par t fitScaler propensity vol dr d knn) X y = .ok (X', y')) :
    let A := classRows X y a
    let k := min X.length (par.nNeighbors + 1)
    let table := nrasTable par.nNeighbors fitScaler propensity knn X y a
    let noise := nrasIsNoise t k y a table
    let kept := ((List.range A.length).filter (fun i => !noise i)).map (fun i => A.getD i [])
    if kept.length ≤ 1 then X' = X ∧ y' = y
    else ∃ new : List Row, X' = classRows X y b ++ kept ++ new ∧
      y' = List.replicate (y.count b) b ++ List.replicate (y.count a + requested par.proportion (y.count b) (y.count a)) a ∧
      kept.length + new.length = y.count a + requested par.proportion (y.count b) (y.count a) ∧
      ∀ x ∈ new, SimplexOf d (min par.ss.nDim k) A X table (fun i => noise i = false) x := by
  intro A k table noise kept
  have hxy := hwf.1
  rw [nras_eq hxy hp hk hmin h3 hn] at h
  unfold nrasTail at h
  dsimp only at h
  have hAl : A.length = y.count a := classRows_length hxy _
  have hcnt : ((List.range A.length).filter noise).length + kept.length = A.length := by
    have := List.length_eq_length_filter_add (l := List.range A.length) noise
    rw [List.length_range] at this
    rw [show kept.length = ((List.range A.length).filter (fun i => !noise i)).length from List.length_map _]
    omega
  obtain ⟨t1, t2⟩ := nrasTable_ok (n := par.nNeighbors) (fitScaler := fitScaler) (a := a) hxy hp hk
  have hAd : ∀ r ∈ A, r.length = d := fun r hr => hwf.2 r (mem_of_mem_classRows hr)
  by_cases hkl : kept.length ≤ 1
  · have e1 : ((List.range (classRows X y a).length).filter
      (nrasIsNoise t (min X.length (par.nNeighbors + 1)) y a (nrasTable par.nNeighbors fitScaler propensity knn X y a))).length ≥
      (classRows X y a).length - 1 := by
      change ((List.range A.length).filter noise).length ≥ A.length - 1
      omega
    rw [if_pos e1] at h
    rw [if_pos hkl]
    injection h with h
    obtain ⟨rfl, rfl⟩ := Prod.mk.inj h
    exact ⟨rfl, rfl⟩
  · have e1 : ¬ ((List.range (classRows X y a).length).filter
      (nrasIsNoise t (min X.length (par.nNeighbors + 1)) y a (nrasTable par.nNeighbors fitScaler propensity knn X y a))).length ≥
      (classRows X y a).length - 1 := by
      change ¬ ((List.range A.length).filter noise).length ≥ A.length - 1
      omega
    rw [if_neg e1, bind_ok] at h
    rw [if_neg hkl]
    obtain ⟨out, hout, h⟩ := h
    rw [pure_ok] at h
    obtain ⟨rfl, rfl⟩ := Prod.mk.inj h
    obtain ⟨g1, g2⟩ := sampleSimplex_simplexOf_vw
      (fun r hr => by
        obtain ⟨q, hq, rfl⟩ := List.mem_map.1 hr
        exact scaleRow_length hm hsc (hAd q hq))
      (by
        intro V hV r hr
        injection hV with hV
        rw [← hV] at hr
        obtain ⟨q, hq, rfl⟩ := List.mem_map.1 hr
        exact scaleRow_length hm hsc (hwf.2 q hq))
      (by
        intro ws hws c hc
        injection hws with hws
        rw [← hws] at hc
        rw [List.eq_of_mem_replicate hc]
        exact ⟨zero_le_one, le_refl _⟩)
      (by intro h; cases h) hdr (by rw [t1, List.length_map]) hg
      (by
        intro w hw
        injection hw with hw
        rw [← hw]
        refine ⟨by rw [t1]; simp, ?_⟩
        intro x hx
        obtain ⟨i, _, rfl⟩ := List.mem_map.1 hx
        split <;> norm_num)
      (by intro m hm; cases hm) hvol hout
    have g1' : out.length = requested par.proportion (y.count b) (y.count a) + ((List.range A.length).filter noise).length := g1
    have hid : ∀ L : List Row, (∀ r ∈ L, r.length = d) →
        (L.map (scaleRow (fitScaler X).1 (fitScaler X).2)).map (unscaleRow (fitScaler X).1 (fitScaler X).2) = L := by
      intro L hL
      rw [List.map_map]
      conv_rhs => rw [← List.map_id L]
      apply List.map_congr_left
      intro r hr
      exact unscale_scale hm hsc hpos (hL r hr)
    have hkd : ∀ r ∈ kept, r.length = d := by
      intro r hr
      obtain ⟨i, hi, rfl⟩ := List.mem_map.1 hr
      have := List.mem_range.1 (List.mem_filter.1 hi).1
      rw [List.getD_eq_getElem?_getD, List.getElem?_eq_getElem this]
      exact hAd _ (List.getElem_mem this)
    have hks : ((List.range (classRows X y a).length).filter (fun i => !nrasIsNoise t (min X.length (par.nNeighbors + 1)) y a
        (nrasTable par.nNeighbors fitScaler propensity knn X y a) i)).map
          (fun i => scaleRow (fitScaler X).1 (fitScaler X).2 ((classRows X y a).getD i [])) =
        kept.map (scaleRow (fitScaler X).1 (fitScaler X).2) := by
      rw [List.map_map]; rfl
    refine ⟨out.map (unscaleRow (fitScaler X).1 (fitScaler X).2), ?_, ?_, ?_, ?_⟩
    · rw [hks, List.map_append, List.map_append, hid _ (fun r hr => hwf.2 r (mem_of_mem_classRows hr)), hid _ hkd]
    · rw [hks, List.length_map, List.append_assoc, List.replicate_append_replicate]
      congr 2
      omega
    · have : (out.map (unscaleRow (fitScaler X).1 (fitScaler X).2)).length = out.length := List.length_map _
      omega
    · intro x hx
      obtain ⟨z, hz, rfl⟩ := List.mem_map.1 hx
      obtain ⟨b', base, row, nbIdx, nbrs, w, q1, q2, q3⟩ := (g2 z hz).unscale hm hsc hpos hAd hwf.2
      refine ⟨b', base, row, nbIdx, nbrs, w, q1, ?_, q3⟩
      obtain ⟨c, hc, hc0⟩ := q2 _ rfl
      rw [List.getElem?_map, Option.map_eq_some_iff] at hc
      obtain ⟨i, hi, rfl⟩ := hc
      obtain ⟨hlt, hib⟩ := List.getElem?_eq_some_iff.1 hi
      rw [List.getElem_range] at hib
      subst hib
      by_contra hnn
      rw [Bool.not_eq_false] at hnn
      have : nrasIsNoise t (min X.length (par.nNeighbors + 1)) y a
        (nrasTable par.nNeighbors fitScaler propensity knn X y a) b' = true := hnn
      rw [this] at hc0
      simp at hc0

/-- NRAS never raises. -/
theorem C59_nras_total {par : NbParams} {t : ℚ} {fitScaler : List Row → Row × Row} {propensity : List Row → List Int → List ℚ}
    {vol : List Row → ℚ} {dr : Draws} {d : Nat} {knn : Nat → List Row → List Row → List (List Nat)} {X : List Row}
    {y : List Int} {a b : Int} (hxy : X.length = y.length) (hp : ∀ rows, (propensity rows y).length = rows.length)
    (hk : KnnQueryOK knn) (hdr : dr.OK) (hu : ∀ i j, 0 < dr.simplexU i j) (hmin : IsMinority y a b) (hd : 1 ≤ par.ss.nDim)
    (hwi : par.ss.within = .random ∨ (par.ss.within = .deterministic ∧ par.ss.nDim ≤ 2)) :
    ∃ r, sample defaultChecks d (nrasAlg par t fitScaler propensity vol dr d knn) X y = .ok r := by
  by_cases h3 : 2 < y.count a
  case neg =>
    obtain ⟨s, hs, rfl, rfl⟩ := stats_of_isMinority hmin
    rw [sample_default hs, if_pos (by omega)]
    exact ⟨_, rfl⟩
  by_cases hn : 0 < requested par.proportion (y.count b) (y.count a)
  case neg =>
    obtain ⟨s, hs, rfl, rfl⟩ := stats_of_isMinority hmin
    obtain ⟨hm, hM, _⟩ := stats_min_mem hs
    rw [sample_default hs, if_neg (by omega)]
    unfold nrasAlg
    rw [stats_count hs hm, stats_count hs hM, detN_eq_requested, ok_bind, if_pos (by omega)]
    exact ⟨_, rfl⟩
  rw [nras_eq hxy hp hk hmin h3 hn]
  unfold nrasTail
  dsimp only
  split
  · exact ⟨_, rfl⟩
  rename_i hrem
  obtain ⟨t1, t2⟩ := nrasTable_ok (n := par.nNeighbors) (fitScaler := fitScaler) (a := a) hxy hp hk
  set table := nrasTable par.nNeighbors fitScaler propensity knn X y a with htab
  set A := classRows X y a with hA
  have hAl : A.length = y.count a := classRows_length hxy _
  have hcl : y.count a ≤ y.length := List.count_le_length
  set noise := nrasIsNoise t (min X.length (par.nNeighbors + 1)) y a table with hnoise
  have hex : ∃ i, i < A.length ∧ noise i = false := by
    by_contra hc
    push Not at hc
    apply hrem
    rw [List.filter_eq_self.2 (fun i hi => by simpa using hc i (List.mem_range.1 hi)), List.length_range]
    omega
  obtain ⟨i, hi, hin⟩ := hex
  have hw0 : ∀ x ∈ (List.range A.length).map (fun i => if noise i = true then (0:ℚ) else 1), 0 ≤ x := by
    intro x hx
    obtain ⟨j, _, rfl⟩ := List.mem_map.1 hx
    split <;> norm_num
  obtain ⟨out, hout⟩ := sampleSimplex_ok (ss := par.ss) (vol := vol) (dr := dr) (d := d)
    (X := A.map (scaleRow (fitScaler X).1 (fitScaler X).2)) (indices := table)
    (k := min X.length (par.nNeighbors + 1))
    (n := requested par.proportion (y.count b) (y.count a) + ((List.range A.length).filter noise).length)
    (a := { Xv := some (X.map (scaleRow (fitScaler X).1 (fitScaler X).2)),
            vertexWeights := some (List.replicate X.length 1),
            baseWeights := some ((List.range A.length).map (fun i => if noise i then 0 else 1)) })
    (by simpa using t2) (by rw [t1, List.length_map])
    (by intro h0; rw [h0, List.length_nil] at t1; omega) (by omega) hd rfl
    (by
      intro ws hws
      injection hws with hws
      rw [← hws]
      simp only [List.length_map, List.length_replicate, Option.getD_some]
      omega)
    (by intro h; cases h)
    ⟨by rw [t1]; simp, hw0, by
      have h1 : (1:ℚ) ∈ (List.range A.length).map (fun i => if noise i = true then (0:ℚ) else 1) :=
        List.mem_map.2 ⟨i, List.mem_range.2 hi, by rw [hin]; simp⟩
      have := List.single_le_sum hw0 1 h1
      linarith⟩
    (fun i => hdr.choice i) hu (by
      rcases hwi with h | ⟨h, h'⟩
      · exact Or.inl h
      · exact Or.inr ⟨h, le_trans (Nat.min_le_left _ _) h'⟩)
  rw [hout]
  exact ⟨_, rfl⟩

/-! ## Concrete data sets -/

def cePar (h : Nat) : CeParams :=
  { proportion := 1, h := h, k := 2, alpha := 1 / 2,
    ss := { nDim := 2, simplexSampling := .random, within := .random, gaussian := .none } }
/-- A clustering in two halves, and the same with the names of the clusters swapped. -/
def ceHalves : List Int := [0, 0, 1, 1, 0, 0, 1, 1, 1]
def ceSwapped : List Int := [1, 1, 0, 0, 1, 1, 0, 0, 0]

/-- **CE_SMOTE depends on the names of the clusters**: two ensembles of the same two partitions give different results, the
input and an oversampled data set. -/
theorem C59_ce_names :
    SamePartition ceHalves ceSwapped ∧
    sample defaultChecks 1 (ceSmoteAlg (cePar 2) (fun _ => 1) exDraws 1 (fun _ => [ceHalves, ceHalves]) bruteQuery) clX clY =
      .ok (clX, clY) ∧
    ∃ r, sample defaultChecks 1 (ceSmoteAlg (cePar 2) (fun _ => 1) exDraws 1 (fun _ => [ceHalves, ceSwapped]) bruteQuery)
      clX clY = .ok r ∧ r.1.length = clX.length + 1 := by
  refine ⟨⟨by decide, ?_⟩, by decide +kernel, ?_⟩
  · intro i j hi hj
    have : ∀ i < 9, ∀ j < 9, (ceHalves[i]? = ceHalves[j]? ↔ ceSwapped[i]? = ceSwapped[j]?) := by decide
    exact this i hi j hj
  · obtain ⟨r, hr⟩ := C59_ce_total (par := cePar 2) (vol := fun _ => 1) (dr := exDraws) (d := 1)
      (clusterings := fun _ => [ceHalves, ceSwapped]) (knn := bruteQuery) (X := clX) (y := clY) (a := 1) (b := 0)
      (by decide) rfl (by decide) bruteQuery_ok exDraws_ok (by intro i j; simp only [exDraws]; positivity)
      ⟨by decide, by decide, by decide, Or.inl (by decide)⟩ (by decide) (by decide) (Or.inl rfl) (Or.inl rfl)
    refine ⟨r, hr, ?_⟩
    have h := C59_ce (par := cePar 2) (X' := r.1) (y' := r.2) (a := 1) (b := 0) ⟨by decide, by decide +kernel⟩ rfl (by decide)
      bruteQuery_ok exDraws_ok ⟨by decide, by decide, by decide, Or.inl (by decide)⟩ rfl (fun _ => zero_le_one) (by decide) hr
    dsimp only at h
    rw [if_neg (by decide +kernel)] at h
    obtain ⟨new, h1, _, h2, _⟩ := h
    rw [h1, List.length_append, h2]
    decide +kernel

/-- Four minority rows together, one among the majority. -/
def nrX : List Row := [[0], [1], [2], [3], [20], [21], [22], [23], [24], [25], [100]]
def nrY : List Int := [1, 1, 1, 1, 1, 0, 0, 0, 0, 0, 0]
def nrDraws : Draws := { exDraws with choiceU := fun _ => 31 / 32 }
def nrPar : NbParams :=
  { proportion := 1, nNeighbors := 4,
    ss := { nDim := 2, simplexSampling := .random, within := .random, gaussian := .none } }
def nrRun : Res (List Row × List Int) :=
  sample defaultChecks 1 (nrasAlg nrPar (1 / 2) (fun _ => ([0], [100])) (fun X _ => X.map (fun _ => 0)) (fun _ => 1) nrDraws 1
    bruteQuery) nrX nrY

/-- **NRAS interpolates towards removed rows**: the row 20 is removed as noise, and yet a new row lies between the row 3 and it,
outside of the hull of the rows kept. -/
theorem C59_nras_noise_vertex :
    ∃ x : Row, (match nrRun with
      | .ok r => decide (r = ([[21], [22], [23], [24], [25], [100], [0], [1], [2], [3], x, x],
          [0, 0, 0, 0, 0, 0, 1, 1, 1, 1, 1, 1]))
      | .error _ => false) = true ∧ 3 < x.getD 0 0 ∧ x.getD 0 0 < 20 :=
  ⟨[49 / 5], by decide +kernel⟩

example : WF 1 nrX nrY ∧ IsMinority nrY 1 0 ∧ KnnQueryOK bruteQuery ∧ nrDraws.OK ∧ 2 < nrY.count 1 ∧
    0 < requested nrPar.proportion (nrY.count 0) (nrY.count 1) ∧
    (∀ i j, 0 < nrDraws.simplexU i j) ∧
    (List.range 5).map (nrasIsNoise (1 / 2) 5 nrY 1 (nrasTable 4 (fun _ => ([0], [100])) (fun X _ => X.map (fun _ => 0)) bruteQuery
      nrX nrY 1)) = [false, false, false, false, true] ∧
    ceBoundary [ceHalves, ceSwapped] 2 (1 / 2) clX clY 1 = [[0], [1], [10], [12]] ∧
    sample defaultChecks 1 (ceSmoteAlg (cePar 1) (fun _ => 1) exDraws 1 (fun _ => [ceHalves]) bruteQuery) clX clY =
      .ok (clX, clY) := by
  refine ⟨⟨by decide, by decide +kernel⟩, ⟨by decide, by decide, by decide, Or.inl (by decide)⟩, bruteQuery_ok, ?_, by decide,
    by decide +kernel, fun i j => ?_, by decide +kernel, by decide +kernel, by decide +kernel⟩
  · refine ⟨fun i => by norm_num [nrDraws], exDraws_ok.simplex⟩
  · simp only [nrDraws, exDraws]; positivity

end Verif

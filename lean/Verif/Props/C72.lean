import Verif.Model.Lvq
import Verif.Lemmas.Distances
import Verif.Props.C70

/-! # C72: LVQ_SMOTE -/

namespace Verif

/-! ## Specification -/

/-- Contract of `KMeans`: as many centres as asked for, of the right dimension. -/
def CentresOK (d : Nat) (kmeans : Nat → List Row → List Row) : Prop :=
  ∀ n rows, 0 < n → n ≤ rows.length → (∀ r ∈ rows, r.length = d) → (kmeans n rows).length = n ∧ ∀ r ∈ kmeans n rows, r.length = d

/-- Contract of `choice(m, 2, replace=False)`. -/
def TwoOK (codes : Nat → Nat → Nat × Nat) : Prop :=
  ∀ t m, 2 ≤ m → (codes t m).1 < m ∧ (codes t m).2 < m ∧ (codes t m).1 ≠ (codes t m).2

/-- How far the difference of the centres `i` and `j` is from that of `c0` and `c1`. -/
def diffGap (norm : Row → ℚ) (cb : List Row) (c0 c1 i j : Nat) : ℚ :=
  norm (Row.sub (Row.sub (cb.getD c0 []) (cb.getD c1 [])) (Row.sub (cb.getD i []) (cb.getD j [])))

/-- `z` is the centre `c0` moved by the offset of a minority row from the centre `o` for which the row is listed; `o` is one of two
centres whose difference is the closest to that of `c0` and another centre `c1`, among the remaining centres. -/
def LvqOrigin (d : Nat) (norm : Row → ℚ) (cb A : List Row) (table : List (List Nat)) (z : Row) : Prop :=
  ∃ (c0 c1 i j o q : Nat) (row : List Nat) (base centre x : Row),
    c0 ≠ c1 ∧ c1 < cb.length ∧ i < cb.length ∧ j < cb.length ∧ i ≠ c0 ∧ i ≠ c1 ∧ j ≠ c0 ∧ j ≠ c1 ∧ (o = i ∨ o = j) ∧
    (∀ i' j', i' < cb.length → j' < cb.length → i' ≠ c0 → i' ≠ c1 → j' ≠ c0 → j' ≠ c1 →
      diffGap norm cb c0 c1 i j ≤ diffGap norm cb c0 c1 i' j') ∧
    cb[c0]? = some base ∧ cb[o]? = some centre ∧ table[o]? = some row ∧ q ∈ row ∧ A[q]? = some x ∧ z.length = d ∧
    ∀ k, k < d → z.getD k 0 = base.getD k 0 + (x.getD k 0 - centre.getD k 0)

/-! ## The loops -/

theorem lvqFold_spec {norm : Row → ℚ} {cb : List Row} {c0 c1 : Nat} {coin : Nat → Nat → Bool} :
    ∀ (ps : List (Nat × Nat)) (best : Option (ℚ × Nat)) (seen : List (Nat × Nat)),
      (∀ p ∈ seen, (c0 ≠ p.1 ∧ c0 ≠ p.2) ∧ (c1 ≠ p.1 ∧ c1 ≠ p.2) →
        ∃ b, best = some b ∧ b.1 ≤ diffGap norm cb c0 c1 p.1 p.2) →
      (∀ b, best = some b → ∃ p ∈ seen, ((c0 ≠ p.1 ∧ c0 ≠ p.2) ∧ (c1 ≠ p.1 ∧ c1 ≠ p.2)) ∧ b.1 = diffGap norm cb c0 c1 p.1 p.2 ∧
        (b.2 = p.1 ∨ b.2 = p.2)) →
      (∀ p ∈ seen ++ ps, (c0 ≠ p.1 ∧ c0 ≠ p.2) ∧ (c1 ≠ p.1 ∧ c1 ≠ p.2) →
        ∃ b, ps.foldl (lvqStep norm cb c0 c1 coin) best = some b ∧ b.1 ≤ diffGap norm cb c0 c1 p.1 p.2) ∧
      (∀ b, ps.foldl (lvqStep norm cb c0 c1 coin) best = some b → ∃ p ∈ seen ++ ps,
        ((c0 ≠ p.1 ∧ c0 ≠ p.2) ∧ (c1 ≠ p.1 ∧ c1 ≠ p.2)) ∧ b.1 = diffGap norm cb c0 c1 p.1 p.2 ∧ (b.2 = p.1 ∨ b.2 = p.2)) := by
  intro ps
  induction ps with
  | nil => intro best seen h1 h2; rw [List.append_nil]; exact ⟨h1, h2⟩
  | cons p ps ih =>
    intro best seen h1 h2
    rw [List.foldl_cons, show seen ++ p :: ps = (seen ++ [p]) ++ ps by simp]
    have hcoin : ∀ c : Bool, (if c = true then p.2 else p.1) = p.1 ∨ (if c = true then p.2 else p.1) = p.2 := by
      intro c; cases c
      · exact .inl rfl
      · exact .inr rfl
    apply ih
    · intro r hr hok
      unfold lvqStep
      rcases List.mem_append.1 hr with hr | hr
      · obtain ⟨b, rfl, hb⟩ := h1 r hr hok
        split
        · dsimp only
          split
          · rename_i hlt
            exact ⟨_, rfl, le_trans hlt.le hb⟩
          · exact ⟨b, rfl, hb⟩
        · exact ⟨b, rfl, hb⟩
      · rw [List.mem_singleton] at hr
        subst hr
        rw [if_pos hok]
        cases best with
        | none => exact ⟨_, rfl, le_refl _⟩
        | some b =>
          dsimp only
          split
          · exact ⟨_, rfl, le_refl _⟩
          · rename_i hlt
            exact ⟨b, rfl, not_lt.1 hlt⟩
    · intro b hb
      unfold lvqStep at hb
      split at hb
      · rename_i hok
        cases best with
        | none =>
          injection hb with hb
          subst hb
          exact ⟨p, by simp, hok, rfl, hcoin _⟩
        | some b0 =>
          dsimp only at hb
          split at hb
          · injection hb with hb
            subst hb
            exact ⟨p, by simp, hok, rfl, hcoin _⟩
          · obtain ⟨r, hr, h⟩ := h2 b hb
            exact ⟨r, List.mem_append_left _ hr, h⟩
      · obtain ⟨r, hr, h⟩ := h2 b hb
        exact ⟨r, List.mem_append_left _ hr, h⟩

theorem lvqOptimum_spec {norm : Row → ℚ} {cb : List Row} {c0 c1 : Nat} {coin : Nat → Nat → Bool} (h3 : 3 ≤ cb.length) :
    ∃ b i j, lvqOptimum norm cb c0 c1 coin = some b ∧ i < cb.length ∧ j < cb.length ∧ i ≠ c0 ∧ i ≠ c1 ∧ j ≠ c0 ∧ j ≠ c1 ∧
      (b.2 = i ∨ b.2 = j) ∧ ∀ i' j', i' < cb.length → j' < cb.length → i' ≠ c0 → i' ≠ c1 → j' ≠ c0 → j' ≠ c1 →
        diffGap norm cb c0 c1 i j ≤ diffGap norm cb c0 c1 i' j' := by
  obtain ⟨f1, f2⟩ := lvqFold_spec (norm := norm) (cb := cb) (c0 := c0) (c1 := c1) (coin := coin)
    ((List.range cb.length).product (List.range cb.length)) none [] (by intro p hp; cases hp) (by intro b hb; cases hb)
  rw [List.nil_append] at f1 f2
  change ∀ p ∈ _, _ → ∃ b, lvqOptimum norm cb c0 c1 coin = some b ∧ _ at f1
  have hmem : ∀ i j, i < cb.length → j < cb.length → (i, j) ∈ (List.range cb.length).product (List.range cb.length) := by
    intro i j hi hj
    exact List.mem_product.2 ⟨List.mem_range.2 hi, List.mem_range.2 hj⟩
  obtain ⟨e, he, he0, he1⟩ : ∃ e, e < cb.length ∧ e ≠ c0 ∧ e ≠ c1 := by
    by_cases h0 : 0 ≠ c0 ∧ 0 ≠ c1
    · exact ⟨0, by omega, h0.1, h0.2⟩
    · by_cases h1 : 1 ≠ c0 ∧ 1 ≠ c1
      · exact ⟨1, by omega, h1.1, h1.2⟩
      · exact ⟨2, by omega, by omega, by omega⟩
  obtain ⟨b, hb, _⟩ := f1 (e, e) (hmem e e he he) ⟨⟨he0.symm, he0.symm⟩, ⟨he1.symm, he1.symm⟩⟩
  obtain ⟨p, hp, ⟨⟨q1, q2⟩, ⟨q3, q4⟩⟩, hv, ho⟩ := f2 b hb
  obtain ⟨p1, p2⟩ := List.mem_product.1 hp
  refine ⟨b, p.1, p.2, hb, List.mem_range.1 p1, List.mem_range.1 p2, q1.symm, q3.symm, q2.symm, q4.symm, ho, ?_⟩
  intro i' j' hi hj n1 n2 n3 n4
  obtain ⟨b', hb', hle⟩ := f1 (i', j') (hmem i' j' hi hj) ⟨⟨n1.symm, n3.symm⟩, ⟨n2.symm, n4.symm⟩⟩
  rw [hb] at hb'
  injection hb' with hb'
  subst hb'
  rw [← hv]
  exact hle

theorem lvqRow_spec {norm : Row → ℚ} {codes : Nat → Nat → Nat × Nat} {coin : Nat → Nat → Nat → Bool} {pos : Nat → Nat → Nat} {d k : Nat}
    {cb A : List Row} {table : List (List Nat)} (hcodes : TwoOK codes) (hpos : ∀ t m, 0 < m → pos t m < m) (h3 : 3 ≤ cb.length)
    (hcb : ∀ r ∈ cb, r.length = d) (hA : ∀ r ∈ A, r.length = d) (htl : table.length = cb.length) (ht : TableOK table k A.length)
    (hk : 1 ≤ k) (t : Nat) :
    ∃ z, lvqRow norm codes coin pos cb A table t = .ok z ∧ LvqOrigin d norm cb A table z := by
  obtain ⟨g1, g2, g3⟩ := hcodes t cb.length (by omega)
  obtain ⟨b, i, j, e1, e2, e3, e4, e5, e6, e7, e8, e9⟩ := lvqOptimum_spec (norm := norm) (cb := cb) (c0 := (codes t cb.length).1)
    (c1 := (codes t cb.length).2) (coin := coin t) h3
  have ho : b.2 < cb.length := by rcases e8 with h | h <;> omega
  have ho' : b.2 < table.length := by omega
  obtain ⟨t1, t2⟩ := ht _ (List.getElem_mem ho')
  have hq : pos t (table[b.2]).length < (table[b.2]).length := hpos _ _ (by omega)
  have hx := t2 _ (List.getElem_mem hq)
  have l1 := hcb _ (List.getElem_mem g1)
  have l2 := hcb _ (List.getElem_mem ho)
  have l3 := hA _ (List.getElem_mem hx)
  refine ⟨List.zipWith (· + ·) (cb[(codes t cb.length).1]) (Row.sub (A[(table[b.2])[pos t (table[b.2]).length]]) (cb[b.2])),
    ?_, _, _, i, j, b.2, _, _, _, _, _, g3, g2, e2, e3, e4, e5, e6, e7, e8, e9, List.getElem?_eq_getElem g1,
    List.getElem?_eq_getElem ho, List.getElem?_eq_getElem ho', List.getElem_mem hq, List.getElem?_eq_getElem hx, ?_, ?_⟩
  · unfold lvqRow
    dsimp only
    rw [e1]
    dsimp only
    rw [getRow_ok.2 (List.getElem?_eq_getElem ho'), ok_bind, getRow_ok.2 (List.getElem?_eq_getElem hq), ok_bind,
      getRow_ok.2 (List.getElem?_eq_getElem hx), ok_bind, getRow_ok.2 (List.getElem?_eq_getElem g1), ok_bind,
      getRow_ok.2 (List.getElem?_eq_getElem ho), ok_bind]
    rfl
  · rw [List.length_zipWith, l1, length_rowSub l3 l2, min_self]
  · intro c hc
    rw [List.getD_eq_getElem?_getD, List.getElem?_zipWith, List.getElem?_eq_getElem (by omega),
      List.getElem?_eq_getElem (by rw [length_rowSub l3 l2]; exact hc)]
    have e := getD_rowSub l3 l2 hc
    rw [List.getD_eq_getElem?_getD, List.getElem?_eq_getElem (by rw [length_rowSub l3 l2]; exact hc)] at e
    dsimp only at e ⊢
    rw [Option.getD_some] at e ⊢
    rw [e, List.getD_eq_getElem?_getD (l := cb[(codes t cb.length).1]), List.getElem?_eq_getElem (by omega)]
    rfl

/-- **LVQ_SMOTE**: exactly the requested number of minority rows is appended, each a centre moved by the offset of a minority row from
another centre. -/
theorem C72_lvq {proportion : ℚ} {nNeighbors nClusters : Nat} {kmeans : Nat → List Row → List Row} {norm : Row → ℚ}
    {codes : Nat → Nat → Nat × Nat} {coin : Nat → Nat → Nat → Bool} {pos : Nat → Nat → Nat} {d : Nat}
    {knn : Nat → List Row → List Row → List (List Nat)} {X : List Row} {y : List Int} {a b : Int}
    (hwf : WF d X y) (hk : KnnQueryOK knn) (hkm : CentresOK d kmeans) (hcodes : TwoOK codes) (hpos : ∀ t m, 0 < m → pos t m < m)
    (hmin : IsMinority y a b) (hnn : 1 ≤ nNeighbors) (hnc : 3 ≤ nClusters)
    (h3 : 2 < y.count a) (hn : 0 < requested proportion (y.count b) (y.count a)) :
    ∃ X' y', sample defaultChecks d (lvqAlg proportion nNeighbors nClusters kmeans norm codes coin pos knn) X y = .ok (X', y') ∧
      OversampledBy X y a (requested proportion (y.count b) (y.count a)) (LvqOrigin d norm
        (kmeans (min (y.count a) nClusters) (classRows X y a)) (classRows X y a)
        (knn (min (y.count a) nNeighbors) (classRows X y a) (kmeans (min (y.count a) nClusters) (classRows X y a)))) X' y' := by
  obtain ⟨s, hs, rfl, rfl⟩ := stats_of_isMinority hmin
  obtain ⟨hm, hM, hab⟩ := stats_min_mem hs
  have hA : (classRows X y s.minLabel).length = y.count s.minLabel := classRows_length hwf.1 _
  set A := classRows X y s.minLabel with hAd
  have hlen : ∀ r ∈ A, r.length = d := fun r hr => hwf.2 r (mem_of_mem_classRows hr)
  obtain ⟨c1, c2⟩ := hkm (min (y.count s.minLabel) nClusters) A (by omega) (by omega) hlen
  set cb := kmeans (min (y.count s.minLabel) nClusters) A with hcb
  obtain ⟨k1, k2⟩ := hk (min (y.count s.minLabel) nNeighbors) A cb (by omega)
  set n := requested proportion (y.count s.majLabel) (y.count s.minLabel) with hnd
  have hspec := lvqRow_spec (norm := norm) (coin := coin) hcodes hpos (by omega) c2 hlen k1 k2 (by omega)
  obtain ⟨samples, hsm⟩ := mapM_exists_ok (l := List.range n) (fun i _ => (hspec i).imp (fun _ h => h.1))
  have hf := mapM_ok_iff.1 hsm
  refine ⟨_, _, ?_, withSamples_oversampledBy (samples := samples) (by rw [← hf.length_eq, List.length_range]) ?_ rfl⟩
  · rw [sample_default hs, if_neg (by omega)]
    unfold lvqAlg
    rw [stats_count hs hm, stats_count hs hM, detN_eq_requested, ok_bind, if_neg (by omega)]
    simp only [selectLabel_eq_classRows, ← hAd, hA, ← hcb, ← hnd]
    rw [if_neg (by omega), hsm]
    rfl
  · intro z hz
    obtain ⟨i, _, hi⟩ := forall₂_mem_right hf hz
    obtain ⟨z', h1, h2⟩ := hspec i
    rw [hi] at h1
    injection h1 with h1
    subst h1
    exact h2

/-! ## Examples -/

/-- As many clusters as minority rows: the centres are the rows. -/
def lvKmeans (n : Nat) (rows : List Row) : List Row := rows.take n

/-- **A new row outside the box of the minority class**; here every centre is a minority row. -/
theorem C72_outside : ∃ x, sample defaultChecks 2 (lvqAlg 1 2 3 lvKmeans (fun v => (v.map (fun q => |q|)).sum)
    (fun _ _ => (1, 0)) (fun _ _ _ => false) (fun _ m => m - 1) gsKnn) outX outY = .ok (outX ++ [x], outY ++ [1]) ∧
      x.getD 1 0 < 0 ∧ ∀ r ∈ classRows outX outY 1, 0 ≤ r.getD 1 0 :=
  ⟨[1, -1], by decide +kernel, by decide +kernel, by decide +kernel⟩

example : WF 2 outX outY ∧ IsMinority outY 1 0 ∧ KnnQueryOK gsKnn ∧ CentresOK 2 lvKmeans ∧ TwoOK (fun _ _ => (1, 0)) ∧
    (∀ m : Nat, 0 < m → m - 1 < m) ∧ 2 < outY.count 1 ∧ 0 < requested 1 (outY.count 0) (outY.count 1) := by
  refine ⟨⟨by decide, by decide +kernel⟩, ⟨by decide, by decide, by decide, Or.inl (by decide)⟩, gsKnn_ok, ?_,
    fun _ m h => ⟨by dsimp only; omega, by dsimp only; omega, by simp⟩, fun m h => by omega, by decide, by decide +kernel⟩
  intro n rows h0 hn hr
  refine ⟨by unfold lvKmeans; rw [List.length_take]; omega, fun r h => hr r (List.mem_of_mem_take h)⟩

end Verif

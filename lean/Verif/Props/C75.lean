import Verif.Model.Adoms
import Verif.Lemmas.Distances
import Verif.Props.C70

/-! # C75: ADOMS -/

namespace Verif

/-! ## Specification -/

/-- `z` is the row `x` of `A` moved along the principal direction of its nearest rows, towards a neighbour that is not first on the list,
by at most the distance of the neighbour. -/
def AdomsOrigin (d : Nat) (norm : Row → ℚ) (pca : List Row → Row) (A : List Row) (table : List (List Nat)) (z : Row) : Prop :=
  ∃ (i q : Nat) (row : List Nat) (x nb : Row) (ns : List Row) (c : ℚ),
    A[i]? = some x ∧ table[i]? = some row ∧ q ∈ row.drop 1 ∧ A[q]? = some nb ∧ List.Forall₂ (fun j r => A[j]? = some r) row ns ∧
    |c| ≤ norm (Row.sub nb x) ∧
    0 ≤ c * ((List.range d).map (fun k => (nb.getD k 0 - x.getD k 0) * (pca ns).getD k 0)).sum ∧
    z.length = d ∧ ∀ k, k < d → z.getD k 0 = x.getD k 0 + c * (pca ns).getD k 0

/-- Contract of `PCA(n_components=1)`: a direction of the dimension of the rows. -/
def PcaOK (d : Nat) (pca : List Row → Row) : Prop := ∀ rows, rows ≠ [] → (∀ r ∈ rows, r.length = d) → (pca rows).length = d

/-! ## One row -/

theorem adomsSample_spec {d : Nat} {pca : List Row → Row} {norm : Row → ℚ} {nbIx : Nat} {rand : ℚ} {x : Row} {ns : List Row}
    (hp : PcaOK d pca) (hnorm : ∀ v, 0 ≤ norm v) (hr : 0 ≤ rand ∧ rand < 1) (hx : x.length = d) (hns : ∀ r ∈ ns, r.length = d)
    (hi : nbIx < ns.length) :
    ∃ z c, adomsSample pca norm nbIx rand x ns = .ok z ∧ |c| ≤ norm (Row.sub ns[nbIx] x) ∧
      0 ≤ c * ((List.range d).map (fun k => (ns[nbIx].getD k 0 - x.getD k 0) * (pca ns).getD k 0)).sum ∧
      z.length = d ∧ ∀ k, k < d → z.getD k 0 = x.getD k 0 + c * (pca ns).getD k 0 := by
  have hd := hp ns (List.length_pos_iff.1 (by omega)) hns
  have hn := hns _ (List.getElem_mem hi)
  have hsub := length_rowSub hn hx
  have hdot : dotRow (Row.sub ns[nbIx] x) (pca ns) =
      ((List.range d).map (fun k => (ns[nbIx].getD k 0 - x.getD k 0) * (pca ns).getD k 0)).sum := by
    unfold dotRow
    rw [zipWith_sum_range (Row.sub ns[nbIx] x) (pca ns) (· * ·) 0 0 hsub hd]
    apply list_sum_map_congr
    intro k hk
    rw [getD_rowSub hn hx (List.mem_range.1 hk)]
    rfl
  set D := norm (Row.sub ns[nbIx] x) with hD
  have hD0 : 0 ≤ D := hnorm _
  set sign : ℚ := if 0 < dotRow (Row.sub ns[nbIx] x) (pca ns) then 1 else -1 with hsign
  refine ⟨List.zipWith (fun x v => x + sign * rand * D * v) x (pca ns), sign * rand * D, ?_, ?_, ?_, ?_, ?_⟩
  · unfold adomsSample
    dsimp only
    rw [getRow_ok.2 (List.getElem?_eq_getElem hi), ok_bind]
    rfl
  · have h1 : 0 ≤ rand * D := mul_nonneg hr.1 hD0
    have h2 : rand * D ≤ D := by nlinarith [hr.2]
    rw [hsign]
    split
    · rw [one_mul, abs_of_nonneg h1]; exact h2
    · rw [show (-1 : ℚ) * rand * D = -(rand * D) by ring, abs_neg, abs_of_nonneg h1]; exact h2
  · have h1 : 0 ≤ rand * D := mul_nonneg hr.1 hD0
    rw [← hdot, hsign]
    split
    · rename_i h
      rw [one_mul]
      exact mul_nonneg h1 h.le
    · rename_i h
      have := not_lt.1 h
      nlinarith
  · rw [List.length_zipWith, hx, hd, min_self]
  · intro k hk
    simp [List.getD_eq_getElem?_getD, hx, hd, hk]

/-- **ADOMS**: exactly the requested number of minority rows. -/
theorem C75_adoms {proportion : ℚ} {nNeighbors : Nat} {pca : List Row → Row} {norm : Row → ℚ} {index nbIx : Nat → Nat → Nat}
    {rand : Nat → ℚ} {knn : Nat → List Row → List (List Nat)} {d : Nat} {X : List Row} {y : List Int} {a b : Int}
    (hwf : WF d X y) (hk : KnnOK knn) (hp : PcaOK d pca) (hnorm : ∀ v, 0 ≤ norm v) (hix : ∀ t m, 0 < m → index t m < m)
    (hnb : ∀ t m, 0 < m → nbIx t m < m) (hr : ∀ t, 0 ≤ rand t ∧ rand t < 1) (hnn : 1 ≤ nNeighbors)
    (hmin : IsMinority y a b) (h3 : 2 < y.count a) (hn : 0 < requested proportion (y.count b) (y.count a)) :
    ∃ X' y', sample defaultChecks d (adomsAlg proportion nNeighbors pca norm index nbIx rand knn) X y = .ok (X', y') ∧
      OversampledBy X y a (requested proportion (y.count b) (y.count a))
        (AdomsOrigin d norm pca (classRows X y a) (knn (min (y.count a) (nNeighbors + 1)) (classRows X y a))) X' y' := by
  obtain ⟨s, hs, rfl, rfl⟩ := stats_of_isMinority hmin
  obtain ⟨hm, hM, hab⟩ := stats_min_mem hs
  have hA : (classRows X y s.minLabel).length = y.count s.minLabel := classRows_length hwf.1 _
  set A := classRows X y s.minLabel with hAd
  have hlen : ∀ r ∈ A, r.length = d := fun r hr => hwf.2 r (mem_of_mem_classRows hr)
  obtain ⟨k1, k2⟩ := hk (min (y.count s.minLabel) (nNeighbors + 1)) A (by omega)
  set table := knn (min (y.count s.minLabel) (nNeighbors + 1)) A with htd
  set n := requested proportion (y.count s.majLabel) (y.count s.minLabel) with hnd
  have hspec : ∀ t, ∃ z, (do
      let row ← getRow table (index t A.length)
      let neighbors ← takeRows A row
      let x ← getRow A (index t A.length)
      if neighbors.length ≤ 1 then throw .valueError
      adomsSample pca norm (1 + nbIx t (neighbors.length - 1)) (rand t) x neighbors : Res Row) = .ok z ∧
        AdomsOrigin d norm pca A table z := by
    intro t
    have hi := hix t A.length (by omega)
    have hi' : index t A.length < table.length := by omega
    obtain ⟨t1, t2⟩ := k2 _ (List.getElem_mem hi')
    obtain ⟨ns, hns⟩ := takeRows_ok_of_lt t2
    have hnl := takeRows_length hns
    have hq := hnb t (ns.length - 1) (by omega)
    have hq' : 1 + nbIx t (ns.length - 1) < ns.length := by omega
    obtain ⟨z, c, z1, z2, z3, z4, z5⟩ := adomsSample_spec hp hnorm (hr t) (hlen _ (List.getElem_mem hi))
      (fun r hr => hlen r (takeRows_mem hns hr)) hq'
    have hff := takeRows_forall hns
    have hq'' : 1 + nbIx t (ns.length - 1) < (table[index t A.length]).length := by omega
    refine ⟨z, ?_, _, (table[index t A.length])[1 + nbIx t (ns.length - 1)], _, _, _, ns, c, List.getElem?_eq_getElem hi,
      List.getElem?_eq_getElem hi', ?_, hff.get hq'' hq', hff, z2, z3, z4, z5⟩
    · rw [getRow_ok.2 (List.getElem?_eq_getElem hi'), ok_bind, hns, ok_bind, getRow_ok.2 (List.getElem?_eq_getElem hi), ok_bind,
        if_neg (by omega)]
      exact z1
    · refine List.mem_iff_getElem?.2 ⟨nbIx t (ns.length - 1), ?_⟩
      rw [List.getElem?_drop, List.getElem?_eq_getElem hq'']
  obtain ⟨samples, hsm⟩ := mapM_exists_ok (l := List.range n) (fun i _ => (hspec i).imp (fun _ h => h.1))
  have hf := mapM_ok_iff.1 hsm
  refine ⟨_, _, ?_, withSamples_oversampledBy (samples := samples) (by rw [← hf.length_eq, List.length_range]) ?_ rfl⟩
  · rw [sample_default hs, if_neg (by omega)]
    unfold adomsAlg
    rw [stats_count hs hm, stats_count hs hM, detN_eq_requested, ok_bind, if_neg (by omega)]
    simp only [selectLabel_eq_classRows, ← hAd, ← hnd]
    rw [hA]
    rw [hA] at hsm
    rw [← htd, hsm]
    rfl
  · intro z hz
    obtain ⟨i, _, hi⟩ := forall₂_mem_right hf hz
    obtain ⟨z', h1, h2⟩ := hspec i
    rw [hi] at h1
    injection h1 with h1
    subst h1
    exact h2

/-- **Not farther than the neighbour**, if the norm is the Euclidean one and the direction a unit vector. -/
theorem C75_distance {d : Nat} {norm : Row → ℚ} {pca : List Row → Row} {A : List Row} {table : List (List Nat)} {z : Row}
    (hnorm : ∀ x nb : Row, x ∈ A → nb ∈ A →
      norm (Row.sub nb x) ^ 2 = ((List.range d).map (fun k => (nb.getD k 0 - x.getD k 0) ^ 2)).sum)
    (hunit : ∀ rows, ((List.range d).map (fun k => (pca rows).getD k 0 ^ 2)).sum = 1) (h : AdomsOrigin d norm pca A table z) :
    ∃ (i q : Nat) (row : List Nat) (x nb : Row), A[i]? = some x ∧ table[i]? = some row ∧ q ∈ row.drop 1 ∧ A[q]? = some nb ∧
      ((List.range d).map (fun k => (z.getD k 0 - x.getD k 0) ^ 2)).sum ≤
        ((List.range d).map (fun k => (nb.getD k 0 - x.getD k 0) ^ 2)).sum := by
  obtain ⟨i, q, row, x, nb, ns, c, h1, h2, h3, h4, h5, h6, h7, h8, h9⟩ := h
  refine ⟨i, q, row, x, nb, h1, h2, h3, h4, ?_⟩
  rw [← hnorm x nb (List.mem_of_getElem? h1) (List.mem_of_getElem? h4)]
  have e : ((List.range d).map (fun k => (z.getD k 0 - x.getD k 0) ^ 2)).sum = c ^ 2 := by
    rw [← mul_one (c ^ 2), ← hunit ns, ← List.sum_map_mul_left]
    apply list_sum_map_congr
    intro k hk
    rw [h9 k (List.mem_range.1 hk)]
    ring
  rw [e, ← sq_abs c]
  exact pow_le_pow_left₀ (abs_nonneg c) h6 2

/-- **With one attribute** a new row lies between the row and the neighbour. -/
theorem C75_one {norm : Row → ℚ} {pca : List Row → Row} {A : List Row} {table : List (List Nat)} {z : Row}
    (hnorm : ∀ x nb : Row, x ∈ A → nb ∈ A → norm (Row.sub nb x) = |nb.getD 0 0 - x.getD 0 0|)
    (hunit : ∀ rows, |(pca rows).getD 0 0| = 1) (h : AdomsOrigin 1 norm pca A table z) :
    ∃ (i q : Nat) (row : List Nat) (x nb : Row), A[i]? = some x ∧ table[i]? = some row ∧ q ∈ row.drop 1 ∧ A[q]? = some nb ∧
      Between 1 x nb z := by
  obtain ⟨i, q, row, x, nb, ns, c, h1, h2, h3, h4, h5, h6, h7, h8, h9⟩ := h
  refine ⟨i, q, row, x, nb, h1, h2, h3, h4, h8, ?_⟩
  intro k hk
  obtain rfl : k = 0 := by omega
  rw [hnorm x nb (List.mem_of_getElem? h1) (List.mem_of_getElem? h4)] at h6
  rw [h9 0 hk]
  have hu := hunit ns
  simp only [List.range_one, List.map_cons, List.map_nil, List.sum_cons, List.sum_nil, add_zero] at h7
  generalize (pca ns).getD 0 0 = v at *
  have hw : |c * v| ≤ |nb.getD 0 0 - x.getD 0 0| := by rw [abs_mul, hu, mul_one]; exact h6
  have h7' : 0 ≤ (c * v) * (nb.getD 0 0 - x.getD 0 0) := by linarith [h7]
  generalize c * v = w at *
  generalize x.getD 0 0 = p at *
  generalize nb.getD 0 0 = r at *
  obtain ⟨a1, a2⟩ := abs_le.1 hw
  rcases lt_trichotomy p r with hpr | hpr | hpr
  · rw [abs_of_pos (by linarith)] at a1 a2
    have : 0 ≤ w := by by_contra hc; have := mul_neg_of_neg_of_pos (not_le.1 hc) (sub_pos.2 hpr); linarith
    rw [min_eq_left hpr.le, max_eq_right hpr.le]
    exact ⟨by linarith, by linarith⟩
  · subst hpr
    rw [sub_self, abs_zero] at a1 a2
    rw [min_self, max_self]
    exact ⟨by linarith, by linarith⟩
  · rw [abs_of_neg (by linarith)] at a1 a2
    have : w ≤ 0 := by by_contra hc; have := mul_neg_of_pos_of_neg (not_le.1 hc) (sub_neg.2 hpr); linarith
    rw [min_eq_right hpr.le, max_eq_left hpr.le]
    exact ⟨by linarith, by linarith⟩

/-! ## Examples -/

def adX : List Row := [[0, 0], [8, 0], [4, 3], [20, 0], [21, 0], [22, 0], [23, 0]]
def adNorm (v : Row) : ℚ := if dotRow v v = 25 then 5 else 8

/-- **A new row outside the box of the minority class.** The direction `(1, 0)` is the principal one of the three minority rows: their
covariance matrix is diagonal, with the larger entry first. The norm is right for the three differences. -/
theorem C75_outside : (∃ x, sample defaultChecks 2 (adomsAlg 1 2 (fun _ => [1, 0]) adNorm (fun _ _ => 2) (fun _ m => m - 1)
    (fun _ => 9 / 10) exKnn) adX outY = .ok (adX ++ [x], outY ++ [1]) ∧ 8 < x.getD 0 0) ∧
    (∀ r ∈ classRows adX outY 1, r.getD 0 0 ≤ 8) ∧
    (∀ x ∈ classRows adX outY 1, ∀ nb ∈ classRows adX outY 1, x ≠ nb →
      adNorm (Row.sub nb x) ^ 2 = ((List.range 2).map (fun k => (nb.getD k 0 - x.getD k 0) ^ 2)).sum) ∧
    ((classRows adX outY 1).map (fun r => (r.getD 0 0 - 4) * (r.getD 1 0 - 1))).sum = 0 ∧
    ((classRows adX outY 1).map (fun r => (r.getD 1 0 - 1) ^ 2)).sum < ((classRows adX outY 1).map (fun r => (r.getD 0 0 - 4) ^ 2)).sum :=
  ⟨⟨[17 / 2, 3], by decide +kernel, by decide +kernel⟩, by decide +kernel, by decide +kernel, by decide +kernel, by decide +kernel⟩

example : WF 2 adX outY ∧ IsMinority outY 1 0 ∧ KnnOK exKnn ∧ PcaOK 2 (fun _ => [1, 0]) ∧ (∀ v, 0 ≤ adNorm v) ∧ 2 < outY.count 1 ∧
    0 < requested 1 (outY.count 0) (outY.count 1) := by
  refine ⟨⟨by decide, by decide +kernel⟩, ⟨by decide, by decide, by decide, Or.inl (by decide)⟩, exKnn_ok, fun _ _ _ => rfl, ?_,
    by decide, by decide +kernel⟩
  intro v
  unfold adNorm
  split <;> norm_num

end Verif

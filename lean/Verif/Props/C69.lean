import Verif.Model.Lle
import Verif.Lemmas.Distances
import Verif.Props.C58
import Mathlib.LinearAlgebra.FiniteDimensional.Lemmas
import Mathlib.Tactic.LinearCombination

/-!
# C69: LLE_SMOTE maps points of the embedding back by optimal affine weights
-/

namespace Verif

/-! ## Specification -/

/-- `x` is the combination of the rows with the weights, which sum to one; they may be negative. -/
def IsAffineComb (d : Nat) (w : List ℚ) (S : List Row) (x : Row) : Prop :=
  w.length = S.length ∧ w.sum = 1 ∧ x.length = d ∧
  ∀ k, k < d → x.getD k 0 = (List.zipWith (fun c (r : Row) => c * r.getD k 0) w S).sum

/-- The squared distance of `z` and the combination of the rows with the weights `v`. -/
def reconError (m : Nat) (v : List ℚ) (S : List Row) (z : Row) : ℚ :=
  ((List.range m).map (fun c => (z.getD c 0 - (List.zipWith (fun q (r : Row) => q * r.getD c 0) v S).sum) ^ 2)).sum

/-- No weights of sum one are better. -/
def OptimalWeights (m : Nat) (z : Row) (S : List Row) (w : List ℚ) : Prop :=
  ∀ v : List ℚ, v.length = S.length → v.sum = 1 → reconError m w S z ≤ reconError m v S z

/-- Contract of `np.linalg.solve`: an answer solves the equations. -/
def SolveOK (solve : List Row → Row → Option Row) : Prop :=
  ∀ C b w, solve C b = some w → w.length = C.length ∧ C.map (fun r => dotRow r w) = b

/-- Contract of `np.linalg.solve`: `LinAlgError` for a singular matrix. -/
def SolveSingular (solve : List Row → Row → Option Row) : Prop :=
  ∀ (C : List Row) (b u : Row), u.length = C.length → (∃ x ∈ u, x ≠ 0) → (∀ r ∈ C, dotRow r u = 0) → solve C b = none

/-- Contract of the embedding: one row with `m` features for every row. -/
def LleOK (lle : Nat → Nat → List Row → List Row) : Prop :=
  ∀ k m rows, (lle k m rows).length = rows.length ∧ ∀ r ∈ lle k m rows, r.length = m

/-! ## Linear algebra -/

open Finset in
/-- For a solution of the equations with the Gram matrix the weights have a positive sum, and scaled to sum one they are optimal. -/
theorem gram_optimal (k m : Nat) (z : Nat → Nat → ℚ) (W : Nat → ℚ) (hk : 0 < k)
    (h : ∀ i, i < k → ∑ j ∈ range k, (∑ c ∈ range m, z i c * z j c) * W j = 1) :
    0 < ∑ j ∈ range k, W j ∧ ∀ V : Nat → ℚ, ∑ j ∈ range k, V j = 1 →
      ∑ c ∈ range m, (∑ j ∈ range k, W j / (∑ l ∈ range k, W l) * z j c) ^ 2 ≤ ∑ c ∈ range m, (∑ j ∈ range k, V j * z j c) ^ 2 := by
  have hG : ∀ i, i < k → ∑ c ∈ range m, z i c * (∑ j ∈ range k, W j * z j c) = 1 := by
    intro i hi
    rw [← h i hi]
    simp only [mul_sum, sum_mul]
    rw [sum_comm]
    exact sum_congr rfl (fun j _ => sum_congr rfl (fun c _ => by ring))
  have hU : ∀ U : Nat → ℚ, ∑ c ∈ range m, (∑ i ∈ range k, U i * z i c) * (∑ j ∈ range k, W j * z j c) = ∑ i ∈ range k, U i := by
    intro U
    have e : ∀ c ∈ range m, (∑ i ∈ range k, U i * z i c) * (∑ j ∈ range k, W j * z j c) =
        ∑ i ∈ range k, U i * z i c * (∑ j ∈ range k, W j * z j c) := fun c _ => sum_mul _ _ _
    rw [sum_congr rfl e, sum_comm]
    refine sum_congr rfl (fun i hi => ?_)
    have := hG i (mem_range.1 hi)
    calc ∑ c ∈ range m, U i * z i c * (∑ j ∈ range k, W j * z j c) =
        U i * ∑ c ∈ range m, z i c * (∑ j ∈ range k, W j * z j c) := by
          rw [mul_sum]; exact sum_congr rfl (fun c _ => by ring)
      _ = U i := by rw [this, mul_one]
  set s := ∑ j ∈ range k, W j with hs
  have hB : ∑ c ∈ range m, (∑ j ∈ range k, W j * z j c) ^ 2 = s := by
    rw [hs, ← hU W]
    exact sum_congr rfl (fun c _ => by ring)
  have hpos : 0 < s := by
    rcases lt_or_eq_of_le (show 0 ≤ s by rw [← hB]; exact sum_nonneg (fun c _ => sq_nonneg _)) with h2 | h2
    · exact h2
    · exfalso
      have h3 : ∀ c ∈ range m, (∑ j ∈ range k, W j * z j c) ^ 2 = 0 :=
        (sum_eq_zero_iff_of_nonneg (fun c _ => sq_nonneg _)).1 (by rw [hB, ← h2])
      have := hG 0 hk
      rw [sum_eq_zero] at this
      · exact zero_ne_one this
      · intro c hc
        rw [pow_eq_zero_iff two_ne_zero |>.1 (h3 c hc), mul_zero]
  refine ⟨hpos, fun V hV => ?_⟩
  have e1 : ∀ c ∈ range m, (∑ j ∈ range k, W j / s * z j c) ^ 2 = (∑ j ∈ range k, W j * z j c) ^ 2 * (1 / s) ^ 2 := by
    intro c _
    rw [← mul_pow, sum_mul]
    congr 1
    exact sum_congr rfl (fun j _ => by ring)
  rw [sum_congr rfl e1, ← sum_mul, hB]
  have h0 : 0 ≤ ∑ c ∈ range m, ((∑ j ∈ range k, V j * z j c) - (∑ j ∈ range k, W j * z j c) * (1 / s)) ^ 2 :=
    sum_nonneg (fun c _ => sq_nonneg _)
  have h1 : ∑ c ∈ range m, ((∑ j ∈ range k, V j * z j c) - (∑ j ∈ range k, W j * z j c) * (1 / s)) ^ 2 =
      ∑ c ∈ range m, (∑ j ∈ range k, V j * z j c) ^ 2 - 2 * (1 / s) * 1 + (1 / s) ^ 2 * s := by
    rw [← hV, ← hU V, ← hB, mul_sum, mul_sum, ← sum_sub_distrib, ← sum_add_distrib]
    exact sum_congr rfl (fun c _ => by ring)
  rw [h1] at h0
  have h2 : s * (1 / s) ^ 2 = 1 / s := by field_simp
  have h3 : (1 / s) ^ 2 * s = 1 / s := by field_simp
  rw [h2]
  rw [h3] at h0
  linarith

open Finset in
/-- More differences than components: the Gram matrix is singular. -/
theorem gram_singular (k m : Nat) (z : Nat → Nat → ℚ) (h : m < k) :
    ∃ U : Nat → ℚ, (∃ j, j < k ∧ U j ≠ 0) ∧ ∀ i, ∑ j ∈ range k, (∑ c ∈ range m, z i c * z j c) * U j = 0 := by
  let f : (Fin k → ℚ) →ₗ[ℚ] (Fin m → ℚ) :=
    { toFun := fun u c => ∑ j : Fin k, u j * z j c
      map_add' := by intro u v; funext c; simp [add_mul, sum_add_distrib]
      map_smul' := by intro a u; funext c; simp [mul_assoc, mul_sum] }
  have hker : LinearMap.ker f ≠ ⊥ := LinearMap.ker_ne_bot_of_finrank_lt (by simpa using h)
  obtain ⟨u, hu, hne⟩ := (Submodule.ne_bot_iff _).1 hker
  rw [LinearMap.mem_ker] at hu
  have huc : ∀ c, c < m → ∑ j : Fin k, u j * z j c = 0 := fun c hc => congrFun hu ⟨c, hc⟩
  obtain ⟨j0, hj0⟩ := Function.ne_iff.1 hne
  refine ⟨fun j => if hj : j < k then u ⟨j, hj⟩ else 0, ⟨j0, j0.2, by simpa using hj0⟩, fun i => ?_⟩
  have e : ∀ c, c < m → ∑ j ∈ range k, (if hj : j < k then u ⟨j, hj⟩ else 0) * z j c = 0 := by
    intro c hc
    rw [← huc c hc, Finset.sum_range]
    exact sum_congr rfl (fun j _ => by simp)
  have : ∑ j ∈ range k, (∑ c ∈ range m, z i c * z j c) * (if hj : j < k then u ⟨j, hj⟩ else 0) =
      ∑ c ∈ range m, z i c * ∑ j ∈ range k, (if hj : j < k then u ⟨j, hj⟩ else 0) * z j c := by
    simp only [mul_sum, sum_mul]
    rw [sum_comm]
    exact sum_congr rfl (fun c _ => sum_congr rfl (fun j _ => by ring))
  rw [this]
  exact sum_eq_zero (fun c hc => by rw [e c (mem_range.1 hc), mul_zero])

theorem list_sum_range (d : Nat) (f : Nat → ℚ) : ((List.range d).map f).sum = ∑ i ∈ Finset.range d, f i := by
  induction d with
  | zero => rfl
  | succ d ih => rw [List.range_succ, List.map_append, List.sum_append, ih, Finset.sum_range_succ]; simp

theorem sum_getD (l : List ℚ) : l.sum = ∑ j ∈ Finset.range l.length, l.getD j 0 := by
  rw [← list_sum_range]
  conv_lhs => rw [← List.map_id l, ← map_range_getD l 0 id]
  rfl

/-- The Gram matrix, by positions. -/
theorem dot_sub {m : Nat} {r r' z : Row} (hr : r.length = m) (hr' : r'.length = m) (hz : z.length = m) :
    dotRow (Row.sub r z) (Row.sub r' z) = ∑ c ∈ Finset.range m, (r.getD c 0 - z.getD c 0) * (r'.getD c 0 - z.getD c 0) := by
  unfold dotRow
  rw [zipWith_sum_range _ _ _ 0 0 (length_rowSub hr hz) (length_rowSub hr' hz), list_sum_range]
  refine Finset.sum_congr rfl (fun c hc => ?_)
  rw [Finset.mem_range] at hc
  rw [getD_rowSub hr hz hc, getD_rowSub hr' hz hc]
  rfl

theorem reconError_eq {m : Nat} {S : List Row} {z : Row} {v : List ℚ} (hv : v.length = S.length) (h1 : v.sum = 1) :
    reconError m v S z = ∑ c ∈ Finset.range m,
      (∑ j ∈ Finset.range S.length, v.getD j 0 * ((S.getD j []).getD c 0 - z.getD c 0)) ^ 2 := by
  unfold reconError
  rw [list_sum_range]
  refine Finset.sum_congr rfl (fun c _ => ?_)
  rw [zipWith_sum_range v S _ 0 [] hv rfl, list_sum_range]
  have : z.getD c 0 = ∑ j ∈ Finset.range S.length, v.getD j 0 * z.getD c 0 := by
    rw [← Finset.sum_mul, ← hv, ← sum_getD, h1, one_mul]
  have e : ∑ j ∈ Finset.range S.length, v.getD j 0 * ((S.getD j []).getD c 0 - z.getD c 0) =
      (∑ j ∈ Finset.range S.length, v.getD j 0 * (S.getD j []).getD c 0) - z.getD c 0 := by
    conv_rhs => rw [this]
    rw [← Finset.sum_sub_distrib]
    exact Finset.sum_congr rfl (fun j _ => by ring)
  rw [e]
  ring

theorem equalWeights_spec {k : Nat} (hk : 0 < k) : (List.replicate k (1 : ℚ)).sum = k ∧ (k : ℚ) ≠ 0 ∧
    ((List.replicate k (1 : ℚ)).map (fun c => c / (k : ℚ))).sum = 1 := by
  have h0 : (k : ℚ) ≠ 0 := by exact_mod_cast hk.ne'
  refine ⟨by simp, h0, ?_⟩
  rw [List.map_replicate, List.sum_replicate]
  simp [h0]

theorem lleWeights_spec {solve : List Row → Row → Option Row} {m : Nat} {S : List Row} {z : Row} (hsol : SolveOK solve)
    (hS : ∀ r ∈ S, r.length = m) (hz : z.length = m) (hne : S ≠ []) :
    ∃ w, lleWeights solve z S = .ok w ∧ w.length = S.length ∧ w.sum = 1 ∧
      ((∀ c ∈ w, c = 1 / (S.length : ℚ)) ∨ OptimalWeights m z S w) ∧
      (SolveSingular solve → m < S.length → ∀ c ∈ w, c = 1 / (S.length : ℚ)) := by
  have hk : 0 < S.length := List.length_pos_of_ne_nil hne
  obtain ⟨e1, e2, e3⟩ := equalWeights_spec hk
  have hSj : ∀ j, j < S.length → (S.getD j []).length = m := by
    intro j hj
    rw [List.getD_eq_getElem?_getD, List.getElem?_eq_getElem hj]
    exact hS _ (List.getElem_mem hj)
  unfold lleWeights
  dsimp only
  set Z := S.map (fun r => Row.sub r z) with hZ
  set C := Z.map (fun r => Z.map (dotRow r)) with hC
  have hCl : C.length = S.length := by simp [hC, hZ]
  -- the equations
  have hrow : ∀ i, i < S.length → ∀ u : Row, u.length = S.length → ∃ r, C[i]? = some r ∧ dotRow r u =
      ∑ j ∈ Finset.range S.length, (∑ c ∈ Finset.range m, ((S.getD i []).getD c 0 - z.getD c 0) *
        ((S.getD j []).getD c 0 - z.getD c 0)) * u.getD j 0 := by
    intro i hi u hu
    refine ⟨Z.map (dotRow (Row.sub (S.getD i []) z)), ?_, ?_⟩
    · rw [hC, hZ, List.getElem?_map, List.getElem?_map, List.getElem?_eq_getElem hi, List.getD_eq_getElem?_getD,
        List.getElem?_eq_getElem hi]
      rfl
    · unfold dotRow
      rw [zipWith_sum_range _ _ _ 0 0 (show _ = S.length by simp [hZ]) hu, list_sum_range]
      refine Finset.sum_congr rfl (fun j hj => ?_)
      rw [Finset.mem_range] at hj
      congr 1
      rw [← dot_sub (hSj i hi) (hSj j hj) hz, List.getD_eq_getElem?_getD, List.getElem?_map, hZ, List.getElem?_map,
        List.getElem?_eq_getElem hj, List.getD_eq_getElem?_getD (l := S) (i := j), List.getElem?_eq_getElem hj]
      rfl
  have hsing : SolveSingular solve → m < S.length → solve C (List.replicate C.length 1) = none := by
    intro hs hlt
    obtain ⟨U, ⟨j, hj, hUj⟩, hU⟩ := gram_singular S.length m (fun i c => (S.getD i []).getD c 0 - z.getD c 0) hlt
    have hul : ((List.range S.length).map U).length = S.length := by simp
    refine hs C _ ((List.range S.length).map U) (by rw [hul, hCl]) ⟨U j, List.mem_map.2 ⟨j, List.mem_range.2 hj, rfl⟩, hUj⟩ ?_
    intro r hr
    obtain ⟨i, hi⟩ := List.mem_iff_getElem?.1 hr
    have hil : i < S.length := by rw [← hCl]; exact (List.getElem?_eq_some_iff.1 hi).1
    obtain ⟨r', h1, h2⟩ := hrow i hil _ hul
    rw [hi] at h1
    injection h1 with h1
    subst h1
    refine h2.trans (Eq.trans ?_ (hU i))
    refine Finset.sum_congr rfl (fun j hj => ?_)
    rw [Finset.mem_range] at hj
    congr 1
    rw [List.getD_eq_getElem?_getD, List.getElem?_map, List.getElem?_range hj]
    rfl
  have hequal : ∃ w, (if (List.replicate C.length (1 : ℚ)).sum = 0 then (.error .nan : Res (List ℚ))
      else .ok ((List.replicate C.length (1 : ℚ)).map (fun c => c / (List.replicate C.length (1 : ℚ)).sum))) = .ok w ∧
      w.length = S.length ∧ w.sum = 1 ∧ ∀ c ∈ w, c = 1 / (S.length : ℚ) := by
    rw [hCl, e1, if_neg e2]
    refine ⟨_, rfl, by simp, e3, ?_⟩
    intro c hc
    obtain ⟨q, hq, rfl⟩ := List.mem_map.1 hc
    rw [List.eq_of_mem_replicate hq]
  cases hsv : solve C (List.replicate C.length 1) with
  | none =>
    dsimp only
    obtain ⟨w, g1, g2, g3, g4⟩ := hequal
    exact ⟨w, g1, g2, g3, .inl g4, fun _ _ => g4⟩
  | some w =>
    dsimp only
    have hno : ¬ (SolveSingular solve ∧ m < S.length) := by
      rintro ⟨h1, h2⟩
      rw [hsing h1 h2] at hsv
      cases hsv
    split
    · obtain ⟨w, g1, g2, g3, g4⟩ := hequal
      exact ⟨w, g1, g2, g3, .inl g4, fun _ _ => g4⟩
    · obtain ⟨hwl, hweq⟩ := hsol _ _ _ hsv
      rw [hCl] at hwl
      obtain ⟨p1, p2⟩ := gram_optimal S.length m (fun i c => (S.getD i []).getD c 0 - z.getD c 0) (fun j => w.getD j 0) hk (by
        intro i hi
        obtain ⟨r, h1, h2⟩ := hrow i hi w hwl
        rw [← h2]
        have := congrArg (fun l => l[i]?) hweq
        simp only [List.getElem?_map, h1, Option.map_some] at this
        rw [List.getElem?_replicate, if_pos (by omega)] at this
        injection this)
      rw [← hwl, ← sum_getD] at p1
      rw [if_neg p1.ne']
      refine ⟨_, rfl, by simp [hwl], ?_, .inr ?_, fun h1 h2 => absurd ⟨h1, h2⟩ hno⟩
      · rw [sum_map_div, div_self p1.ne']
      · intro v hv hv1
        rw [reconError_eq (by simp [hwl]) (by rw [sum_map_div, div_self p1.ne']), reconError_eq hv hv1]
        refine le_trans (le_of_eq ?_) (p2 (fun j => v.getD j 0) (by rw [← hv, ← sum_getD, hv1]))
        refine Finset.sum_congr rfl (fun c _ => ?_)
        congr 1
        refine Finset.sum_congr rfl (fun j hj => ?_)
        rw [Finset.mem_range] at hj
        congr 1
        rw [List.getD_eq_getElem?_getD, List.getElem?_map, List.getElem?_eq_getElem (by omega),
          List.getD_eq_getElem?_getD, List.getElem?_eq_getElem (by omega)]
        show w[j] / w.sum = w[j] / _
        congr 1
        rw [sum_getD, hwl]

/-! ## The oversampler -/

/-- What is returned for the point `z` of the embedding with the neighbours `idx`: an affine combination of these rows of the data, with
weights which are all equal or which are the best for `z` in the embedding. -/
def EmbeddedBack (d m : Nat) (T A : List Row) (z : Row) (idx : List Nat) (x : Row) : Prop :=
  ∃ w, IsAffineComb d w (idx.map (fun i => A.getD i [])) x ∧
    ((∀ c ∈ w, c = 1 / (idx.length : ℚ)) ∨ OptimalWeights m z (idx.map (fun i => T.getD i [])) w)

/-- The plain mean of the listed rows. -/
def PlainMean (d : Nat) (A : List Row) (idx : List Nat) (x : Row) : Prop :=
  ∃ w, IsAffineComb d w (idx.map (fun i => A.getD i [])) x ∧ ∀ c ∈ w, c = 1 / (idx.length : ℚ)

theorem weightedSum_affine {d : Nat} {w : List ℚ} {R : List Row} (h : w.length = R.length) (h1 : w.sum = 1) :
    IsAffineComb d w R (weightedSum d w R) := by
  refine ⟨h, h1, by simp [weightedSum], ?_⟩
  intro k hk
  unfold weightedSum
  rw [List.getD_eq_getElem?_getD, List.getElem?_map, List.getElem?_range hk]
  rfl

theorem lleEmbed_spec {solve : List Row → Row → Option Row} {d m : Nat} {T A : List Row} {z : Row} {idx : List Nat}
    (hsol : SolveOK solve) (hT : ∀ r ∈ T, r.length = m) (hz : z.length = m) (hne : idx ≠ [])
    (h1 : ∀ i ∈ idx, i < T.length) (h2 : T.length = A.length) :
    ∃ x, lleEmbed solve d T A z idx = .ok x ∧ EmbeddedBack d m T A z idx x ∧
      (SolveSingular solve → m < idx.length → PlainMean d A idx x) := by
  obtain ⟨w, w1, w2, w3, w4, w5⟩ := lleWeights_spec (m := m) (S := idx.map (fun i => T.getD i [])) (z := z) hsol (by
    intro r hr
    obtain ⟨i, hi, rfl⟩ := List.mem_map.1 hr
    rw [List.getD_eq_getElem?_getD, List.getElem?_eq_getElem (h1 i hi)]
    exact hT _ (List.getElem_mem _)) hz (by simpa using hne)
  rw [List.length_map] at w2 w4 w5
  have haff := weightedSum_affine (d := d) (w := w) (R := idx.map (fun i => A.getD i [])) (by rw [w2, List.length_map]) w3
  refine ⟨weightedSum d w (idx.map (fun i => A.getD i [])), ?_, ⟨w, haff, w4⟩, fun hs hlt => ⟨w, haff, w5 hs hlt⟩⟩
  unfold lleEmbed
  rw [takeRows_map_getD [] h1, ok_bind, w1, ok_bind, takeRows_map_getD [] (fun i hi => by have := h1 i hi; omega), ok_bind]
  rfl

/-- **LLE_SMOTE**: exactly the requested number of minority rows is appended. There is one point of the embedding for each, in a
simplex of a minority row and its neighbours there, and the row is an affine combination of the minority rows nearest to that point
in the embedding, with equal weights or with the best weights of sum one, which may be negative. With more neighbours than components
(as by default) the weights are always equal. -/
theorem C69_lle {par : NbParams} {nComp : Nat} {lle : Nat → Nat → List Row → List Row} {solve : List Row → Row → Option Row}
    {vol : List Row → ℚ} {dr : Draws} {d : Nat} {knn : Nat → List Row → List Row → List (List Nat)}
    {X : List Row} {y : List Int} {a b : Int} (hwf : WF d X y) (hk : KnnQueryOK knn) (hlle : LleOK lle) (hsol : SolveOK solve)
    (hdr : dr.OK) (hu : ∀ i j, 0 < dr.simplexU i j) (hmin : IsMinority y a b)
    (hg : par.ss.gaussian = .none) (hvol : ∀ vs, 0 ≤ vol vs) (hd : 1 ≤ par.ss.nDim)
    (hwi : par.ss.within = .random ∨ (par.ss.within = .deterministic ∧ par.ss.nDim ≤ 2))
    (hmode : par.ss.simplexSampling = .random ∨ par.ss.simplexSampling = .deterministic ∨
      (par.ss.simplexSampling = .volume ∧ ∀ vs, 0 < vol vs))
    (h3 : 2 < y.count a) (hn : 0 < requested par.proportion (y.count b) (y.count a)) :
    let A := classRows X y a
    let m := min nComp d
    let T := lle (min par.nNeighbors (y.count a - 1)) m A
    let k := min (par.nNeighbors + 1) (y.count a)
    let n := requested par.proportion (y.count b) (y.count a)
    ∃ (raw new : List Row),
      sample defaultChecks d (lleAlg par nComp lle solve vol dr d knn) X y = .ok (X ++ new, y ++ List.replicate n a) ∧
      raw.length = n ∧ (∀ z ∈ raw, SimplexOf m (min par.ss.nDim k) T T (knn k T T) (fun _ => True) z) ∧
      List.Forall₂ (fun p x => EmbeddedBack d m T A p.1 p.2 x ∧ p.2.length = k ∧
        (SolveSingular solve → m < k → PlainMean d A p.2 x)) (raw.zip (knn k T raw)) new ∧ new.length = n := by
  obtain ⟨s, hs, rfl, rfl⟩ := stats_of_isMinority hmin
  obtain ⟨hm, hM, hab⟩ := stats_min_mem hs
  intro A m T k n
  have hAl : A.length = y.count s.minLabel := classRows_length hwf.1 _
  obtain ⟨t1, t2⟩ := hlle (min par.nNeighbors (y.count s.minLabel - 1)) m A
  have hTl : T.length = y.count s.minLabel := by rw [← hAl]; exact t1
  have hkT : k ≤ T.length := by rw [hTl]; exact min_le_right _ _
  have hk1 : 1 ≤ k := by show 1 ≤ min _ _; omega
  obtain ⟨k1, k2⟩ := hk k T T hkT
  obtain ⟨raw, hraw⟩ := sampleSimplex_ok (ss := par.ss) (vol := vol) (dr := dr) (d := m) (X := T) (indices := knn k T T)
    (k := k) (n := n) (a := {}) k2 k1.le (by intro h0; rw [h0, List.length_nil] at k1; omega) hk1 hd rfl
    (by intro ws hws; cases hws) (by intro hV; cases hV) hmode hdr.choice hu (by
      rcases hwi with h | ⟨h, h'⟩
      · exact .inl h
      · exact .inr ⟨h, le_trans (min_le_left _ _) h'⟩)
  obtain ⟨s1, s2⟩ := sampleSimplex_simplexOf t2 (by intro V hV; cases hV) rfl (by intro hV; cases hV) hdr k1.le hg
    (by intro w hw; cases hw) rfl hvol hraw
  obtain ⟨q1, q2⟩ := hk k T raw hkT
  have hspec : ∀ p ∈ raw.zip (knn k T raw), ∃ x, lleEmbed solve d T A p.1 p.2 = .ok x ∧ (EmbeddedBack d m T A p.1 p.2 x ∧
      p.2.length = k ∧ (SolveSingular solve → m < k → PlainMean d A p.2 x)) := by
    intro p hp
    obtain ⟨hp1, hp2⟩ := List.of_mem_zip hp
    obtain ⟨l1, l2⟩ := q2 _ hp2
    obtain ⟨_, _, _, _, _, _, _, _, _, _, _, _, _, _, _, hzl, _⟩ := s2 _ hp1
    obtain ⟨x, x1, x2, x3⟩ := lleEmbed_spec (d := d) (A := A) hsol t2 hzl
      (by intro h0; rw [h0, List.length_nil] at l1; omega) l2 (by rw [hTl, hAl])
    exact ⟨x, x1, x2, l1, by rw [l1] at x3; exact x3⟩
  obtain ⟨new, hnew⟩ := mapM_exists_ok (f := fun p : Row × List Nat => lleEmbed solve d T A p.1 p.2)
    (fun p hp => (hspec p hp).imp (fun _ h => h.1))
  have hf := mapM_ok_iff.1 hnew
  have hnl : new.length = n := by
    rw [← hf.length_eq, List.length_zip, q1, s1, min_self]
  refine ⟨raw, new, ?_, s1, ?_, ?_, hnl⟩
  · rw [sample_default hs, if_neg (by omega)]
    unfold lleAlg
    rw [stats_count hs hm, stats_count hs hM, detN_eq_requested, ok_bind, if_neg (by omega)]
    simp only [selectLabel_eq_classRows]
    rw [show (classRows X y s.minLabel).length = y.count s.minLabel from hAl]
    have hkk : min (par.nNeighbors + 1) (lle (min par.nNeighbors (y.count s.minLabel - 1)) (min nComp d)
        (classRows X y s.minLabel)).length = k := by
      rw [show (lle (min par.nNeighbors (y.count s.minLabel - 1)) (min nComp d) (classRows X y s.minLabel)).length =
        y.count s.minLabel from hTl]
    rw [hkk]
    change (do
      let raw ← sampleSimplex par.ss vol dr m T (knn k T T) k n {}
      let samples ← (raw.zip (knn k T raw)).mapM (fun p : Row × List Nat => lleEmbed solve d T A p.1 p.2)
      if samples.length = 0 then throw PyErr.valueError
      return withSamples X y s.minLabel samples) = _
    rw [hraw, ok_bind, hnew, ok_bind, if_neg (by omega)]
    show Except.ok (withSamples X y s.minLabel new) = _
    unfold withSamples
    rw [hnl]
  · intro z hz
    obtain ⟨b, base, row, nbIdx, nbrs, w, g1, _, g⟩ := s2 z hz
    exact ⟨b, base, row, nbIdx, nbrs, w, g1, trivial, g⟩
  · have := List.forall₂_and_left (p := fun p => p ∈ raw.zip (knn k T raw)) _ _ |>.2 ⟨fun p hp => hp, hf⟩
    refine this.imp ?_
    rintro p x ⟨hp, hx⟩
    obtain ⟨x', e, hx'⟩ := hspec p hp
    rw [hx] at e
    injection e with e
    subst e
    exact hx'

/-- **LLE_SMOTE with more neighbours than components**, as with the default parameters: every new row is the plain mean of `k` minority
rows, wherever the point of the embedding lies among them. -/
theorem C69_default {par : NbParams} {nComp : Nat} {lle : Nat → Nat → List Row → List Row} {solve : List Row → Row → Option Row}
    {vol : List Row → ℚ} {dr : Draws} {d : Nat} {knn : Nat → List Row → List Row → List (List Nat)}
    {X : List Row} {y : List Int} {a b : Int} (hwf : WF d X y) (hk : KnnQueryOK knn) (hlle : LleOK lle) (hsol : SolveOK solve)
    (hsing : SolveSingular solve)
    (hdr : dr.OK) (hu : ∀ i j, 0 < dr.simplexU i j) (hmin : IsMinority y a b)
    (hg : par.ss.gaussian = .none) (hvol : ∀ vs, 0 ≤ vol vs) (hd : 1 ≤ par.ss.nDim)
    (hwi : par.ss.within = .random ∨ (par.ss.within = .deterministic ∧ par.ss.nDim ≤ 2))
    (hmode : par.ss.simplexSampling = .random ∨ par.ss.simplexSampling = .deterministic ∨
      (par.ss.simplexSampling = .volume ∧ ∀ vs, 0 < vol vs))
    (h3 : 2 < y.count a) (hn : 0 < requested par.proportion (y.count b) (y.count a))
    (hmk : nComp < min (par.nNeighbors + 1) (y.count a)) :
    ∃ X' y', sample defaultChecks d (lleAlg par nComp lle solve vol dr d knn) X y = .ok (X', y') ∧
      OversampledBy X y a (requested par.proportion (y.count b) (y.count a)) (fun x => ∃ idx : List Nat,
        idx.length = min (par.nNeighbors + 1) (y.count a) ∧ PlainMean d (classRows X y a) idx x) X' y' := by
  obtain ⟨raw, new, r1, _, _, r4, r5⟩ := C69_lle (nComp := nComp) hwf hk hlle hsol hdr hu hmin hg hvol hd hwi hmode h3 hn
  refine ⟨_, _, r1, new, rfl, rfl, r5, ?_⟩
  intro x hx
  obtain ⟨p, _, _, hp2, hp3⟩ := forall₂_mem_right r4 hx
  exact ⟨p.2, hp2, hp3 hsing (lt_of_le_of_lt (min_le_left _ _) hmk)⟩

/-! ## Outside the convex hull -/

def llX : List Row := [[0, 0], [10, 0], [21 / 2, 3], [50, 50], [51, 50], [50, 51], [52, 50]]
def llY : List Int := [1, 1, 1, 0, 0, 0, 0]

/-- The `k` nearest rows by Euclidean distance. -/
def llKnn (k : Nat) (X Q : List Row) : List (List Nat) :=
  Q.map (fun q => ((List.range X.length).insertionSort (fun i j =>
    dotRow (Row.sub (X.getD i []) q) (Row.sub (X.getD i []) q) ≤ dotRow (Row.sub (X.getD j []) q) (Row.sub (X.getD j []) q))).take k)

/-- Cramer's rule for two equations. -/
def cramer : List Row → Row → Option Row
  | [[p, q], [r, s]], [e, f] =>
    if p * s - q * r = 0 then none else some [(e * s - q * f) / (p * s - q * r), (p * f - e * r) / (p * s - q * r)]
  | _, _ => none

def llPar : NbParams := { exPar with nNeighbors := 1 }

def llDraws : Draws := { choiceU := fun _ => 0, simplexU := fun _ j => if j = 0 then 1 else 9, normalU := fun _ _ => 0 }

/-- **A new row outside the convex hull of the minority class**, with one neighbour and two components, the data being its own
embedding: a coordinate of the new row is below that coordinate of every minority row. -/
theorem C69_outside : ∃ x, sample defaultChecks 2 (lleAlg llPar 2 (fun _ m rows => rows.map (fun r => (List.range m).map (r.getD · 0)))
    cramer (fun _ => 1) llDraws 2 llKnn) llX llY = .ok (llX ++ [x], llY ++ [1]) ∧ x.getD 1 0 < 0 ∧
      ∀ r ∈ classRows llX llY 1, 0 ≤ r.getD 1 0 := by
  refine ⟨[369 / 37, -6 / 37], by decide +kernel, by decide +kernel, by decide +kernel⟩

theorem cramer_ok : SolveOK cramer := by
  intro C b w h
  unfold cramer at h
  split at h
  · split at h
    · cases h
    · rename_i hdet
      injection h with h
      subst h
      refine ⟨rfl, ?_⟩
      simp only [List.map_cons, List.map_nil, dotRow, List.zipWith_cons_cons, List.zipWith_nil_right, List.sum_cons, List.sum_nil]
      congr 1
      · rw [add_zero, ← mul_div_assoc, ← mul_div_assoc, ← add_div, div_eq_iff hdet]; ring
      · congr 1
        rw [add_zero, ← mul_div_assoc, ← mul_div_assoc, ← add_div, div_eq_iff hdet]; ring
  · cases h

theorem cramer_singular : SolveSingular cramer := by
  intro C b u hu ⟨x, hx, hx0⟩ hz
  unfold cramer
  split
  · rename_i p q r s e f
    rw [if_pos]
    obtain ⟨u0, u1, rfl⟩ : ∃ u0 u1, u = [u0, u1] := List.length_eq_two.1 (by simpa using hu)
    have h1 := hz [p, q] (by simp)
    have h2 := hz [r, s] (by simp)
    simp only [dotRow, List.zipWith_cons_cons, List.zipWith_nil_right, List.sum_cons, List.sum_nil, add_zero] at h1 h2
    by_cases h0 : u0 = 0
    · have hu1 : u1 ≠ 0 := by
        rintro rfl
        simp only [List.mem_cons, List.not_mem_nil, or_false] at hx
        rcases hx with rfl | rfl
        · exact hx0 h0
        · exact hx0 rfl
      have : (p * s - q * r) * u1 = 0 := by linear_combination p * h2 - r * h1
      exact (mul_eq_zero.1 this).resolve_right hu1
    · have : (p * s - q * r) * u0 = 0 := by linear_combination s * h1 - q * h2
      exact (mul_eq_zero.1 this).resolve_right h0
  · rfl

theorem llKnn_ok : KnnQueryOK llKnn := by
  intro k X Q hk
  refine ⟨by simp [llKnn], ?_⟩
  intro row hrow
  obtain ⟨q, _, rfl⟩ := List.mem_map.1 hrow
  refine ⟨by simpa using hk, ?_⟩
  intro v hv
  have := List.mem_of_mem_take hv
  rw [List.mem_insertionSort, List.mem_range] at this
  exact this

example : WF 2 llX llY ∧ IsMinority llY 1 0 ∧ KnnQueryOK llKnn ∧
    LleOK (fun _ m rows => rows.map (fun r => (List.range m).map (r.getD · 0))) ∧ SolveOK cramer ∧ SolveSingular cramer ∧
    exDraws.OK ∧ (∀ i j, 0 < exDraws.simplexU i j) ∧
    llPar.ss.gaussian = .none ∧ llPar.ss.within = .random ∧ llPar.ss.simplexSampling = .random ∧
    2 < llY.count 1 ∧ 0 < requested llPar.proportion (llY.count 0) (llY.count 1) ∧
    1 < min (llPar.nNeighbors + 1) (llY.count 1) := by
  refine ⟨⟨by decide, by decide +kernel⟩, ⟨by decide, by decide, by decide, Or.inl (by decide)⟩, llKnn_ok,
    fun k m rows => ⟨by simp, ?_⟩, cramer_ok, cramer_singular, exDraws_ok,
    by intro i j; simp only [exDraws]; positivity, rfl, rfl, rfl, by decide, by decide +kernel, by decide⟩
  intro r hr
  obtain ⟨r', _, rfl⟩ := List.mem_map.1 hr
  simp

end Verif

import Verif.Model.SmoteD
import Verif.Lemmas.Interp
import Verif.Spec.Neighbors
import Verif.Props.C09

/-!
# C36: the number of samples of SMOTE_D

Expected counts are not integers; the loop rounds each of them up or down.
-/

namespace Verif

/-! ## Specification -/

/-- `x` is a point of the open segment between `p` and `q`. -/
def OpenSegment (d : Nat) (p q x : Row) : Prop :=
  x.length = d ∧ ∃ t : ℚ, 0 < t ∧ t < 1 ∧ ∀ k, k < d → x.getD k 0 = (1 - t) * p.getD k 0 + t * q.getD k 0

/-- Distances come with one list of `k` non-negative numbers per row. -/
def KnnDistOK (knnDist : Nat → List Row → List (List ℚ)) : Prop :=
  ∀ k rows, k ≤ rows.length → (knnDist k rows).length = rows.length ∧
    ∀ r ∈ knnDist k rows, r.length = k ∧ ∀ x ∈ r, 0 ≤ x

/-! ## Helpers -/

theorem pairSamples_spec (base nb : Row) (u : Nat → ℚ) (hu : ∀ k, 0 ≤ u k ∧ u k < 1) :
    ∀ fuel k c, -1 < c → ⌈c⌉.toNat < fuel → ∃ rows, pairSamples base nb u fuel k c = some rows ∧
      ⌊c⌋ ≤ (rows.length : ℤ) ∧ (rows.length : ℤ) ≤ ⌈c⌉ ∧
      ∀ x ∈ rows, ∃ t : ℚ, 0 < t ∧ t < 1 ∧ x = mixRow base nb (fun _ => t) := by
  intro fuel
  induction fuel with
  | zero => intro k c _ h; omega
  | succ f ih =>
    intro k c hc hf
    rw [pairSamples]
    by_cases hpos : 0 < c
    · rw [if_pos hpos]
      have hceil : ⌈c - 1⌉ = ⌈c⌉ - 1 := by rw [Int.ceil_sub_one]
      have hfloor : ⌊c - 1⌋ = ⌊c⌋ - 1 := by rw [Int.floor_sub_one]
      have hcp : 0 < ⌈c⌉ := Int.ceil_pos.2 hpos
      obtain ⟨rows, hr, h1, h2, h3⟩ := ih (k + 1) (c - 1) (by linarith) (by rw [hceil]; omega)
      rw [hr, Option.map_some]
      rw [hfloor] at h1
      rw [hceil] at h2
      by_cases hs : u k < c
      · rw [if_pos hs]
        refine ⟨_, rfl, ?_, ?_, ?_⟩
        · push_cast [List.length_cons]; omega
        · push_cast [List.length_cons]; omega
        · intro x hx
          rcases List.mem_cons.1 hx with rfl | hx
          · refine ⟨1 / (c + 1), by positivity, ?_, rfl⟩
            rw [div_lt_one (by linarith)]; linarith
          · exact h3 x hx
      · rw [if_neg hs]
        refine ⟨_, rfl, ?_, by omega, h3⟩
        have : ⌊c⌋ < 1 := Int.floor_lt.2 (by have := (hu k).2; push Not at hs; push_cast; linarith)
        omega
    · rw [if_neg hpos]
      push Not at hpos
      refine ⟨[], rfl, ?_, ?_, by simp⟩
      · have : ⌊c⌋ ≤ 0 := by
          have h := Int.floor_le c
          have : (⌊c⌋ : ℚ) ≤ 0 := h.trans hpos
          exact_mod_cast this
        simpa using this
      · have : -1 < ⌈c⌉ := Int.lt_ceil.2 (by push_cast; linarith)
        simp; omega

theorem openSegment_mix {d : Nat} {p q : Row} {t : ℚ} (hp : p.length = d) (hq : q.length = d) (h0 : 0 < t) (h1 : t < 1) :
    OpenSegment d p q (mixRow p q (fun _ => t)) := by
  refine ⟨mixRow_length hp hq, t, h0, h1, ?_⟩
  intro k hk
  rw [mixRow_getD hp hq hk]
  ring

/-- For each pair the loop ends and emits the count rounded down or up, all rows inside the segment. -/
theorem C36_pair (d : Nat) (base nb : Row) (hb : base.length = d) (hn : nb.length = d) (u : Nat → ℚ)
    (hu : ∀ k, 0 ≤ u k ∧ u k < 1) (c : ℚ) (hc : 0 ≤ c) (fuel : Nat) (hf : ⌈c⌉.toNat < fuel) :
    ∃ rows, pairSamples base nb u fuel 0 c = some rows ∧ ⌊c⌋ ≤ (rows.length : ℤ) ∧ (rows.length : ℤ) ≤ ⌈c⌉ ∧
      ∀ x ∈ rows, OpenSegment d base nb x := by
  obtain ⟨rows, h1, h2, h3, h4⟩ := pairSamples_spec base nb u hu fuel 0 c (by linarith) hf
  refine ⟨rows, h1, h2, h3, ?_⟩
  intro x hx
  obtain ⟨t, ht0, ht1, rfl⟩ := h4 x hx
  exact openSegment_mix hb hn ht0 ht1

/-- Both roundings occur. -/
example : pairSamples [0] [1] (fun _ => 1/4) 4 0 (5/2) = some [[2/7], [2/5], [2/3]] ∧
    pairSamples [0] [1] (fun _ => 3/4) 4 0 (5/2) = some [[2/7], [2/5]] := by decide +kernel

theorem sum_bounds {α : Type} {l : List α} {f : α → Res (List Row)} {parts : List (List Row)} {lo hi : α → ℚ}
    (h : l.mapM f = .ok parts) (hb : ∀ a ∈ l, ∀ b, f a = .ok b → lo a ≤ (b.length : ℚ) ∧ (b.length : ℚ) ≤ hi a) :
    (l.map lo).sum ≤ (parts.flatten.length : ℚ) ∧ (parts.flatten.length : ℚ) ≤ (l.map hi).sum := by
  rw [mapM_ok_iff] at h
  induction h with
  | nil => simp
  | @cons a b l parts hab _ ih =>
    have h1 := hb a (by simp) b hab
    have h2 := ih (fun a ha b hb' => hb a (by simp [ha]) b hb')
    simp only [List.map_cons, List.sum_cons, List.flatten_cons, List.length_append, Nat.cast_add]
    constructor <;> linarith [h1.1, h1.2, h2.1, h2.2]

theorem range_getD_sum (l : List ℚ) : ((List.range l.length).map (fun j => l.getD j 0)).sum = l.sum := by
  congr 1
  apply List.ext_getElem (by simp)
  intro i h1 h2
  simp [List.getD_eq_getElem?_getD, h2]

theorem sum_map_sub_one (l : List Nat) (f : Nat → ℚ) : (l.map (fun j => f j - 1)).sum = (l.map f).sum - l.length := by
  induction l with
  | nil => simp
  | cons a l ih => simp only [List.map_cons, List.sum_cons, ih, List.length_cons]; push_cast; ring

theorem sum_map_add_one (l : List Nat) (f : Nat → ℚ) : (l.map (fun j => f j + 1)).sum = (l.map f).sum + l.length := by
  induction l with
  | nil => simp
  | cons a l ih => simp only [List.map_cons, List.sum_cons, ih, List.length_cons]; push_cast; ring

theorem sum_map_scaled (l : List ℚ) (c : ℚ) : (l.map (fun q => c * q)).sum = c * l.sum := by
  induction l with
  | nil => simp
  | cons a l ih => simp only [List.map_cons, List.sum_cons, ih]; ring

/-- The table of expected counts: non-negative entries that sum to the requested number. -/
theorem smoteDCounts_spec {std : List ℚ → XF} {n k : Nat} {dist : List (List ℚ)} (hk : 2 ≤ k) (hne : dist ≠ [])
    (hstd : ∀ l q, std l = .fin q → 0 ≤ q) (hd : ∀ r ∈ dist, r.length = k ∧ ∀ x ∈ r, 0 ≤ x) :
    (smoteDCounts std n dist).length = dist.length ∧
    (∀ r ∈ smoteDCounts std n dist, r.length = k - 1 ∧ ∀ x ∈ r, 0 ≤ x) ∧
    ((smoteDCounts std n dist).map List.sum).sum = n := by
  obtain ⟨hl, hnn, hsum⟩ := C09_distribution (l := dist.map (fun r => std (r.drop 1))) (by simpa using hne) (by
    intro q hq
    rw [List.mem_map] at hq
    obtain ⟨r, _, hr⟩ := hq
    exact hstd _ q hr)
  rw [List.length_map] at hl
  have hrow : ∀ r ∈ dist, (fixDensity ((r.drop 1).map XF.fin)).length = k - 1 ∧
      (∀ x ∈ fixDensity ((r.drop 1).map XF.fin), 0 ≤ x) ∧ (fixDensity ((r.drop 1).map XF.fin)).sum = 1 := by
    intro r hr
    obtain ⟨hrl, hr0⟩ := hd r hr
    have hdl : (r.drop 1).length = k - 1 := by rw [List.length_drop, hrl]
    obtain ⟨a, b, c⟩ := C09_distribution (l := (r.drop 1).map XF.fin)
      (by intro h; have := congrArg List.length h; rw [List.length_map, hdl] at this; simp at this; omega)
      (by
        intro q hq
        rw [List.mem_map] at hq
        obtain ⟨x, hx, e⟩ := hq
        injection e with e
        rw [← e]
        exact hr0 x (List.mem_of_mem_drop hx))
    exact ⟨by rw [a, List.length_map, hdl], b, c⟩
  unfold smoteDCounts
  generalize fixDensity (dist.map (fun r => std (r.drop 1))) = P at *
  refine ⟨by simp [hl], ?_, ?_⟩
  · intro r hr
    rw [List.mem_iff_getElem] at hr
    obtain ⟨i, hi, rfl⟩ := hr
    rw [List.getElem_zipWith]
    have hi1 : i < P.length := by simp at hi; omega
    have hi2 : i < dist.length := by omega
    obtain ⟨a, b, _⟩ := hrow dist[i] (List.getElem_mem hi2)
    refine ⟨by simp only [List.getElem_map, List.length_map]; exact a, ?_⟩
    intro x hx
    rw [List.mem_map] at hx
    obtain ⟨q, hq, rfl⟩ := hx
    rw [List.getElem_map] at hq
    have h1 := b q hq
    have h2 := hnn P[i] (List.getElem_mem hi1)
    positivity
  · have hgen : ∀ (P : List ℚ) (dist : List (List ℚ)), P.length = dist.length →
        (∀ r ∈ dist, (fixDensity ((r.drop 1).map XF.fin)).sum = 1) →
        ((List.zipWith (fun p row => row.map (fun q => (n : ℚ) * p * q)) P
          (dist.map (fun r => fixDensity ((r.drop 1).map XF.fin)))).map List.sum).sum = n * P.sum := by
      intro P
      induction P with
      | nil => intro dist _ _; simp
      | cons p P ih =>
        intro dist hl hs
        cases dist with
        | nil => simp at hl
        | cons r dist =>
          simp only [List.map_cons, List.zipWith_cons_cons, List.sum_cons]
          rw [ih dist (by simpa using hl) (fun r hr => hs r (by simp [hr])), sum_map_scaled,
            hs r (by simp)]
          ring
    rw [hgen P dist hl (fun r hr => (hrow r hr).2.2), hsum, mul_one]

theorem smoteDPair_spec {d k : Nat} {Xmin : List Row} {base : Row} {nbs : List Nat} {cs : List ℚ} {u : Nat → Nat → ℚ}
    (hX : ∀ r ∈ Xmin, r.length = d) (hbase : base.length = d) (hu : ∀ j k, 0 ≤ u j k ∧ u j k < 1)
    (hnl : nbs.length = k) (hnb : ∀ i ∈ nbs, i < Xmin.length) (hcl : cs.length = k - 1) (hc : ∀ c ∈ cs, 0 ≤ c)
    {j : Nat} (hj : j < k - 1) :
    ∃ rows, smoteDPair Xmin base nbs cs u j = .ok rows ∧ ⌊cs.getD j 0⌋ ≤ (rows.length : ℤ) ∧
      (rows.length : ℤ) ≤ ⌈cs.getD j 0⌉ ∧ ∀ x ∈ rows, ∃ q ∈ Xmin, OpenSegment d base q x := by
  unfold smoteDPair
  rw [getRow_lt (by omega), ok_bind, getRow_lt (by omega), ok_bind,
    getRow_lt (hnb _ (List.getElem_mem _)), ok_bind]
  have hnbl : nbs[j + 1] < Xmin.length := hnb _ (List.getElem_mem _)
  obtain ⟨rows, h1, h2, h3, h4⟩ := C36_pair d base Xmin[nbs[j + 1]] hbase (hX _ (List.getElem_mem _)) (u j) (hu j)
    (cs[j]'(by omega)) (hc _ (List.getElem_mem _)) (⌈cs[j]'(by omega)⌉.toNat + 1) (by omega)
  rw [h1]
  have : cs.getD j 0 = cs[j]'(by omega) := by
    rw [List.getD_eq_getElem?_getD, List.getElem?_eq_getElem (by omega)]; rfl
  rw [this]
  exact ⟨rows, rfl, h2, h3, fun x hx => ⟨_, List.getElem_mem hnbl, h4 x hx⟩⟩

theorem smoteDBase_spec {d k : Nat} {Xmin : List Row} {ind : List (List Nat)} {counts : List (List ℚ)}
    {u : Nat → Nat → Nat → ℚ} (hX : ∀ r ∈ Xmin, r.length = d) (hu : ∀ i j k, 0 ≤ u i j k ∧ u i j k < 1)
    (hil : ind.length = Xmin.length) (hind : TableOK ind k Xmin.length) (hcl : counts.length = Xmin.length)
    (hc : ∀ r ∈ counts, r.length = k - 1 ∧ ∀ x ∈ r, 0 ≤ x) {i : Nat} (hi : i < Xmin.length) :
    ∃ rows, smoteDBase Xmin ind k counts u i = .ok rows ∧
      (counts.getD i []).sum - ((k - 1 : Nat) : ℚ) ≤ (rows.length : ℚ) ∧
      (rows.length : ℚ) ≤ (counts.getD i []).sum + ((k - 1 : Nat) : ℚ) ∧
      ∀ x ∈ rows, ∃ p ∈ Xmin, ∃ q ∈ Xmin, OpenSegment d p q x := by
  unfold smoteDBase
  rw [getRow_lt hi, ok_bind, getRow_lt (by omega), ok_bind, getRow_lt (by omega), ok_bind]
  obtain ⟨hnl, hnb⟩ := hind (ind[i]'(by omega)) (List.getElem_mem _)
  obtain ⟨hrl, hr0⟩ := hc (counts[i]'(by omega)) (List.getElem_mem _)
  have hg : counts.getD i [] = counts[i]'(by omega) := by
    rw [List.getD_eq_getElem?_getD, List.getElem?_eq_getElem (by omega)]; rfl
  rw [hg]
  set cs := counts[i]'(by omega) with hcs
  have hpair := fun j (hj : j < k - 1) =>
    smoteDPair_spec (u := u i) hX (hX _ (List.getElem_mem hi)) (hu i) hnl hnb hrl hr0 hj
  obtain ⟨parts, hparts⟩ := mapM_exists_ok (l := List.range (k - 1)) (f := smoteDPair Xmin Xmin[i] (ind[i]'(by omega)) cs (u i))
    (fun j hj => (hpair j (List.mem_range.1 hj)).imp (fun _ h => h.1))
  rw [hparts, ok_bind]
  have hb := sum_bounds (lo := fun j => cs.getD j 0 - 1) (hi := fun j => cs.getD j 0 + 1) hparts (by
    intro j hj b hb
    obtain ⟨rows, h1, h2, h3, _⟩ := hpair j (List.mem_range.1 hj)
    rw [h1] at hb
    injection hb with hb
    subst hb
    have e2 : ((⌊cs.getD j 0⌋ : ℤ) : ℚ) ≤ ((rows.length : ℤ) : ℚ) := by exact_mod_cast h2
    have e3 : ((rows.length : ℤ) : ℚ) ≤ ((⌈cs.getD j 0⌉ : ℤ) : ℚ) := by exact_mod_cast h3
    have e4 := Int.lt_floor_add_one (cs.getD j 0)
    have e5 := Int.ceil_lt_add_one (cs.getD j 0)
    push_cast at e2 e3
    constructor <;> linarith)
  rw [sum_map_sub_one, sum_map_add_one, ← hrl, range_getD_sum, List.length_range] at hb
  refine ⟨parts.flatten, rfl, by rw [← hrl]; exact hb.1, by rw [← hrl]; exact hb.2, ?_⟩
  intro x hx
  obtain ⟨part, hpart, hx⟩ := List.mem_flatten.1 hx
  obtain ⟨j, hj, e⟩ := mapM_ok_mem hparts hpart
  obtain ⟨rows, h1, _, _, h4⟩ := hpair j (List.mem_range.1 hj)
  rw [h1] at e
  injection e with e
  subst e
  obtain ⟨q, hq, h⟩ := h4 x hx
  exact ⟨_, List.getElem_mem hi, q, hq, h⟩

theorem sum_map_sub_const (l : List Nat) (f : Nat → ℚ) (c : ℚ) :
    (l.map (fun j => f j - c)).sum = (l.map f).sum - l.length * c := by
  induction l with
  | nil => simp
  | cons a l ih => simp only [List.map_cons, List.sum_cons, ih, List.length_cons]; push_cast; ring

theorem sum_map_add_const (l : List Nat) (f : Nat → ℚ) (c : ℚ) :
    (l.map (fun j => f j + c)).sum = (l.map f).sum + l.length * c := by
  induction l with
  | nil => simp
  | cons a l ih => simp only [List.map_cons, List.sum_cons, ih, List.length_cons]; push_cast; ring

/-- `SMOTE_D` always returns. It adds minority rows only, each strictly inside a segment between two minority rows; when it
samples at all, the number of new rows differs from the requested number by at most the number of pairs. -/
theorem C36_sample {d : Nat} {X : List Row} {y : List Int} {a b : Int} {proportion : ℚ} {k : Nat} {std : List ℚ → XF}
    {u : Nat → Nat → Nat → ℚ} {knn : Nat → List Row → List (List Nat)} {knnDist : Nat → List Row → List (List ℚ)}
    (hwf : WF d X y) (hmin : IsMinority y a b) (hk : 1 ≤ k) (hknn : KnnOK knn) (hkd : KnnDistOK knnDist)
    (hstd : ∀ l q, std l = .fin q → 0 ≤ q) (hu : ∀ i j k, 0 ≤ u i j k ∧ u i j k < 1) :
    ∃ new : List Row,
      sample defaultChecks d (smoteDAlg proportion k std u knn knnDist) X y =
        .ok (X ++ new, y ++ List.replicate new.length a) ∧
      (∀ x ∈ new, ∃ p ∈ classRows X y a, ∃ q ∈ classRows X y a, OpenSegment d p q x) ∧
      (if y.count a ≤ 2 ∨ requested proportion (y.count b) (y.count a) = 0 then new = []
       else |(new.length : ℚ) - requested proportion (y.count b) (y.count a)| ≤ y.count a * min (y.count a - 1 : Nat) k) := by
  obtain ⟨s, hs, rfl, rfl⟩ := stats_of_isMinority hmin
  obtain ⟨hm, hM, _⟩ := stats_min_mem hs
  rw [sample_default hs]
  by_cases h2 : y.count s.minLabel ≤ 2
  · rw [if_pos h2]
    refine ⟨[], by simp, by simp, ?_⟩
    rw [if_pos (Or.inl h2)]
  rw [if_neg h2]
  unfold smoteDAlg
  rw [stats_count hs hm, stats_count hs hM, detN_eq_requested, ok_bind]
  by_cases h0 : requested proportion (y.count s.majLabel) (y.count s.minLabel) = 0
  · rw [if_pos h0]
    refine ⟨[], by simp [pure, Except.pure], by simp, ?_⟩
    rw [if_pos (Or.inr h0)]
  rw [if_neg h0]
  dsimp only
  generalize requested proportion (y.count s.majLabel) (y.count s.minLabel) = n at h0
  have hXl : (selectLabel X y s.minLabel).length = y.count s.minLabel := selectLabel_length hwf.1 _
  have hXd : ∀ r ∈ selectLabel X y s.minLabel, r.length = d := fun r hr => mem_selectLabel_length hwf hr
  rw [← selectLabel_eq_classRows]
  rw [hXl]
  generalize hXm : selectLabel X y s.minLabel = Xmin at *
  set K := min (y.count s.minLabel) (k + 1) with hK
  obtain ⟨hil, hind⟩ := hknn K Xmin (by omega)
  obtain ⟨hdl, hdist⟩ := hkd K Xmin (by omega)
  obtain ⟨hcl, hc, hsum⟩ := smoteDCounts_spec (n := n) (k := K) (std := std) (dist := knnDist K Xmin) (by omega)
    (by intro h; rw [h] at hdl; simp at hdl; omega) hstd hdist
  generalize smoteDCounts std n (knnDist K Xmin) = counts at *
  rw [hdl] at hcl
  have hbase := fun i (hi : i < Xmin.length) => smoteDBase_spec (u := u) hXd hu hil hind hcl hc hi
  obtain ⟨parts, hparts⟩ := mapM_exists_ok (l := List.range Xmin.length) (f := smoteDBase Xmin (knn K Xmin) K counts u)
    (fun i hi => (hbase i (List.mem_range.1 hi)).imp (fun _ h => h.1))
  unfold smoteDSamples
  rw [hparts, ok_bind]
  refine ⟨parts.flatten, rfl, ?_, ?_⟩
  · intro x hx
    obtain ⟨part, hpart, hx⟩ := List.mem_flatten.1 hx
    obtain ⟨i, hi, e⟩ := mapM_ok_mem hparts hpart
    obtain ⟨rows, h1, _, _, h4⟩ := hbase i (List.mem_range.1 hi)
    rw [h1] at e
    injection e with e
    subst e
    exact h4 x hx
  · rw [if_neg (by push Not; exact ⟨by omega, h0⟩)]
    have hb := sum_bounds (lo := fun i => (counts.getD i []).sum - ((K - 1 : Nat) : ℚ))
      (hi := fun i => (counts.getD i []).sum + ((K - 1 : Nat) : ℚ)) hparts (by
        intro i hi b hb
        obtain ⟨rows, h1, h2, h3, _⟩ := hbase i (List.mem_range.1 hi)
        rw [h1] at hb
        injection hb with hb
        subst hb
        exact ⟨h2, h3⟩)
    have hcs : ((List.range Xmin.length).map (fun i => (counts.getD i []).sum)).sum = n := by
      rw [← hsum, ← hcl]
      congr 1
      apply List.ext_getElem (by simp)
      intro i h1 h2
      simp [List.getD_eq_getElem?_getD, List.getElem?_eq_getElem (l := counts) (i := i) (by simpa using h1)]
    rw [sum_map_sub_const, sum_map_add_const, hcs, List.length_range, hXl] at hb
    have hKm : K - 1 = min (y.count s.minLabel - 1) k := by omega
    rw [hKm] at hb
    push_cast at hb ⊢
    rw [abs_le]
    constructor <;> linarith [hb.1, hb.2]

/-- Distances of the brute force search (squared; the contract does not ask for more). -/
def bruteDist (k : Nat) (X : List Row) : List (List ℚ) :=
  X.map (fun x => (nearestTo X k x).map (fun i => sqDist x (X.getD i [])))

theorem sqDist_nonneg (a b : Row) : 0 ≤ sqDist a b := by
  unfold sqDist
  apply List.sum_nonneg
  intro x hx
  rw [List.mem_map] at hx
  obtain ⟨t, _, rfl⟩ := hx
  exact mul_self_nonneg t

theorem bruteDist_ok : KnnDistOK bruteDist := by
  intro k X hk
  refine ⟨by simp [bruteDist], ?_⟩
  intro r hr
  simp only [bruteDist, List.mem_map] at hr
  obtain ⟨x, hx, rfl⟩ := hr
  constructor
  · rw [List.length_map]
    exact ((bruteKnn_ok k X hk).2 (nearestTo X k x) (by unfold bruteKnn; exact List.mem_map_of_mem hx)).1
  · intro z hz
    rw [List.mem_map] at hz
    obtain ⟨i, _, rfl⟩ := hz
    exact sqDist_nonneg _ _

def sdX : List Row := [[0], [1], [3], [10], [11], [12], [13], [14]]
def sdY : List Int := [1, 1, 1, 0, 0, 0, 0, 0]

/-- Two samples are requested, the draws decide whether one or six are made. -/
example :
    ((sample defaultChecks 1 (smoteDAlg 1 2 (fun l => .fin (l.getD 1 0 - l.getD 0 0)) (fun _ _ _ => 1/2) bruteKnn bruteDist)
      sdX sdY).toOption.map (fun r => r.1.length - sdX.length)) = some 1 ∧
    ((sample defaultChecks 1 (smoteDAlg 1 2 (fun l => .fin (l.getD 1 0 - l.getD 0 0)) (fun _ _ _ => 0) bruteKnn bruteDist)
      sdX sdY).toOption.map (fun r => r.1.length - sdX.length)) = some 6 := by decide +kernel

example : WF 1 sdX sdY ∧ IsMinority sdY 1 0 := ⟨⟨by decide, by decide⟩, ⟨by decide, by decide, by decide, Or.inl (by decide)⟩⟩

end Verif

import Verif.Model.Dsmote
import Verif.Lemmas.Noise
import Verif.Props.C58
import Verif.Props.C63
import Verif.Props.C82
import Mathlib.Tactic.Linarith
import Mathlib.Tactic.Ring
import Mathlib.Tactic.FieldSimp

/-!
# C83: DSMOTE gives minority rows away

`C83_dsmote` says what is returned: the most abnormal minority rows come back with the majority label. `C83_too_few` says that it raises
when fewer than three minority rows are left, `C83_gap` that the classes are not balanced, `C83_objective` what the maintained objective
measures in place of the distances from the geometric mean.
-/

namespace Verif

/-! ## Specification -/

/-- Every coordinate of `x` lies between the least and the largest of the coordinates of `a`, `b` and `c`. -/
def Between3 (d : Nat) (a b c x : Row) : Prop :=
  x.length = d ∧ ∀ j, j < d → min (min (a.getD j 0) (b.getD j 0)) (c.getD j 0) ≤ x.getD j 0 ∧
    x.getD j 0 ≤ max (max (a.getD j 0) (b.getD j 0)) (c.getD j 0)

/-- The mean distance of `x` from the other rows of `A` over its mean distance from the rows of `B`. -/
def abnormalityOf (dist : Row → Row → ℚ) (A B : List Row) (x : Row) : ℚ :=
  ((A.map (dist x)).sum / ((A.length : ℚ) - 1)) / ((B.map (dist x)).sum / (B.length : ℚ))

/-- The contracts of the external functions. -/
structure DsFun.OK (fn : DsFun) : Prop where
  sqrt_nonneg : ∀ x, 0 ≤ fn.sqrt x
  sqrt_pos : ∀ x, 0 < x → 0 < fn.sqrt x
  gmean : ∀ a b c, 0 < a → 0 < b → 0 < c → min (min a b) c ≤ fn.gmean a b c ∧ fn.gmean a b c ≤ max (max a b) c

/-- Three different positions. -/
def PickThree (pick : Nat → Nat → Nat → Nat × Nat × Nat) : Prop :=
  ∀ t k n, 3 ≤ n → (pick t k n).1 < n ∧ (pick t k n).2.1 < n ∧ (pick t k n).2.2 < n ∧ (pick t k n).1 ≠ (pick t k n).2.1 ∧
    (pick t k n).1 ≠ (pick t k n).2.2 ∧ (pick t k n).2.1 ≠ (pick t k n).2.2

/-- Row `t` of `new` lies between three different rows of `rest` and of the first `t` rows of `new`. -/
def GrownFrom (d : Nat) (rest new : List Row) : Prop :=
  ∀ t, t < new.length → ∃ i j k, i < rest.length + t ∧ j < rest.length + t ∧ k < rest.length + t ∧ i ≠ j ∧ i ≠ k ∧ j ≠ k ∧
    Between3 d ((rest ++ new).getD i []) ((rest ++ new).getD j []) ((rest ++ new).getD k []) (new.getD t [])

/-- The mean of all entries. -/
def entriesMean (d : Nat) (X : List Row) : ℚ := (X.map List.sum).sum / (X.length * d)

/-- The variance of a list of numbers. -/
def varianceOf (l : List ℚ) : ℚ := (l.map (fun x => (x - l.sum / l.length) ^ 2)).sum / l.length

/-- The mean of the variances of the columns. -/
def columnVariance (d : Nat) (X : List Row) : ℚ := ((List.range d).map (fun j => varianceOf (X.map (fun r => r.getD j 0)))).sum / d

/-- What is maximised: the mean over all rows of `√(N - 2⟨x, g⟩ + |g|²)`, where `g` is the exponential of the mean logarithm and `N` the sum of
the squared norms of the original rows and of the norms (not squared) of the added ones, and Fisher's ratio. -/
def diversity (fn : DsFun) (d : Nat) (base added maj : List Row) : ℚ :=
  let all := base ++ added
  let g := (List.range d).map (fun j => fn.exp ((all.map (fun r => fn.log (r.getD j 0))).sum / all.length))
  let N := (base.map (fun r => dotRow r r)).sum + (added.map (fun r => fn.sqrt (dotRow r r))).sum
  (all.map (fun x => fn.sqrt (N - 2 * dotRow x g + dotRow g g))).sum / all.length +
    (entriesMean d all - entriesMean d maj) ^ 2 / (columnVariance d all + columnVariance d maj)

/-- The geometric mean of three rows. -/
def gmean3 (fn : DsFun) (d : Nat) (a b c : Row) : Row := (List.range d).map (fun j => fn.gmean (a.getD j 0) (b.getD j 0) (c.getD j 0))

/-- The row for the draws `i`: the geometric mean of the three rows drawn from `rest` and the first `t` rows of `new`. -/
def drawnMean (fn : DsFun) (d : Nat) (rest new : List Row) (t : Nat) (i : Nat × Nat × Nat) : Row :=
  gmean3 fn d ((rest ++ new.take t).getD i.1 []) ((rest ++ new.take t).getD i.2.1 []) ((rest ++ new.take t).getD i.2.2 [])

/-- Row `t` of `new` is, of the at most `nStep` geometric means drawn for it, the one with the highest diversity. -/
def ChosenBest (fn : DsFun) (d nStep : Nat) (pick : Nat → Nat → Nat → Nat × Nat × Nat) (rest maj new : List Row) : Prop :=
  ∀ t, t < new.length →
    let n := rest.length + t
    (∃ k, k < min (n * (n - 1) * (n - 2)) nStep ∧ new.getD t [] = drawnMean fn d rest new t (pick t k n)) ∧
    ∀ k, k < min (n * (n - 1) * (n - 2)) nStep →
      diversity fn d rest (new.take t ++ [drawnMean fn d rest new t (pick t k n)]) maj ≤ diversity fn d rest (new.take t ++ [new.getD t []]) maj

/-! ## The scaler -/

theorem getD_range_map {d j : Nat} (h : j < d) (f : Nat → ℚ) : ((List.range d).map f).getD j 0 = f j := getD_map_range h f 0

theorem dsScale_pos (X : List Row) (j : Nat) : 0 < dsScale X j := by
  unfold dsScale
  apply div_pos (by norm_num)
  split
  · exact one_pos
  · rename_i h
    by_cases hX : dsCol X j = []
    · rw [hX] at h; simp [maxL, minL] at h
    · have h1 := (minL_spec hX).2 _ (maxL_spec hX).1
      exact lt_of_le_of_ne (by linarith) (Ne.symm h)

theorem dsForward_length (d : Nat) (X : List Row) (r : Row) : (dsForward d X r).length = d := by simp [dsForward]
theorem dsBackward_length (d : Nat) (X : List Row) (r : Row) : (dsBackward d X r).length = d := by simp [dsBackward]

theorem dsBackward_forward {d : Nat} {X : List Row} {r : Row} (h : r.length = d) : dsBackward d X (dsForward d X r) = r := by
  apply row_ext (dsBackward_length d X _) h
  intro j hj
  unfold dsBackward dsForward
  rw [getD_range_map hj, getD_range_map hj]
  have := (dsScale_pos X j).ne'
  field_simp
  ring

theorem dsForward_pos {d : Nat} {X : List Row} {r : Row} (hr : r ∈ X) {j : Nat} (hj : j < d) : 0 < (dsForward d X r).getD j 0 := by
  unfold dsForward dsShift
  rw [getD_range_map hj]
  have hne : dsCol X j ≠ [] := by
    unfold dsCol; intro h; rw [List.map_eq_nil_iff] at h; rw [h] at hr; simp at hr
  have h1 : minL (dsCol X j) ≤ r.getD j 0 := (minL_spec hne).2 _ (List.mem_map.2 ⟨r, hr, rfl⟩)
  have h2 := mul_le_mul_of_nonneg_right h1 (dsScale_pos X j).le
  have : (0 : ℚ) < 1 / 1000000 := by norm_num
  linarith

theorem Between3.backward {d : Nat} {X : List Row} {a b c x : Row} (h : Between3 d a b c x) :
    Between3 d (dsBackward d X a) (dsBackward d X b) (dsBackward d X c) (dsBackward d X x) := by
  refine ⟨dsBackward_length d X x, fun j hj => ?_⟩
  obtain ⟨h1, h2⟩ := h.2 j hj
  unfold dsBackward
  simp only [getD_range_map hj]
  have hs := dsScale_pos X j
  obtain ⟨f, hf⟩ : ∃ f : ℚ → ℚ, f = fun v => (v - dsShift X j) / dsScale X j := ⟨_, rfl⟩
  have mono : Monotone f := by
    rw [hf]
    exact fun u v huv => div_le_div_of_nonneg_right (by linarith) hs.le
  have e1 := mono h1
  have e2 := mono h2
  rw [mono.map_min, mono.map_min] at e1
  rw [mono.map_max, mono.map_max] at e2
  rw [hf] at e1 e2
  exact ⟨e1, e2⟩

/-! ## The objective -/

theorem sum_sq_dev (l : List ℚ) (c : ℚ) : (l.map (fun x => (x - c) ^ 2)).sum = (l.map (fun x => x ^ 2)).sum - 2 * c * l.sum + l.length * c ^ 2 := by
  induction l with
  | nil => simp
  | cons x l ih => simp only [List.map_cons, List.sum_cons, ih, List.length_cons]; push_cast; ring

theorem var_nonneg {l : List ℚ} (h : l ≠ []) : 0 ≤ (l.map (fun x => x ^ 2)).sum / l.length - (l.sum / l.length) ^ 2 := by
  have hl : (0 : ℚ) < l.length := by exact_mod_cast List.length_pos_iff.2 h
  have h1 := sum_sq_dev l (l.sum / l.length)
  have h2 : 0 ≤ (l.map (fun x => (x - l.sum / l.length) ^ 2)).sum := by
    apply List.sum_nonneg
    intro z hz
    obtain ⟨x, _, rfl⟩ := List.mem_map.1 hz
    exact sq_nonneg _
  have e : (l.map (fun x => x ^ 2)).sum / l.length - (l.sum / l.length) ^ 2 =
      (l.map (fun x => (x - l.sum / l.length) ^ 2)).sum / l.length := by
    rw [h1]; field_simp; ring
  rw [e]
  exact div_nonneg h2 hl.le

theorem dsVar_pos {d : Nat} {X : List Row} {p q : Row} (hp : p ∈ X) (hq : q ∈ X) (hpl : p.length = d) (hql : q.length = d) (hpq : p ≠ q) :
    0 < dsVar d X := by
  obtain ⟨j, hj, hne⟩ : ∃ j, j < d ∧ p.getD j 0 ≠ q.getD j 0 := by
    by_contra h
    push Not at h
    exact hpq (row_ext hpl hql h)
  have hX : (0 : ℚ) < (X.length : ℚ) := by exact_mod_cast List.length_pos_of_mem hp
  unfold dsVar
  apply div_pos _ (by exact_mod_cast (by omega : 0 < d))
  have hnn : ∀ z ∈ (List.range d).map (fun j => ((dsCol X j).map (fun x => (x - (dsCol X j).sum / (X.length : ℚ)) ^ 2)).sum / (X.length : ℚ)), 0 ≤ z := by
    intro z hz
    obtain ⟨i, _, rfl⟩ := List.mem_map.1 hz
    apply div_nonneg _ hX.le
    apply List.sum_nonneg
    intro w hw
    obtain ⟨x, _, rfl⟩ := List.mem_map.1 hw
    exact sq_nonneg _
  refine lt_of_lt_of_le ?_ (List.single_le_sum hnn _ (List.mem_map.2 ⟨j, List.mem_range.2 hj, rfl⟩))
  apply div_pos _ hX
  set mu := (dsCol X j).sum / (X.length : ℚ)
  have hnn' : ∀ z ∈ (dsCol X j).map (fun x => (x - mu) ^ 2), 0 ≤ z := by
    intro w hw
    obtain ⟨x, _, rfl⟩ := List.mem_map.1 hw
    exact sq_nonneg _
  have hmem : ∀ r ∈ X, (r.getD j 0 - mu) ^ 2 ∈ (dsCol X j).map (fun x => (x - mu) ^ 2) := fun r hr =>
    List.mem_map.2 ⟨r.getD j 0, List.mem_map.2 ⟨r, hr, rfl⟩, rfl⟩
  by_cases h : p.getD j 0 = mu
  · refine lt_of_lt_of_le ?_ (List.single_le_sum hnn' _ (hmem q hq))
    have : q.getD j 0 - mu ≠ 0 := by rw [← h]; exact sub_ne_zero.2 (Ne.symm hne)
    positivity
  · refine lt_of_lt_of_le ?_ (List.single_le_sum hnn' _ (hmem p hp))
    have : p.getD j 0 - mu ≠ 0 := sub_ne_zero.2 h
    positivity

theorem dot_sub_sq : ∀ (x g : Row), x.length = g.length → 0 ≤ dotRow x x - 2 * dotRow x g + dotRow g g
  | [], [], _ => by simp [dotRow]
  | a :: x, b :: g, h => by
    have ih := dot_sub_sq x g (by simpa using h)
    unfold dotRow at ih ⊢
    simp only [List.zipWith_cons_cons, List.sum_cons]
    nlinarith [sq_nonneg (a - b)]
  | [], _ :: _, h => by simp at h
  | _ :: _, [], h => by simp at h

theorem dotRow_eq_sum {d : Nat} {x : Row} (h : x.length = d) : dotRow x x = ((List.range d).map (fun j => x.getD j 0 ^ 2)).sum := by
  subst h
  unfold dotRow
  congr 1
  apply List.ext_getElem
  · simp
  · intro i h1 h2
    have : i < x.length := by simpa using h2
    simp [List.getD_eq_getElem?_getD, this, pow_two]

/-- Positive rows dominated, column by column, by rows of `base`. -/
def Dominated (d : Nat) (base : List Row) (x : Row) : Prop :=
  x.length = d ∧ ∀ j, j < d → 0 < x.getD j 0 ∧ ∃ r ∈ base, x.getD j 0 ≤ r.getD j 0

theorem sum_map_sum_comm (l : List Row) (d : Nat) (f : Row → Nat → ℚ) :
    (l.map (fun r => ((List.range d).map (f r)).sum)).sum = ((List.range d).map (fun j => (l.map (fun r => f r j)).sum)).sum := by
  induction l with
  | nil => simp
  | cons r l ih =>
    simp only [List.map_cons, List.sum_cons, ih]
    rw [← List.sum_map_add]

theorem dominated_dot {d : Nat} {base : List Row} {x : Row} (hb : ∀ r ∈ base, r.length = d) (h : Dominated d base x) :
    dotRow x x ≤ (base.map (fun r => dotRow r r)).sum := by
  have e : base.map (fun r => dotRow r r) = base.map (fun r => ((List.range d).map (fun j => r.getD j 0 ^ 2)).sum) :=
    List.map_congr_left (fun r hr => dotRow_eq_sum (hb r hr))
  rw [e, sum_map_sum_comm base d (fun r j => r.getD j 0 ^ 2), dotRow_eq_sum h.1]
  apply List.sum_le_sum
  intro j hj
  obtain ⟨h0, r, hr, hle⟩ := h.2 j (List.mem_range.1 hj)
  have h1 : x.getD j 0 ^ 2 ≤ r.getD j 0 ^ 2 := by nlinarith
  refine h1.trans (List.single_le_sum ?_ _ (List.mem_map.2 ⟨r, hr, rfl⟩))
  intro z hz
  obtain ⟨r', _, rfl⟩ := List.mem_map.1 hz
  exact sq_nonneg _

theorem dominated_dot_pos {d : Nat} {base : List Row} {x : Row} (hd : 0 < d) (h : Dominated d base x) : 0 < dotRow x x := by
  rw [dotRow_eq_sum h.1]
  have hp := (h.2 0 hd).1
  refine lt_of_lt_of_le (b := x.getD 0 0 ^ 2) (by positivity) (List.single_le_sum ?_ _ (List.mem_map.2 ⟨0, List.mem_range.2 hd, rfl⟩))
  intro z hz
  obtain ⟨j, _, rfl⟩ := List.mem_map.1 hz
  exact sq_nonneg _

/-- The partial results belong to the rows. -/
structure DsInv (fn : DsFun) (d : Nat) (base cur : List Row) (p : DsPartial) : Prop where
  base_len : ∀ r ∈ base, r.length = d
  pre : ∃ added, cur = base ++ added ∧ p.norm = (base.map (fun r => dotRow r r)).sum + (added.map (fun r => fn.sqrt (dotRow r r))).sum
  dom : ∀ x ∈ cur, Dominated d base x
  logSum : ∀ j, p.logSum j = (cur.map (fun r => fn.log (r.getD j 0))).sum
  sum1 : ∀ j, p.sum1 j = (dsCol cur j).sum
  sum2 : ∀ j, p.sum2 j = ((dsCol cur j).map (fun x => x ^ 2)).sum
  allSum : p.allSum = (cur.map List.sum).sum

theorem DsInv.push {fn : DsFun} {d : Nat} {base cur : List Row} {p : DsPartial} (h : DsInv fn d base cur p) {c : Row}
    (hc : Dominated d base c) : DsInv fn d base (cur ++ [c]) (p.push fn c) := by
  refine ⟨h.base_len, ?_, ?_, ?_, ?_, ?_, ?_⟩
  · obtain ⟨added, e, hn⟩ := h.pre
    refine ⟨added ++ [c], by rw [e, List.append_assoc], ?_⟩
    show p.norm + fn.sqrt (dotRow c c) = _
    rw [hn, List.map_append, List.sum_append]
    simp [add_assoc]
  · intro x hx
    rcases List.mem_append.1 hx with hx | hx
    · exact h.dom x hx
    · rw [List.mem_singleton.1 hx]; exact hc
  · intro j
    simp [DsPartial.push, h.logSum j]
  · intro j
    simp [DsPartial.push, h.sum1 j, dsCol]
  · intro j
    simp [DsPartial.push, h.sum2 j, dsCol]
  · simp [DsPartial.push, h.allSum]

theorem varianceOf_eq {l : List ℚ} (h : l ≠ []) : varianceOf l = (l.map (fun x => x ^ 2)).sum / l.length - (l.sum / l.length) ^ 2 := by
  have hl : (0 : ℚ) < l.length := by exact_mod_cast List.length_pos_iff.2 h
  unfold varianceOf
  rw [sum_sq_dev]
  field_simp
  ring

/-- The score of a candidate is its diversity, and positive. -/
theorem dsObjective_pos {fn : DsFun} (hfn : fn.OK) {d : Nat} {base added maj : List Row} {p : DsPartial} (h : DsInv fn d base (base ++ added) p)
    {c : Row} (hc : Dominated d base c) (hd : 0 < d) (hv : 0 < dsVar d maj) :
    0 < diversity fn d base (added ++ [c]) maj ∧
      dsObjective fn d (base ++ added ++ [c]) (p.push fn c) (dsMean d maj) (dsVar d maj) = .fin (diversity fn d base (added ++ [c]) maj) := by
  have hI := h.push hc
  have hN : (p.push fn c).norm = (base.map (fun r => dotRow r r)).sum + ((added ++ [c]).map (fun r => fn.sqrt (dotRow r r))).sum := by
    obtain ⟨ad, e, hn⟩ := hI.pre
    rw [List.append_assoc, List.append_cancel_left_eq] at e
    rw [hn, e]
  have hnorm : (base.map (fun r => dotRow r r)).sum < (p.push fn c).norm := by
    rw [hN]
    have h1 : 0 < ((added ++ [c]).map (fun r => fn.sqrt (dotRow r r))).sum := by
      apply sum_pos_of_all (by simp)
      intro z hz
      obtain ⟨r, hr, rfl⟩ := List.mem_map.1 hz
      exact hfn.sqrt_pos _ (dominated_dot_pos hd (hI.dom r (by
        rw [List.append_assoc]; exact List.mem_append_right _ hr)))
    linarith
  unfold dsObjective diversity
  rw [List.append_assoc] at hI ⊢
  set X' := base ++ (added ++ [c]) with hX'
  have hne : X' ≠ [] := by simp [hX']
  have hlen : (0 : ℚ) < (X'.length : ℚ) := by exact_mod_cast List.length_pos_iff.2 hne
  dsimp only
  rw [← hN]
  simp only [hI.logSum]
  set g := (List.range d).map (fun j => fn.exp ((X'.map (fun r => fn.log (r.getD j 0))).sum / (X'.length : ℚ))) with hg
  have hgl : g.length = d := by simp [hg]
  have hterm : ∀ t ∈ dsTerms X' g (p.push fn c).norm, 0 < t := by
    intro t ht
    obtain ⟨x, hx, rfl⟩ := List.mem_map.1 ht
    have hdx := hI.dom x hx
    have h1 := dominated_dot h.base_len hdx
    have h2 := dot_sub_sq x g (by rw [hdx.1, hgl])
    linarith
  rw [if_neg (by
    rw [List.any_eq_true]
    rintro ⟨t, ht, hlt⟩
    exact absurd (of_decide_eq_true hlt) (not_lt.2 (hterm t ht).le))]
  have hcol : ∀ j, varianceOf (X'.map (fun r => r.getD j 0)) =
      (p.push fn c).sum2 j / (X'.length : ℚ) - ((p.push fn c).sum1 j / (X'.length : ℚ)) ^ 2 := by
    intro j
    rw [varianceOf_eq (by simpa using hne), hI.sum1, hI.sum2, List.length_map]
    rfl
  have hvars : ((List.range d).map (fun j => (p.push fn c).sum2 j / (X'.length : ℚ) - ((p.push fn c).sum1 j / (X'.length : ℚ)) ^ 2)).sum / (d : ℚ) =
      columnVariance d X' := by
    unfold columnVariance
    simp only [hcol]
  have hmaj : dsVar d maj = columnVariance d maj := by
    unfold dsVar columnVariance varianceOf
    simp only [dsCol, List.length_map]
  have hvar : 0 ≤ columnVariance d X' := by
    apply div_nonneg _ (by positivity)
    apply List.sum_nonneg
    intro z hz
    obtain ⟨j, hj, rfl⟩ := List.mem_map.1 hz
    rw [varianceOf_eq (by simpa using hne)]
    exact var_nonneg (by simpa using hne)
  have hden : 0 < columnVariance d X' + columnVariance d maj := by
    linarith [hmaj ▸ hv]
  rw [hvars, hmaj, if_neg hden.ne']
  have hs : 0 < ((dsTerms X' g (p.push fn c).norm).map fn.sqrt).sum := by
    apply sum_pos_of_all (by simpa [dsTerms] using hne)
    intro z hz
    obtain ⟨t, ht, rfl⟩ := List.mem_map.1 hz
    exact hfn.sqrt_pos t (hterm t ht)
  have hse : (dsTerms X' g (p.push fn c).norm).map fn.sqrt = X'.map (fun x => fn.sqrt ((p.push fn c).norm - 2 * dotRow x g + dotRow g g)) := by
    unfold dsTerms
    rw [List.map_map]
    rfl
  have hm : (p.push fn c).allSum / ((X'.length : ℚ) * (d : ℚ)) = entriesMean d X' := by rw [hI.allSum]; rfl
  have hm2 : dsMean d maj = entriesMean d maj := rfl
  rw [hm, hm2]
  rw [hse] at hs ⊢
  refine ⟨?_, rfl⟩
  have h1 := div_pos hs hlen
  have h2 := div_nonneg (sq_nonneg (entriesMean d X' - entriesMean d maj)) hden.le
  linarith

theorem XF.lt_trans' {a b c : XF} (h1 : a.lt b = true) (h2 : b.lt c = true) : a.lt c = true := by
  cases a <;> cases b <;> cases c <;> simp_all [XF.lt]
  linarith

theorem dsBest_spec (score : Row → XF) : ∀ (cs : List Row) (acc : Option Row × XF),
    (dsBest score cs acc = acc ∨ (acc.2.lt (dsBest score cs acc).2 = true ∧ ∃ c ∈ cs, dsBest score cs acc = (some c, score c))) ∧
      ∀ c ∈ cs, (dsBest score cs acc).2.lt (score c) = false
  | [], acc => ⟨Or.inl rfl, by simp⟩
  | c :: cs, acc => by
    unfold dsBest
    by_cases hl : acc.2.lt (score c) = true
    · rw [if_pos hl]
      obtain ⟨h1, h2⟩ := dsBest_spec score cs (some c, score c)
      have hlt : acc.2.lt (dsBest score cs (some c, score c)).2 = true := by
        rcases h1 with h1 | ⟨h1, _⟩
        · rw [h1]; exact hl
        · exact XF.lt_trans' hl h1
      refine ⟨Or.inr ⟨hlt, ?_⟩, ?_⟩
      · rcases h1 with h1 | ⟨_, c', hc', h1⟩
        · exact ⟨c, List.mem_cons_self, h1⟩
        · exact ⟨c', List.mem_cons_of_mem _ hc', h1⟩
      · intro c' hc'
        rcases List.mem_cons.1 hc' with rfl | hc'
        · rcases h1 with h1 | ⟨h1, _⟩
          · rw [h1]
            show (score c').lt (score c') = false
            cases score c' <;> simp [XF.lt]
          · by_contra hh
            rw [Bool.not_eq_false] at hh
            have := XF.lt_trans' h1 hh
            revert this
            show (score c').lt (score c') = true → False
            cases score c' <;> simp [XF.lt]
        · exact h2 c' hc'
    · rw [if_neg hl]
      obtain ⟨h1, h2⟩ := dsBest_spec score cs acc
      refine ⟨?_, ?_⟩
      · rcases h1 with h1 | ⟨h1, c', hc', h3⟩
        · exact Or.inl h1
        · exact Or.inr ⟨h1, c', List.mem_cons_of_mem _ hc', h3⟩
      · intro c' hc'
        rcases List.mem_cons.1 hc' with rfl | hc'
        · rcases h1 with h1 | ⟨h1, _⟩
          · rw [h1]; simpa using hl
          · by_contra hh
            rw [Bool.not_eq_false] at hh
            exact hl (XF.lt_trans' h1 hh)
        · exact h2 c' hc'

theorem getD_mem_of_lt {α : Type} {l : List α} {i : Nat} (h : i < l.length) (e : α) : l.getD i e = l[i] := by
  rw [List.getD_eq_getElem?_getD, List.getElem?_eq_getElem h]; rfl

theorem dsCandidate_spec {fn : DsFun} (hfn : fn.OK) {d : Nat} {base cur : List Row} {p : DsPartial} (h : DsInv fn d base cur p)
    {idx : Nat × Nat × Nat} (h1 : idx.1 < cur.length) (h2 : idx.2.1 < cur.length) (h3 : idx.2.2 < cur.length) :
    dsCandidate fn d cur idx = .ok (gmean3 fn d (cur.getD idx.1 []) (cur.getD idx.2.1 []) (cur.getD idx.2.2 [])) ∧
      Between3 d (cur.getD idx.1 []) (cur.getD idx.2.1 []) (cur.getD idx.2.2 [])
        (gmean3 fn d (cur.getD idx.1 []) (cur.getD idx.2.1 []) (cur.getD idx.2.2 [])) ∧
      Dominated d base (gmean3 fn d (cur.getD idx.1 []) (cur.getD idx.2.1 []) (cur.getD idx.2.2 [])) := by
  have d1 := h.dom _ (List.getElem_mem h1)
  have d2 := h.dom _ (List.getElem_mem h2)
  have d3 := h.dom _ (List.getElem_mem h3)
  rw [getD_mem_of_lt h1, getD_mem_of_lt h2, getD_mem_of_lt h3]
  have key : ∀ j, j < d → min (min (cur[idx.1].getD j 0) (cur[idx.2.1].getD j 0)) (cur[idx.2.2].getD j 0) ≤
      fn.gmean (cur[idx.1].getD j 0) (cur[idx.2.1].getD j 0) (cur[idx.2.2].getD j 0) ∧
      fn.gmean (cur[idx.1].getD j 0) (cur[idx.2.1].getD j 0) (cur[idx.2.2].getD j 0) ≤
        max (max (cur[idx.1].getD j 0) (cur[idx.2.1].getD j 0)) (cur[idx.2.2].getD j 0) := fun j hj =>
    hfn.gmean _ _ _ (d1.2 j hj).1 (d2.2 j hj).1 (d3.2 j hj).1
  refine ⟨?_, ⟨by simp [gmean3], fun j hj => ?_⟩, ⟨by simp [gmean3], fun j hj => ?_⟩⟩
  · unfold dsCandidate
    rw [getRow_ok.2 (List.getElem?_eq_getElem h1), ok_bind, getRow_ok.2 (List.getElem?_eq_getElem h2), ok_bind,
      getRow_ok.2 (List.getElem?_eq_getElem h3), ok_bind]
    rfl
  · unfold gmean3
    rw [getD_range_map hj]; exact key j hj
  · unfold gmean3
    rw [getD_range_map hj]
    obtain ⟨k1, k2⟩ := key j hj
    refine ⟨lt_of_lt_of_le (lt_min (lt_min (d1.2 j hj).1 (d2.2 j hj).1) (d3.2 j hj).1) k1, ?_⟩
    rcases le_max_iff.1 k2 with k2 | k2
    · rcases le_max_iff.1 k2 with k2 | k2
      · obtain ⟨r, hr, hle⟩ := (d1.2 j hj).2; exact ⟨r, hr, k2.trans hle⟩
      · obtain ⟨r, hr, hle⟩ := (d2.2 j hj).2; exact ⟨r, hr, k2.trans hle⟩
    · obtain ⟨r, hr, hle⟩ := (d3.2 j hj).2; exact ⟨r, hr, k2.trans hle⟩

theorem dsGenerate_spec {fn : DsFun} (hfn : fn.OK) {d nStep : Nat} {base added maj : List Row} {p : DsPartial}
    (h : DsInv fn d base (base ++ added) p) (hd : 0 < d) (hn : 1 ≤ nStep) (hv : 0 < dsVar d maj)
    {pick : Nat → Nat → Nat → Nat × Nat × Nat} (hp : PickThree pick) (t : Nat) (h3 : 3 ≤ (base ++ added).length) :
    ∃ c, dsGenerate fn d nStep (pick t) (base ++ added) (dsMean d maj) (dsVar d maj) p = .ok (some c) ∧ Dominated d base c ∧
      (∃ k, k < min ((base ++ added).length * ((base ++ added).length - 1) * ((base ++ added).length - 2)) nStep ∧
        c = gmean3 fn d ((base ++ added).getD (pick t k (base ++ added).length).1 []) ((base ++ added).getD (pick t k (base ++ added).length).2.1 [])
          ((base ++ added).getD (pick t k (base ++ added).length).2.2 []) ∧
        Between3 d ((base ++ added).getD (pick t k (base ++ added).length).1 []) ((base ++ added).getD (pick t k (base ++ added).length).2.1 [])
          ((base ++ added).getD (pick t k (base ++ added).length).2.2 []) c) ∧
      ∀ k, k < min ((base ++ added).length * ((base ++ added).length - 1) * ((base ++ added).length - 2)) nStep →
        diversity fn d base (added ++ [gmean3 fn d ((base ++ added).getD (pick t k (base ++ added).length).1 [])
          ((base ++ added).getD (pick t k (base ++ added).length).2.1 []) ((base ++ added).getD (pick t k (base ++ added).length).2.2 [])]) maj ≤
        diversity fn d base (added ++ [c]) maj := by
  generalize hcur : base ++ added = cur at *
  have hc := fun k => dsCandidate_spec hfn h (hp t k cur.length h3).1 (hp t k cur.length h3).2.1 (hp t k cur.length h3).2.2.1
  unfold dsGenerate
  dsimp only
  have hsteps : 0 < min (cur.length * (cur.length - 1) * (cur.length - 2)) nStep := by
    rw [lt_min_iff]
    exact ⟨Nat.mul_pos (Nat.mul_pos (by omega) (by omega)) (by omega), hn⟩
  generalize min (cur.length * (cur.length - 1) * (cur.length - 2)) nStep = steps at hsteps ⊢
  obtain ⟨cands, hcands⟩ := mapM_exists_ok (l := List.range steps) (f := fun k => dsCandidate fn d cur (pick t k cur.length))
    (fun k _ => ⟨_, (hc k).1⟩)
  have hf := mapM_ok_iff.1 hcands
  rw [hcands, ok_bind]
  obtain ⟨h1, h2⟩ := dsBest_spec (fun c => dsObjective fn d (cur ++ [c]) (p.push fn c) (dsMean d maj) (dsVar d maj)) cands (none, .fin 0)
  have hsc : ∀ c, Dominated d base c → 0 < diversity fn d base (added ++ [c]) maj ∧
      dsObjective fn d (cur ++ [c]) (p.push fn c) (dsMean d maj) (dsVar d maj) = .fin (diversity fn d base (added ++ [c]) maj) := by
    intro c hdom
    subst hcur
    exact dsObjective_pos hfn h hdom hd hv
  have hin : ∀ k, k < steps → gmean3 fn d (cur.getD (pick t k cur.length).1 []) (cur.getD (pick t k cur.length).2.1 [])
      (cur.getD (pick t k cur.length).2.2 []) ∈ cands := by
    intro k hk
    obtain ⟨c, hcm, e⟩ := forall₂_mem_left hf (List.mem_range.2 hk)
    rw [(hc k).1] at e
    injection e with e
    rw [e]; exact hcm
  rcases h1 with h1 | ⟨_, c, hcm, h1⟩
  · exfalso
    have hm := hin 0 hsteps
    have hdom := (hc 0).2.2
    have := h2 _ hm
    rw [h1] at this
    obtain ⟨hq, hqe⟩ := hsc _ hdom
    simp only [hqe, XF.lt, decide_eq_false_iff_not] at this
    exact this hq
  · obtain ⟨k, hk, e⟩ := forall₂_mem_right hf hcm
    rw [(hc k).1] at e
    injection e with e
    have hdom : Dominated d base c := e ▸ (hc k).2.2
    refine ⟨c, by rw [h1]; rfl, hdom, ⟨k, List.mem_range.1 hk, e.symm, e ▸ (hc k).2.1⟩, ?_⟩
    intro k' hk'
    have := h2 _ (hin k' hk')
    rw [h1] at this
    simp only [(hsc _ (hc k').2.2).2, (hsc _ hdom).2, XF.lt, decide_eq_false_iff_not, not_lt] at this
    exact this

theorem dsGenerate_none {fn : DsFun} {d nStep : Nat} {cur : List Row} {p : DsPartial} {meanMaj varMaj : ℚ}
    {pick : Nat → Nat → Nat × Nat × Nat} (h3 : cur.length < 3) : dsGenerate fn d nStep pick cur meanMaj varMaj p = .ok none := by
  unfold dsGenerate
  have : cur.length * (cur.length - 1) * (cur.length - 2) = 0 := by
    have : cur.length - 2 = 0 := by omega
    rw [this, Nat.mul_zero]
  rw [this, Nat.zero_min]
  rfl

/-- What holds of the rows added so far. -/
def DsGood (fn : DsFun) (d nStep : Nat) (pick : Nat → Nat → Nat → Nat × Nat × Nat) (base maj added : List Row) : Prop :=
  ∀ t, t < added.length → ∃ c, added[t]? = some c ∧
      (∃ k, k < min ((base.length + t) * (base.length + t - 1) * (base.length + t - 2)) nStep ∧
        c = drawnMean fn d base added t (pick t k (base.length + t)) ∧
        Between3 d ((base ++ added.take t).getD (pick t k (base.length + t)).1 []) ((base ++ added.take t).getD (pick t k (base.length + t)).2.1 [])
          ((base ++ added.take t).getD (pick t k (base.length + t)).2.2 []) c) ∧
      ∀ k, k < min ((base.length + t) * (base.length + t - 1) * (base.length + t - 2)) nStep →
        diversity fn d base (added.take t ++ [drawnMean fn d base added t (pick t k (base.length + t))]) maj ≤
        diversity fn d base (added.take t ++ [c]) maj

theorem dsLoop_spec {fn : DsFun} (hfn : fn.OK) {d nStep : Nat} {base maj : List Row} (hd : 0 < d) (hn : 1 ≤ nStep)
    (hv : 0 < dsVar d maj) {pick : Nat → Nat → Nat → Nat × Nat × Nat} (hp : PickThree pick) (h3 : 3 ≤ base.length) :
    ∀ (left : Nat) (added : List Row) (p : DsPartial), DsInv fn d base (base ++ added) p → DsGood fn d nStep pick base maj added →
      ∃ new, dsLoop fn d nStep pick (dsMean d maj) (dsVar d maj) left added.length (base ++ added) p = .ok (base ++ new) ∧
        new.length = added.length + left ∧ DsGood fn d nStep pick base maj new ∧ ∀ x ∈ new, x.length = d
  | 0, added, p, h, hg => ⟨added, by simp [dsLoop], by simp, hg, fun x hx => (h.dom x (List.mem_append_right _ hx)).1⟩
  | left + 1, added, p, h, hg => by
    obtain ⟨c, hgen, hdom, hk, hbest⟩ := dsGenerate_spec hfn h hd hn hv hp added.length (by simp; omega)
    have hI := h.push hdom
    rw [List.append_assoc] at hI
    obtain ⟨new, e, hl, hgr⟩ := dsLoop_spec hfn hd hn hv hp h3 left (added ++ [c]) (p.push fn c) hI (by
      intro t ht
      rw [List.length_append, List.length_singleton] at ht
      by_cases hlt : t < added.length
      · obtain ⟨c', h1, h2⟩ := hg t hlt
        refine ⟨c', by rw [List.getElem?_append_left hlt]; exact h1, ?_⟩
        unfold drawnMean
        rw [List.take_append_of_le_length hlt.le]
        exact h2
      · obtain rfl : t = added.length := by omega
        refine ⟨c, by simp, ?_⟩
        unfold drawnMean
        rw [List.take_left']
        · rw [List.length_append] at hk hbest
          exact ⟨hk, hbest⟩
        · rfl)
    refine ⟨new, ?_, by rw [hl]; simp; omega, hgr⟩
    unfold dsLoop
    rw [hgen, ok_bind]
    dsimp only
    rw [List.append_assoc]
    rw [List.length_append, List.length_singleton] at e
    exact e

theorem DsGood.chosen {fn : DsFun} {d nStep : Nat} {pick : Nat → Nat → Nat → Nat × Nat × Nat} {base maj new : List Row}
    (h : DsGood fn d nStep pick base maj new) : ChosenBest fn d nStep pick base maj new := by
  intro t ht
  obtain ⟨c, hc, ⟨k, hk, e, _⟩, hb⟩ := h t ht
  have : new.getD t [] = c := by rw [List.getD_eq_getElem?_getD, hc]; rfl
  rw [this]
  exact ⟨⟨k, hk, e⟩, hb⟩

theorem DsGood.grown {fn : DsFun} {d nStep : Nat} {pick : Nat → Nat → Nat → Nat × Nat × Nat} (hp : PickThree pick) {base maj new : List Row}
    (h3 : 3 ≤ base.length) (h : DsGood fn d nStep pick base maj new) : GrownFrom d base new := by
  intro t ht
  obtain ⟨c, hc, ⟨k, hk, e, hb⟩, _⟩ := h t ht
  have e1 : new.getD t [] = c := by rw [List.getD_eq_getElem?_getD, hc]; rfl
  have e2 : ∀ v, v < base.length + t → (base ++ new).getD v [] = (base ++ new.take t).getD v [] := by
    intro v hv
    have : base ++ new = base ++ new.take t ++ new.drop t := by rw [List.append_assoc, List.take_append_drop]
    rw [this, List.getD_eq_getElem?_getD, List.getElem?_append_left (by simp; omega), ← List.getD_eq_getElem?_getD]
  have hpk := hp t k (base.length + t) (by omega)
  refine ⟨_, _, _, hpk.1, hpk.2.1, hpk.2.2.1, hpk.2.2.2.1, hpk.2.2.2.2.1, hpk.2.2.2.2.2, ?_⟩
  rw [e1, e2 _ hpk.1, e2 _ hpk.2.1, e2 _ hpk.2.2.1]
  exact hb

theorem dsPartial_inv {fn : DsFun} {d : Nat} {base : List Row} (hb : ∀ r ∈ base, r.length = d)
    (hpos : ∀ r ∈ base, ∀ j, j < d → 0 < r.getD j 0) : DsInv fn d base base (dsPartial fn base) :=
  ⟨hb, ⟨[], by simp, by simp [dsPartial]⟩, fun x hx => ⟨hb x hx, fun j hj => ⟨hpos x hx j hj, x, hx, le_rfl⟩⟩,
    fun _ => by simp only [dsPartial, dsCol, List.map_map]; rfl, fun _ => rfl, fun _ => rfl, rfl⟩

/-! ## Maps -/

theorem classRows_map {α β : Type} (f : α → β) (X : List α) (y : List Int) (l : Int) : classRows (X.map f) y l = (classRows X y l).map f := by
  unfold classRows
  induction X generalizing y with
  | nil => simp
  | cons x X ih =>
    cases y with
    | nil => simp
    | cons v y =>
      rw [List.map_cons, List.zip_cons_cons, List.zip_cons_cons]
      by_cases h : v = l
      · rw [List.filter_cons_of_pos (by simpa using h), List.filter_cons_of_pos (by simpa using h), List.map_cons, List.map_cons,
          List.map_cons, ih]
      · rw [List.filter_cons_of_neg (by simpa using h), List.filter_cons_of_neg (by simpa using h), ih]

theorem npDelete_map {α β : Type} (f : α → β) (X : List α) (del : List Nat) : npDelete (X.map f) del = (npDelete X del).map f := by
  unfold npDelete
  rw [List.zipIdx_map, List.filter_map, List.map_map, List.map_map]
  rfl

theorem GrownFrom.backward {d : Nat} {X rest new : List Row} (h : GrownFrom d rest new) :
    GrownFrom d (rest.map (dsBackward d X)) (new.map (dsBackward d X)) := by
  intro t ht
  rw [List.length_map] at ht
  obtain ⟨i, j, k, h1, h2, h3, h4, h5, h6, h7⟩ := h t ht
  refine ⟨i, j, k, by simpa using h1, by simpa using h2, by simpa using h3, h4, h5, h6, ?_⟩
  have e : ∀ (l : List Row) v, v < l.length → (l.map (dsBackward d X)).getD v [] = dsBackward d X (l.getD v []) := by
    intro l v hv
    rw [getD_mem_of_lt (by simpa using hv), getD_mem_of_lt hv, List.getElem_map]
  rw [← List.map_append, e _ i (by simp; omega), e _ j (by simp; omega), e _ k (by simp; omega), e _ t ht]
  exact h7.backward

theorem dsAbnormality_eq {dist : Row → Row → ℚ} {A B : List Row} (hA : A ≠ []) (x : Row) :
    dsAbnormality dist A B x = abnormalityOf dist A B x := by
  unfold dsAbnormality abnormalityOf
  have : (0 : ℚ) < (A.length : ℚ) := by exact_mod_cast List.length_pos_iff.2 hA
  rw [div_mul_cancel₀ _ this.ne']

theorem take_sorted_spec {m r : Nat} (f : Nat → ℚ) (hr : r ≤ m) :
    let idx := ((List.range m).insertionSort (fun i j => f j ≤ f i)).take r
    idx.length = r ∧ idx.Nodup ∧ (∀ i ∈ idx, i < m) ∧ ∀ i ∈ idx, ∀ j, j < m → j ∉ idx → f j ≤ f i := by
  intro idx
  have hperm := List.perm_insertionSort (fun i j => f j ≤ f i) (List.range m)
  have : Std.Total (fun i j : Nat => f j ≤ f i) := ⟨fun a b => le_total _ _⟩
  have : IsTrans Nat (fun i j : Nat => f j ≤ f i) := ⟨fun a b c h1 h2 => h2.trans h1⟩
  have hsort := List.pairwise_insertionSort (fun i j : Nat => f j ≤ f i) (List.range m)
  have hnd := hperm.nodup_iff.2 List.nodup_range
  set S := (List.range m).insertionSort (fun i j => f j ≤ f i) with hS
  refine ⟨by simp [idx, hr], hnd.sublist (List.take_sublist _ _), ?_, ?_⟩
  · intro i hi
    exact List.mem_range.1 (hperm.subset (List.mem_of_mem_take hi))
  · intro i hi j hj hjn
    have hjS : j ∈ S := hperm.symm.subset (List.mem_range.2 hj)
    have hsplit : S = S.take r ++ S.drop r := (List.take_append_drop r S).symm
    have hjd : j ∈ S.drop r := by
      rw [hsplit] at hjS
      rcases List.mem_append.1 hjS with h | h
      · exact absurd h hjn
      · exact h
    rw [hsplit] at hsort
    exact (List.pairwise_append.1 hsort).2.2 i hi j hjd

theorem npDelete_length_eq {α : Type} {X : List α} {del : List Nat} (hnd : del.Nodup) (hlt : ∀ i ∈ del, i < X.length) :
    (npDelete X del).length = X.length - del.length := by
  have h1 : (npDelete X del).length = (kept X.length del).length := (npDelete_forall X del).length_eq.symm
  have hk : (kept X.length del).Nodup := List.Nodup.filter _ List.nodup_range
  have hp : List.Perm (kept X.length del ++ del) (List.range X.length) := by
    rw [List.perm_ext_iff_of_nodup (List.Nodup.append hk hnd (fun i h1 h2 => (mem_kept.1 h1).2 h2)) List.nodup_range]
    intro i
    rw [List.mem_append, mem_kept, List.mem_range]
    constructor
    · rintro (h | h)
      · exact h.1
      · exact hlt i h
    · intro h
      by_cases hd : i ∈ del
      · exact Or.inr hd
      · exact Or.inl ⟨h, hd⟩
  have := hp.length_eq
  rw [List.length_append, List.length_range] at this
  omega

theorem dsForward_backward {d : Nat} {X : List Row} {r : Row} (h : r.length = d) : dsForward d X (dsBackward d X r) = r := by
  apply row_ext (dsForward_length d X _) h
  intro j hj
  unfold dsBackward dsForward
  rw [getD_range_map hj, getD_range_map hj]
  have := (dsScale_pos X j).ne'
  field_simp
  ring

/-- The number of rows given away. -/
def givenAway (rate : ℚ) (m : Nat) : Nat := ⌊rate * m⌋.toNat

theorem givenAway_le {rate : ℚ} (h1 : rate ≤ 1) (m : Nat) : givenAway rate m ≤ m := by
  unfold givenAway
  have : rate * (m : ℚ) ≤ m := by nlinarith [(Nat.cast_nonneg m : (0 : ℚ) ≤ m)]
  have h2 : ⌊rate * (m : ℚ)⌋ ≤ (m : ℤ) := by
    rw [← Int.floor_natCast (R := ℚ) m]
    exact Int.floor_le_floor this
  omega

/-- The body of the algorithm before the loop: the rows given away, the rows left. -/
theorem dsmoteAlg_eq {par : DsParams} {fn : DsFun} {dist : Row → Row → ℚ} {pick : Nat → Nat → Nat → Nat × Nat × Nat} {d : Nat} {X : List Row}
    {y : List Int} {a b : Int} (hwf : WF d X y) (hmin : IsMinority y a b) (h3 : 2 < y.count a) (hr0 : 0 ≤ par.rate) (hr1 : par.rate ≤ 1)
    (hn : 0 < requested par.proportion (y.count b) (y.count a)) :
    ∃ pos rest, pos.length = givenAway par.rate (y.count a) ∧ pos.Nodup ∧ (∀ i ∈ pos, i < y.count a) ∧
      (∀ i ∈ pos, ∀ j, j < y.count a → j ∉ pos →
        abnormalityOf dist ((classRows X y a).map (dsForward d X)) ((classRows X y b).map (dsForward d X)) (dsForward d X ((classRows X y a).getD j [])) ≤
        abnormalityOf dist ((classRows X y a).map (dsForward d X)) ((classRows X y b).map (dsForward d X)) (dsForward d X ((classRows X y a).getD i []))) ∧
      DeletedAt pos (classRows X y a) rest ∧ rest.length = y.count a - givenAway par.rate (y.count a) ∧ (∀ r ∈ rest, r ∈ classRows X y a) ∧
      sample defaultChecks d (dsmoteAlg par fn dist pick d) X y = (do
        let maj := (classRows X y b ++ pos.map (fun i => (classRows X y a).getD i [])).map (dsForward d X)
        let out ← dsLoop fn d par.nStep pick (dsMean d maj) (dsVar d maj) (requested par.proportion (y.count b) (y.count a)) 0
          (rest.map (dsForward d X)) (dsPartial fn (rest.map (dsForward d X)))
        return ((maj ++ out).map (dsBackward d X), List.replicate maj.length b ++ List.replicate out.length a)) := by
  obtain ⟨s, hs, rfl, rfl⟩ := stats_of_isMinority hmin
  obtain ⟨hm, hM, hab⟩ := stats_min_mem hs
  have hA := classRows_length hwf.1 s.minLabel
  set A := classRows X y s.minLabel with hAdef
  set B := classRows X y s.majLabel with hBdef
  set F := dsForward d X with hF
  have hAne : A.map F ≠ [] := by
    intro h
    rw [List.map_eq_nil_iff] at h
    rw [h] at hA
    simp at hA
    omega
  obtain ⟨f, hf⟩ : ∃ f : Nat → ℚ, f = fun i => ((A.map F).map (dsAbnormality dist (A.map F) (B.map F))).getD i 0 := ⟨_, rfl⟩
  have hfe : ∀ i, i < y.count s.minLabel → f i = abnormalityOf dist (A.map F) (B.map F) (F (A.getD i [])) := by
    intro i hi
    rw [hf]
    have : i < A.length := by omega
    simp only
    rw [getD_mem_of_lt (by simpa using this), getD_mem_of_lt this, List.getElem_map, List.getElem_map, dsAbnormality_eq hAne]
  have hle := givenAway_le hr1 (y.count s.minLabel)
  obtain ⟨p1, p2, p3, p4⟩ := take_sorted_spec f hle
  set pos := ((List.range (y.count s.minLabel)).insertionSort (fun i j => f j ≤ f i)).take (givenAway par.rate (y.count s.minLabel)) with hpos
  refine ⟨pos, npDelete A pos, p1, p2, p3, ?_, npDelete_deletedAt A pos, by rw [npDelete_length_eq p2 (by rw [hA]; exact p3), hA, p1], ?_, ?_⟩
  · intro i hi j hj hjn
    rw [← hfe i (p3 i hi), ← hfe j hj]
    exact p4 i hi j hj hjn
  · intro r hr
    obtain ⟨i, hi, he⟩ := forall₂_mem_right (npDelete_forall A pos) hr
    exact List.mem_of_getElem? he
  · rw [sample_default hs, if_neg (by omega)]
    unfold dsmoteAlg
    rw [stats_count hs hm, stats_count hs hM, detN_eq_requested, ok_bind, if_neg (by omega)]
    simp only [selectLabel_eq_classRows, classRows_map]
    rw [← hAdef, ← hBdef, ← hF, List.length_map, List.length_map, hA]
    have hrate : (pyInt (par.rate * ((y.count s.minLabel : Nat) : ℚ))).toNat = givenAway par.rate (y.count s.minLabel) := by
      unfold pyInt givenAway
      rw [if_pos (mul_nonneg hr0 (Nat.cast_nonneg _))]
    rw [hrate]
    have hsort : ((List.range (y.count s.minLabel)).insertionSort (fun i j => ((A.map F).map (dsAbnormality dist (A.map F) (B.map F))).getD j 0 ≤
        ((A.map F).map (dsAbnormality dist (A.map F) (B.map F))).getD i 0)).take (givenAway par.rate (y.count s.minLabel)) = pos := by
      rw [hpos, hf]
    rw [hsort, takeRows_map_getD [] (by rw [List.length_map, hA]; exact p3), ok_bind, npDelete_map]
    have hmoved : pos.map (fun i => (A.map F).getD i []) = (pos.map (fun i => A.getD i [])).map F := by
      rw [List.map_map]
      apply List.map_congr_left
      intro i hi
      have : i < A.length := by rw [hA]; exact p3 i hi
      simp only [Function.comp]
      rw [getD_mem_of_lt (by simpa using this), getD_mem_of_lt this, List.getElem_map]
    rw [hmoved, ← List.map_append]

/-- **DSMOTE.** The majority rows come first, then the most abnormal `⌊rate · m⌋` minority rows, both with the majority label, then the
remaining minority rows and the requested number of new rows with the minority label. Every new row lies, coordinate by coordinate,
between three different rows of the remaining and of the rows generated before it, and is (in the scaled coordinates) the geometric mean
with the highest diversity among those drawn. -/
theorem C83_dsmote {par : DsParams} {fn : DsFun} {dist : Row → Row → ℚ} {pick : Nat → Nat → Nat → Nat × Nat × Nat} {d : Nat} {X : List Row}
    {y : List Int} {a b : Int} (hwf : WF d X y) (hmin : IsMinority y a b) (hfn : fn.OK) (hp : PickThree pick) (hr0 : 0 ≤ par.rate)
    (hr1 : par.rate ≤ 1) (hstep : 1 ≤ par.nStep) (h3 : 3 ≤ y.count a - givenAway par.rate (y.count a))
    (hdiff : ∃ p ∈ classRows X y b, ∃ q ∈ classRows X y b, p ≠ q) (hn : 0 < requested par.proportion (y.count b) (y.count a)) :
    ∃ pos rest new,
      sample defaultChecks d (dsmoteAlg par fn dist pick d) X y = .ok
        (classRows X y b ++ pos.map (fun i => (classRows X y a).getD i []) ++ rest ++ new,
          List.replicate (y.count b + givenAway par.rate (y.count a)) b ++
            List.replicate (y.count a - givenAway par.rate (y.count a) + requested par.proportion (y.count b) (y.count a)) a) ∧
      pos.length = givenAway par.rate (y.count a) ∧ pos.Nodup ∧ (∀ i ∈ pos, i < y.count a) ∧
      (∀ i ∈ pos, ∀ j, j < y.count a → j ∉ pos →
        abnormalityOf dist ((classRows X y a).map (dsForward d X)) ((classRows X y b).map (dsForward d X)) (dsForward d X ((classRows X y a).getD j [])) ≤
        abnormalityOf dist ((classRows X y a).map (dsForward d X)) ((classRows X y b).map (dsForward d X)) (dsForward d X ((classRows X y a).getD i []))) ∧
      DeletedAt pos (classRows X y a) rest ∧
      new.length = requested par.proportion (y.count b) (y.count a) ∧ GrownFrom d rest new ∧
      ChosenBest fn d par.nStep pick (rest.map (dsForward d X))
        ((classRows X y b ++ pos.map (fun i => (classRows X y a).getD i [])).map (dsForward d X)) (new.map (dsForward d X)) := by
  obtain ⟨pos, rest, q1, q2, q3, q4, q5, q6, q7, q8⟩ := dsmoteAlg_eq (fn := fn) (dist := dist) (pick := pick) hwf hmin (by omega) hr0 hr1 hn
  have hrow : ∀ l r, r ∈ classRows X y l → r ∈ X := fun l r h => mem_of_mem_classRows h
  have hlen : ∀ l r, r ∈ classRows X y l → r.length = d := fun l r h => hwf.2 r (mem_of_mem_classRows h)
  have hbpos : ∀ i ∈ pos, (classRows X y a).getD i [] ∈ classRows X y a := by
    intro i hi
    have : i < (classRows X y a).length := by rw [classRows_length hwf.1]; exact q3 i hi
    rw [getD_mem_of_lt this]
    exact List.getElem_mem this
  have hd : 0 < d := by
    obtain ⟨p, hpB, q, hqB, hne⟩ := hdiff
    rcases Nat.eq_zero_or_pos d with h0 | h0
    · exfalso
      have e1 := hlen b p hpB
      have e2 := hlen b q hqB
      rw [h0] at e1 e2
      exact hne ((List.length_eq_zero_iff.1 e1).trans (List.length_eq_zero_iff.1 e2).symm)
    · exact h0
  have hv : 0 < dsVar d ((classRows X y b ++ pos.map (fun i => (classRows X y a).getD i [])).map (dsForward d X)) := by
    obtain ⟨p, hpB, q, hqB, hne⟩ := hdiff
    refine dsVar_pos (p := dsForward d X p) (q := dsForward d X q) (List.mem_map_of_mem (List.mem_append_left _ hpB))
      (List.mem_map_of_mem (List.mem_append_left _ hqB)) (dsForward_length d X p) (dsForward_length d X q) ?_
    intro h
    have := congrArg (dsBackward d X) h
    rw [dsBackward_forward (hlen b p hpB), dsBackward_forward (hlen b q hqB)] at this
    exact hne this
  have hinv := dsPartial_inv (fn := fn) (d := d) (base := rest.map (dsForward d X))
    (by intro r hr; obtain ⟨r0, _, rfl⟩ := List.mem_map.1 hr; exact dsForward_length d X r0)
    (by intro r hr j hj; obtain ⟨r0, h0, rfl⟩ := List.mem_map.1 hr; exact dsForward_pos (hrow a r0 (q7 r0 h0)) hj)
  obtain ⟨new, e, hl, hg, hnl⟩ := dsLoop_spec hfn hd hstep hv hp (base := rest.map (dsForward d X)) (by rw [List.length_map]; omega)
    (requested par.proportion (y.count b) (y.count a)) [] (dsPartial fn (rest.map (dsForward d X))) (by simpa using hinv)
    (fun t ht => by simp at ht)
  rw [List.append_nil, List.length_nil] at e
  rw [List.length_nil, Nat.zero_add] at hl
  refine ⟨pos, rest, new.map (dsBackward d X), ?_, q1, q2, q3, q4, q5, by rw [List.length_map, hl], ?_, ?_⟩
  · rw [q8]
    simp only
    rw [e, ok_bind]
    have hid : ∀ l : List Row, (∀ r ∈ l, r.length = d) → (l.map (dsForward d X)).map (dsBackward d X) = l := by
      intro l hl
      rw [List.map_map]
      conv_rhs => rw [← List.map_id l]
      exact List.map_congr_left (fun r hr => dsBackward_forward (hl r hr))
    show Except.ok _ = _
    congr 1
    rw [Prod.mk.injEq]
    constructor
    · rw [List.map_append (f := dsBackward d X), List.map_append (f := dsBackward d X) (l₁ := rest.map _), hid _ (by
        intro r hr
        rcases List.mem_append.1 hr with hr | hr
        · exact hlen b r hr
        · obtain ⟨i, hi, rfl⟩ := List.mem_map.1 hr
          exact hlen a _ (hbpos i hi)), hid _ (fun r hr => hlen a r (q7 r hr)), ← List.append_assoc]
    · rw [List.length_map, List.length_append, List.length_map, classRows_length hwf.1, q1, List.length_append, List.length_map, q6, hl]
  · have := (hg.grown hp (by rw [List.length_map]; omega)).backward (X := X)
    rw [List.map_map] at this
    have e2 : rest.map (dsBackward d X ∘ dsForward d X) = rest := by
      conv_rhs => rw [← List.map_id rest]
      exact List.map_congr_left (fun r hr => dsBackward_forward (hlen a r (q7 r hr)))
    rwa [e2] at this
  · rw [List.map_map]
    have e2 : new.map (dsForward d X ∘ dsBackward d X) = new := by
      conv_rhs => rw [← List.map_id new]
      exact List.map_congr_left (fun r hr => dsForward_backward (hnl r hr))
    rw [e2]
    exact hg.chosen

/-- **Too few rows left.** If rows are requested and fewer than three minority rows remain the call raises (with one column it yields
NaN). -/
theorem C83_too_few {par : DsParams} {fn : DsFun} {dist : Row → Row → ℚ} {pick : Nat → Nat → Nat → Nat × Nat × Nat} {d : Nat} {X : List Row}
    {y : List Int} {a b : Int} (hwf : WF d X y) (hmin : IsMinority y a b) (hr0 : 0 ≤ par.rate) (hr1 : par.rate ≤ 1) (h2 : 2 < y.count a)
    (h3 : y.count a - givenAway par.rate (y.count a) < 3) (hn : 0 < requested par.proportion (y.count b) (y.count a)) :
    sample defaultChecks d (dsmoteAlg par fn dist pick d) X y = if d = 1 then .error .nan else .error .valueError := by
  obtain ⟨pos, rest, q1, q2, q3, q4, q5, q6, q7, q8⟩ := dsmoteAlg_eq (fn := fn) (dist := dist) (pick := pick) hwf hmin h2 hr0 hr1 hn
  rw [q8]
  obtain ⟨n, hn'⟩ : ∃ n, requested par.proportion (y.count b) (y.count a) = n + 1 := ⟨_, (Nat.succ_pred_eq_of_pos hn).symm⟩
  rw [hn']
  simp only
  unfold dsLoop
  rw [dsGenerate_none (by rw [List.length_map]; omega), ok_bind]
  by_cases h1 : d = 1
  · simp only [h1, if_true]; rfl
  · simp only [h1, if_false]; rfl

/-- **Without a request nothing is given away.** -/
theorem C83_none {par : DsParams} {fn : DsFun} {dist : Row → Row → ℚ} {pick : Nat → Nat → Nat → Nat × Nat × Nat} {d : Nat} {X : List Row}
    {y : List Int} {a b : Int} (hmin : IsMinority y a b) (hn : requested par.proportion (y.count b) (y.count a) = 0) :
    sample defaultChecks d (dsmoteAlg par fn dist pick d) X y = .ok (X, y) := by
  obtain ⟨s, hs, rfl, rfl⟩ := stats_of_isMinority hmin
  obtain ⟨hm, hM, hab⟩ := stats_min_mem hs
  rw [sample_default hs]
  split
  · rfl
  · unfold dsmoteAlg
    rw [stats_count hs hm, stats_count hs hM, detN_eq_requested, ok_bind, if_pos hn]
    rfl

/-- **The classes are not balanced**: with proportion 1 the majority class comes back with `r` rows more and the minority class with `r`
rows fewer than the majority class had. -/
theorem C83_gap {par : DsParams} {fn : DsFun} {dist : Row → Row → ℚ} {pick : Nat → Nat → Nat → Nat × Nat × Nat} {d : Nat} {X : List Row}
    {y : List Int} {a b : Int} (hwf : WF d X y) (hmin : IsMinority y a b) (hfn : fn.OK) (hp : PickThree pick) (hr0 : 0 ≤ par.rate)
    (hr1 : par.rate ≤ 1) (hstep : 1 ≤ par.nStep) (h3 : 3 ≤ y.count a - givenAway par.rate (y.count a))
    (hdiff : ∃ p ∈ classRows X y b, ∃ q ∈ classRows X y b, p ≠ q) (hpr : par.proportion = 1) (hlt : y.count a < y.count b) :
    ∃ X' y', sample defaultChecks d (dsmoteAlg par fn dist pick d) X y = .ok (X', y') ∧
      y'.count b = y.count b + givenAway par.rate (y.count a) ∧ y'.count a = y.count b - givenAway par.rate (y.count a) := by
  have hreq : requested par.proportion (y.count b) (y.count a) = y.count b - y.count a := by
    unfold requested
    rw [hpr, mul_one, ← Nat.cast_sub hlt.le, Int.floor_natCast, Int.toNat_natCast]
  obtain ⟨pos, rest, new, e, _⟩ := C83_dsmote hwf hmin hfn hp (dist := dist) hr0 hr1 hstep h3 hdiff (by rw [hreq]; omega)
  have hne := hmin.ne
  refine ⟨_, _, e, ?_, ?_⟩
  · rw [List.count_append, List.count_replicate_self, List.count_replicate, if_neg (by simpa using hne), Nat.add_zero]
  · rw [List.count_append, List.count_replicate_self, List.count_replicate, if_neg (by simpa using Ne.symm hne), Nat.zero_add, hreq]
    omega

/-! ## Examples -/

/-- Rational stand-ins: the arithmetic mean lies between the least and the largest. -/
def dsFun : DsFun := { sqrt := fun x => if 0 < x then x else 0, exp := fun x => x, log := fun x => x, gmean := fun a b c => (a + b + c) / 3 }

theorem dsFun_ok : dsFun.OK := by
  refine ⟨fun x => ?_, fun x hx => ?_, fun a b c ha hb hc => ?_⟩
  · unfold dsFun; dsimp only; split <;> linarith
  · unfold dsFun; dsimp only; rw [if_pos hx]; exact hx
  · unfold dsFun
    dsimp only
    have h1 := min_le_left (min a b) c
    have h2 := min_le_right (min a b) c
    have h3 := min_le_left a b
    have h4 := min_le_right a b
    have h5 := le_max_left (max a b) c
    have h6 := le_max_right (max a b) c
    have h7 := le_max_left a b
    have h8 := le_max_right a b
    constructor <;> linarith

def dsPick (_t k n : Nat) : Nat × Nat × Nat := (k % n, (k + 1) % n, (k + 2) % n)

theorem dsPick_ok : PickThree dsPick := by
  intro t k n hn
  have hk := Nat.mod_lt k (show 0 < n by omega)
  have e1 : (k + 1) % n = if k % n + 1 < n then k % n + 1 else 0 := by
    rw [← Nat.mod_add_mod]
    split
    · exact Nat.mod_eq_of_lt ‹_›
    · rw [show k % n + 1 = n by omega, Nat.mod_self]
  have e2 : (k + 2) % n = if k % n + 2 < n then k % n + 2 else k % n + 2 - n := by
    rw [← Nat.mod_add_mod]
    split
    · exact Nat.mod_eq_of_lt ‹_›
    · rw [Nat.mod_eq_sub_mod (by omega), Nat.mod_eq_of_lt (by omega)]
  unfold dsPick
  dsimp only
  rw [e1, e2]
  split <;> split <;> refine ⟨hk, ?_, ?_, ?_, ?_, ?_⟩ <;> omega

def dsX : List Row := [[0, 0], [1, 0], [0, 1], [9, 9], [5, 5], [6, 5], [5, 6], [6, 6], [7, 7], [8, 8]]
def dsY : List Int := [1, 1, 1, 1, 0, 0, 0, 0, 0, 0]

example : WF 2 dsX dsY ∧ IsMinority dsY 1 0 ∧ dsFun.OK ∧ PickThree dsPick ∧ 3 ≤ dsY.count 1 - givenAway (1 / 4) (dsY.count 1) ∧
    (∃ p ∈ classRows dsX dsY 0, ∃ q ∈ classRows dsX dsY 0, p ≠ q) ∧ 0 < requested 1 (dsY.count 0) (dsY.count 1) :=
  ⟨⟨by decide, by decide +kernel⟩, ⟨by decide, by decide, by decide, Or.inl (by decide)⟩, dsFun_ok, dsPick_ok, by decide +kernel,
    ⟨[5, 5], by decide +kernel, [6, 5], by decide +kernel, by decide +kernel⟩, by decide +kernel⟩

/-- **A minority row is given away**: the row `(9, 9)` comes back with the majority label, and after oversampling with proportion 1 there
are seven majority rows and five minority rows. -/
theorem C83_relabelled : sample defaultChecks 2 (dsmoteAlg ⟨1, 1 / 4, 3⟩ dsFun sqDist dsPick 2) dsX dsY =
      .ok ([[5, 5], [6, 5], [5, 6], [6, 6], [7, 7], [8, 8], [9, 9], [0, 0], [1, 0], [0, 1], [1 / 3, 1 / 3], [1 / 9, 4 / 9]],
        [0, 0, 0, 0, 0, 0, 0, 1, 1, 1, 1, 1]) := by
  decide +kernel

/-- **It raises**: with rate 1/2 two of four minority rows are left. -/
example : 2 < dsY.count 1 ∧ dsY.count 1 - givenAway (1 / 2) (dsY.count 1) < 3 ∧ 0 < requested 1 (dsY.count 0) (dsY.count 1) := by
  decide +kernel

end Verif

import Verif.Lemmas.SamplerTotal

/-!
# C06 Deterministic simplex selection returns exactly the requested number of picks
-/

namespace Verif

/-- For every probability vector `p` and every `n`, `deterministic_sample` succeeds (its assertion never
fails) and returns exactly `n` picks; entry `i` is picked at most `⌈n p_i⌉` times and at least
`⌈n p_i⌉ - 1` times; every pick is a valid position of positive probability. -/
theorem C06_exact_picks {p : List ℚ} (n : Nat) (h0 : ∀ x ∈ p, 0 ≤ x) (h1 : p.sum = 1) :
    ∃ sel, deterministicSample n p = .ok sel ∧ sel.length = n ∧
      (∀ i x, p[i]? = some x → (sel.count i : ℤ) ≤ ⌈(n : ℚ) * x⌉ ∧ ⌈(n : ℚ) * x⌉ - 1 ≤ sel.count i) ∧
      (∀ i ∈ sel, ∃ x, p[i]? = some x ∧ 0 < x) := by
  obtain ⟨sel, hsel, hl, hpos⟩ := deterministicSample_ok (n := n) h0 h1
  refine ⟨sel, hsel, hl, ?_, hpos⟩
  have hq0 : ∀ x ∈ p.map (fun x => (n : ℚ) * x), 0 ≤ x := by
    intro x hx
    rw [List.mem_map] at hx
    obtain ⟨y, hy, rfl⟩ := hx
    exact mul_nonneg (by positivity) (h0 y hy)
  have hqs : (p.map (fun x => (n : ℚ) * x)).sum = n := by rw [sum_map_const_mul, h1, mul_one]
  obtain ⟨c, hc, _, hf⟩ := deterministicCounts_ok (n := n) hq0 (by rw [hqs]; linarith)
    (by rw [hqs]; linarith)
  intro i x hx
  unfold deterministicSample at hsel
  rw [hc, ok_bind] at hsel
  unfold countsToVector at hsel
  split at hsel
  · simp at hsel
  · injection hsel with hsel
    have hcount := count_expand c 0 i
    rw [hsel] at hcount
    simp only [zero_add] at hcount
    have hip : i < p.length := (List.getElem?_eq_some_iff.1 hx).1
    have hlen := hf.length_eq
    rw [List.length_map] at hlen
    have hic : i < c.length := by omega
    rw [List.forall₂_iff_get] at hf
    have := hf.2 i (by simpa using hip) hic
    simp only [List.get_eq_getElem, List.getElem_map] at this
    have hpx : p[i] = x := (List.getElem?_eq_some_iff.1 hx).2
    rw [hpx] at this
    rw [hcount, List.getElem?_eq_getElem hic, Option.getD_some]
    omega

/-- The exactness does not depend on exact arithmetic: it holds for every vector of non-negative
products `q_i ≈ n * p_i` whose total is within one of `n` (floating point rounding included). -/
theorem C06_robust_counts {n : Nat} {q : List ℚ} (h0 : ∀ x ∈ q, 0 ≤ x)
    (hlo : (n : ℚ) - 1 < q.sum) (hhi : q.sum ≤ (n : ℚ) + 1) :
    ∃ c, deterministicCounts n q = .ok c ∧ c.sum = n ∧
      List.Forall₂ (fun x (t : Int) => 0 ≤ t ∧ t ≤ ⌈x⌉ ∧ ⌈x⌉ - 1 ≤ t) q c :=
  deterministicCounts_ok h0 hlo hhi

/-- Without a total close to `n` the call fails instead of returning a wrong number of picks: whatever
is returned has exactly `n` elements, for every input. -/
theorem C06_result_length {n : Nat} {p : List ℚ} {sel : List Nat}
    (h : deterministicSample n p = .ok sel) : sel.length = n := deterministicSample_length h

/-- Non-vacuity. -/
example : (∀ x ∈ [(1:ℚ)/3, 1/3, 1/3, 0], 0 ≤ x) ∧ [(1:ℚ)/3, 1/3, 1/3, 0].sum = 1 ∧
    deterministicSample 5 [1/3, 1/3, 1/3, 0] = .ok [0, 1, 1, 2, 2] := by decide +kernel

end Verif

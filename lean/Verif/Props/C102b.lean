import Verif.Props.C102

/-!
# C102, continued: where the particles of SMOTE_PSOBAT go
-/

namespace Verif

theorem pbReduce_abs {r : ℚ} (hr : 0 < r) (v : ℚ) : |pbReduce r v| ≤ r := by
  unfold pbReduce
  split
  · rename_i h
    have h1 : |v| / r ≤ (⌈|v| / r⌉ : ℚ) := Int.le_ceil _
    have h2 : (0 : ℚ) < (⌈|v| / r⌉ : ℚ) := by linarith
    rw [abs_div, abs_of_pos h2, div_le_iff₀ h2]
    rw [div_le_iff₀ hr] at h1
    linarith
  · rename_i h
    rw [not_lt, div_le_iff₀ hr] at h
    linarith

theorem pbReduce_small {r v : ℚ} (hr : 0 < r) (h : |v| ≤ r) : pbReduce r v = v := by
  unfold pbReduce
  rw [if_neg]
  rw [not_lt, div_le_iff₀ hr]
  linarith

/-- One coordinate of the move without momentum: a weighted mean of three numbers of an interval. -/
theorem pull_mem {lo hi x b g c2 c3 : ℚ} (h2 : 0 ≤ c2) (h3 : 0 ≤ c3) (h23 : c2 + c3 ≤ 1) (hx : lo ≤ x ∧ x ≤ hi) (hb : lo ≤ b ∧ b ≤ hi)
    (hg : lo ≤ g ∧ g ≤ hi) :
    (lo ≤ (1 - c2 - c3) * x + c2 * b + c3 * g ∧ (1 - c2 - c3) * x + c2 * b + c3 * g ≤ hi) ∧ |(b - x) * c2 + (g - x) * c3| ≤ hi - lo := by
  have h1 : 0 ≤ 1 - c2 - c3 := by linarith
  have hlo : lo ≤ (1 - c2 - c3) * x + c2 * b + c3 * g := by
    nlinarith [mul_nonneg h1 (sub_nonneg.2 hx.1), mul_nonneg h2 (sub_nonneg.2 hb.1), mul_nonneg h3 (sub_nonneg.2 hg.1)]
  have hhi : (1 - c2 - c3) * x + c2 * b + c3 * g ≤ hi := by
    nlinarith [mul_nonneg h1 (sub_nonneg.2 hx.2), mul_nonneg h2 (sub_nonneg.2 hb.2), mul_nonneg h3 (sub_nonneg.2 hg.2)]
  refine ⟨⟨hlo, hhi⟩, ?_⟩
  have he : (b - x) * c2 + (g - x) * c3 = ((1 - c2 - c3) * x + c2 * b + c3 * g) - x := by ring
  rw [he, abs_le]
  constructor <;> linarith [hx.1, hx.2]

theorem pbClip_id {lo hi x : ℚ} (h1 : lo ≤ x) (h2 : x ≤ hi) : pbClip lo hi x = x := by
  unfold pbClip
  rw [max_eq_left h1, min_eq_left h2]

/-- **C102, the moves.** In every iteration every particle moves, in each coordinate, by at most the width of the range and stays in the range.
Without momentum (`c1 = 0`), if the two attractions add up to at most one, its new position is the mean of where it was, its own best and the best
of the swarm, with the weights `1 - c2 - c3`, `c2` and `c3`. -/
theorem C102_moves {f : Nat → ℚ → Option ℚ × ℚ} {par : PbParams} {hi : Nat} (hh : 1 < hi) {st : PbSwarm} {i : Nat} {p : PbParticle}
    (hp : st.parts[i]? = some p) :
    ∃ q, (pbPsoStep f par hi st).1.parts[i]? = some q ∧ q.x.InRange hi ∧ |q.v.1| ≤ (hi : ℚ) - 1 ∧ |q.v.2| ≤ 19 / 10 ∧
      (par.c1 = 0 → 0 ≤ par.c2 → 0 ≤ par.c3 → par.c2 + par.c3 ≤ 1 → p.x.InRange hi → q.best.InRange hi →
        (pbPsoStep f par hi st).1.gbest.InRange hi →
        q.x.k = (1 - par.c2 - par.c3) * p.x.k + par.c2 * q.best.k + par.c3 * (pbPsoStep f par hi st).1.gbest.k ∧
        q.x.prop = (1 - par.c2 - par.c3) * p.x.prop + par.c2 * q.best.prop + par.c3 * (pbPsoStep f par hi st).1.gbest.prop) := by
  have hr : (0 : ℚ) < (hi : ℚ) - 1 := by
    have : (1 : ℚ) < hi := by exact_mod_cast hh
    linarith
  have hr2 : (0 : ℚ) < 2 - 1 / 10 := by norm_num
  have hlx : (pbLocal p (pbEval f p.x)).x = p.x := by
    unfold pbLocal
    split
    · rfl
    · split <;> rfl
  refine ⟨pbMove par hi (pbPsoStep f par hi st).1.gbest (pbLocal p (pbEval f p.x)), ?_, ?_, ?_, ?_, ?_⟩
  · simp [pbPsoStep, hp]
  · exact comboClip_inRange hh.le _
  · exact pbReduce_abs hr _
  · have := pbReduce_abs hr2 (par.c1 * (pbLocal p (pbEval f p.x)).v.2 +
      ((pbLocal p (pbEval f p.x)).best.prop - (pbLocal p (pbEval f p.x)).x.prop) * par.c2 +
      ((pbPsoStep f par hi st).1.gbest.prop - (pbLocal p (pbEval f p.x)).x.prop) * par.c3)
    refine le_trans this (by norm_num)
  · generalize (pbPsoStep f par hi st).1.gbest = g
    intro h1 h2 h3 h23 hx hb hg
    have hb' : (pbLocal p (pbEval f p.x)).best.InRange hi := hb
    obtain ⟨⟨k1, k2⟩, k3⟩ := pull_mem h2 h3 h23 ⟨hx.1, hx.2.1⟩ ⟨hb'.1, hb'.2.1⟩ ⟨hg.1, hg.2.1⟩
    obtain ⟨⟨r1, r2⟩, r3⟩ := pull_mem h2 h3 h23 ⟨hx.2.2.1, hx.2.2.2⟩ ⟨hb'.2.2.1, hb'.2.2.2⟩ ⟨hg.2.2.1, hg.2.2.2⟩
    unfold pbMove comboClip
    simp only [h1, zero_mul, zero_add, hlx]
    rw [pbReduce_small hr k3, pbReduce_small hr2 r3]
    constructor
    · rw [← pbClip_id k1 k2]
      congr 1
      ring
    · rw [← pbClip_id r1 r2]
      congr 1
      ring

/-- Non-vacuity: a particle at (1, 1) whose swarm has its best at (3, 2); a half of the way is made. -/
example :
    let f : Nat → ℚ → Option ℚ × ℚ := fun _ _ => (some 0, 1 / 2)
    let st : PbSwarm := ⟨[⟨⟨1, 1⟩, (0, 0), ⟨1, 1⟩, 0, 0⟩], ⟨3, 2⟩, 1, 1⟩
    1 < 5 ∧ st.parts[0]?.isSome ∧ ((pbPsoStep f ⟨1, 0, 1 / 4, 1 / 2, .pso, 1, 5⟩ 5 st).1.parts.map (fun q => (q.x.k, q.x.prop))) = [(2, 3 / 2)] := by
  decide +kernel

end Verif

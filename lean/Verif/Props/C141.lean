import Verif.Spec.Xmeans
import Verif.Props.C109
import Mathlib.Algebra.BigOperators.Group.Finset.Basic
import Mathlib.Tactic.Linarith
import Mathlib.Tactic.Ring
import Mathlib.Tactic.FieldSimp
import Mathlib.Tactic.Positivity
import Mathlib.Tactic.NormNum

/-! C141: ADG takes the clustering with the lowest criterion of Schwarz, which is the worst one. -/

namespace Verif

theorem xm_listRange_sum {M : Type} [AddCommMonoid M] (f : Nat → M) (k : Nat) :
    ((List.range k).map f).sum = ∑ i ∈ Finset.range k, f i := rfl

theorem xm_partition_sum (g : Nat → Row → ℚ) (k : Nat) : ∀ (P : List (Row × Nat)), (∀ p ∈ P, p.2 < k) →
    ((List.range k).map (fun j => ((P.filter (fun p => p.2 = j)).map (fun p => g j p.1)).sum)).sum =
      (P.map (fun p => g p.2 p.1)).sum
  | [], _ => by simp
  | p :: P, h => by
    have ih := xm_partition_sum g k P (fun q hq => h q (List.mem_cons_of_mem _ hq))
    have hp := h p (List.mem_cons_self ..)
    have e : ∀ j, (((p :: P).filter (fun q => q.2 = j)).map (fun q => g j q.1)).sum =
        (if p.2 = j then g j p.1 else 0) + ((P.filter (fun q => q.2 = j)).map (fun q => g j q.1)).sum := by
      intro j
      by_cases hj : p.2 = j <;> simp [hj]
    rw [xm_listRange_sum] at ih ⊢
    rw [Finset.sum_congr rfl (fun j _ => e j), Finset.sum_add_distrib, ih, Finset.sum_ite_eq]
    simp [hp]

theorem xm_toFinset {cl : Clustering} {X : List Row} {k : Nat} (h : cl.Partitions X k) :
    cl.labels.toFinset = Finset.range k := by
  ext i; simp [h.used i]

theorem xm_used {cl : Clustering} {X : List Row} {k : Nat} (h : cl.Partitions X k) : cl.used = k := by
  rw [Clustering.used, ← List.card_toFinset, xm_toFinset h, Finset.card_range]

theorem xm_zip_snd {cl : Clustering} {X : List Row} {k : Nat} (h : cl.Partitions X k) :
    (X.zip cl.labels).map Prod.snd = cl.labels :=
  List.map_snd_zip (by rw [h.len])

theorem xm_variance {cl : Clustering} {X : List Row} {k : Nat} (h : cl.Partitions X k) :
    cl.variance X = pooledVariance cl X k (X.headD []).length := by
  have e := xm_partition_sum (fun j x => cl.offset x j) k (X.zip cl.labels) (fun p hp => by
    have : p.2 ∈ (X.zip cl.labels).map Prod.snd := List.mem_map_of_mem hp
    rw [xm_zip_snd h] at this
    exact (h.used _).1 this)
  rw [pooledVariance, ← e, Clustering.variance, xm_used h, one_div, div_eq_inv_mul]
  rfl

theorem xm_sum_labels {cl : Clustering} {X : List Row} {k : Nat} (h : cl.Partitions X k) (f : Nat → ℝ) :
    (cl.labels.map f).sum = ∑ j ∈ Finset.range k, (cl.labels.count j : ℝ) * f j := by
  rw [Finset.sum_list_map_count, xm_toFinset h]
  exact Finset.sum_congr rfl (fun j _ => by rw [nsmul_eq_mul])

theorem xm_count_sum {cl : Clustering} {X : List Row} {k : Nat} (h : cl.Partitions X k) :
    ∑ j ∈ Finset.range k, (cl.labels.count j : ℝ) = X.length := by
  have := xm_sum_labels h (fun _ => 1)
  simp only [List.map_const', List.sum_replicate, mul_one, nsmul_eq_mul, h.len] at this
  exact this.symm

theorem xm_idxs {cl : Clustering} {X : List Row} {k : Nat} (h : cl.Partitions X k) :
    (List.range k).filter (fun i => 0 < cl.labels.count i) = List.range k := by
  rw [List.filter_eq_self]
  intro i hi
  simpa [List.count_pos_iff] using (h.used i).2 (List.mem_range.1 hi)

/-- The score in closed form. -/
theorem xm_closed {cl : Clustering} {X : List Row} {k : Nat} (h : cl.Partitions X k)
    (hV : pooledVariance cl X k (X.headD []).length ≠ 0) :
    bicScore cl X = some ((∑ j ∈ Finset.range k, (cl.labels.count j : ℝ) * Real.log (cl.labels.count j)) -
      X.length * Real.log X.length -
      (X.length : ℝ) * (X.headD []).length / 2 *
        Real.log (2 * Real.pi * (pooledVariance cl X k (X.headD []).length : ℚ)) -
      ((X.length : ℝ) - k) * (X.headD []).length / 2 -
      1 / 2 * k * Real.log X.length * (((X.headD []).length : ℝ) + 1)) := by
  rw [bicScore]
  simp only [xm_variance h, xm_used h, xm_idxs h, hV, false_and, if_false]
  congr 2
  rw [xm_listRange_sum]
  simp only [bicComp, Finset.sum_sub_distrib, div_eq_mul_inv, ← Finset.sum_mul, Finset.sum_sub_distrib, xm_count_sum h]
  simp

theorem xm_loglik {cl : Clustering} {X : List Row} {k : Nat} (h : cl.Partitions X k) (hk : k < X.length)
    (hd : X.headD [] ≠ []) (hV : 0 < pooledVariance cl X k (X.headD []).length) :
    clusterLogLikelihood cl X (X.headD []).length (pooledVariance cl X k (X.headD []).length : ℚ) =
      (∑ j ∈ Finset.range k, (cl.labels.count j : ℝ) * Real.log (cl.labels.count j)) -
      X.length * Real.log X.length -
      (X.length : ℝ) * (X.headD []).length / 2 *
        Real.log (2 * Real.pi * (pooledVariance cl X k (X.headD []).length : ℚ)) -
      ((X.length : ℝ) - k) * (X.headD []).length / 2 := by
  have hd' : 0 < (X.headD []).length := List.length_pos_of_ne_nil hd
  generalize hdd : (X.headD []).length = d at *
  have hVe : pooledVariance cl X k d = ((X.zip cl.labels).map (fun p => cl.offset p.1 p.2)).sum /
    (((X.length : ℚ) - k) * d) := rfl
  generalize pooledVariance cl X k d = V at *
  have hVr : (0 : ℝ) < (V : ℝ) := by exact_mod_cast hV
  have hN : (0 : ℝ) < X.length := by exact_mod_cast (Nat.zero_le k).trans_lt hk
  have hNk : (0 : ℚ) < (X.length : ℚ) - k := by
    have : (k : ℚ) < X.length := by exact_mod_cast hk
    linarith
  have hS : ((X.zip cl.labels).map (fun p => cl.offset p.1 p.2)).sum = V * (((X.length : ℚ) - k) * d) := by
    rw [hVe]
    have : (0 : ℚ) < d := by exact_mod_cast hd'
    field_simp
  have hpi : (0 : ℝ) < 2 * Real.pi * V := by have := Real.pi_pos; positivity
  have e1 : ∀ p ∈ X.zip cl.labels, Real.log ((cl.labels.count p.2 : ℝ) / X.length * roundGaussian d V (cl.offset p.1 p.2)) =
      (Real.log (cl.labels.count p.2) - Real.log X.length - (d : ℝ) / 2 * Real.log (2 * Real.pi * V)) +
        -(1 / (2 * (V : ℝ))) * ((cl.offset p.1 p.2 : ℚ) : ℝ) := by
    intro p hp
    have hm : p.2 ∈ (X.zip cl.labels).map Prod.snd := List.mem_map_of_mem hp
    rw [xm_zip_snd h] at hm
    have hc : (0 : ℝ) < cl.labels.count p.2 := by exact_mod_cast List.count_pos_iff.2 hm
    rw [roundGaussian, Real.log_mul (by positivity) (by positivity), Real.log_mul (by positivity) (by positivity),
      Real.log_div (by positivity) (by positivity), Real.log_rpow hpi, Real.log_exp]
    ring
  have e2 : (((X.zip cl.labels).map (fun p => ((cl.offset p.1 p.2 : ℚ) : ℝ))).sum) = (V : ℝ) * (((X.length : ℝ) - k) * d) := by
    have := congrArg (fun q : ℚ => (q : ℝ)) hS
    simp only [Rat.cast_list_sum, List.map_map, Rat.cast_mul, Rat.cast_sub, Rat.cast_natCast] at this
    exact this
  rw [clusterLogLikelihood, List.map_congr_left e1, List.sum_map_add, List.sum_map_mul_left, e2]
  have e3 : ((X.zip cl.labels).map (fun p => Real.log (cl.labels.count p.2) - Real.log X.length -
      (d : ℝ) / 2 * Real.log (2 * Real.pi * V))).sum =
      (cl.labels.map (fun l => Real.log (cl.labels.count l) - Real.log X.length -
      (d : ℝ) / 2 * Real.log (2 * Real.pi * V))).sum := by
    conv_rhs => rw [← xm_zip_snd h]
    rw [List.map_map]
    rw [xm_zip_snd h]
    rfl
  rw [e3, xm_sum_labels h]
  simp only [mul_sub, Finset.sum_sub_distrib, ← Finset.sum_mul, xm_count_sum h]
  field_simp
  ring

/-- C141: the score ADG computes for a clustering is the criterion of Schwarz: the log-likelihood of the rows in the mixture of round
Gaussians around the centres, minus the penalty for the parameters. It is larger for the better clustering. A clustering without any
variance has the score infinity. -/
theorem C141_score (cl : Clustering) (X : List Row) (k : Nat) (h : cl.Partitions X k) (hk : k < X.length) (hd : X.headD [] ≠ []) :
    (0 < pooledVariance cl X k (X.headD []).length → bicScore cl X = some (schwarz cl X k (X.headD []).length)) ∧
    (pooledVariance cl X k (X.headD []).length = 0 → bicScore cl X = none) := by
  constructor
  · intro hV
    rw [xm_closed h hV.ne', schwarz, xm_loglik h hk hd hV]
    congr 2
    push_cast
    ring
  · intro hV
    have hk0 : 0 < k := by
      rcases Nat.eq_zero_or_pos k with rfl | h0
      · have : cl.labels = [] := List.eq_nil_iff_forall_not_mem.2 (fun i hi => by simpa using (h.used i).1 hi)
        have := h.len
        simp_all
      · exact h0
    rw [bicScore]
    simp only [xm_variance h, xm_used h, xm_idxs h, hV, true_and]
    rw [if_pos]
    simp [hk0.ne']

/-- `a` is at most `b`, where `none` is infinity. -/
def bicLe : Option ℝ → Option ℝ → Prop
  | some a, some b => a ≤ b
  | none, some _ => False
  | _, none => True

theorem bicLe_refl (a : Option ℝ) : bicLe a a := by cases a <;> simp [bicLe]
theorem bicLe_trans {a b c : Option ℝ} (h : bicLe a b) (h' : bicLe b c) : bicLe a c := by
  cases a <;> cases b <;> cases c <;> simp_all [bicLe]
  exact h.trans h'
theorem bicLe_of_less {a b : Option ℝ} (h : bicLess a b) : bicLe a b := by
  cases a <;> cases b <;> simp_all [bicLe, bicLess]
  exact h.le
theorem bicLe_of_not_less {a b : Option ℝ} (h : ¬ bicLess a b) : bicLe b a := by
  cases a <;> cases b <;> simp_all [bicLe, bicLess]

theorem xmeansLoop_least (fit : Nat → Clustering) (X : List Row) : ∀ (cs : List Nat) (best : Option ℝ × Option Nat),
    bicLe (xmeansLoop fit X cs best).1 best.1 ∧ (∀ c ∈ cs, bicLe (xmeansLoop fit X cs best).1 (bicScore (fit c) X)) ∧
    (xmeansLoop fit X cs best = best ∨
      ∃ c ∈ cs, xmeansLoop fit X cs best = (bicScore (fit c) X, some c) ∧ bicScore (fit c) X ≠ none)
  | [], best => ⟨bicLe_refl _, by simp, Or.inl rfl⟩
  | c :: cs, best => by
    rw [xmeansLoop]
    by_cases hl : bicLess (bicScore (fit c) X) best.1
    · rw [if_pos hl]
      obtain ⟨h1, h2, h3⟩ := xmeansLoop_least fit X cs (bicScore (fit c) X, some c)
      refine ⟨bicLe_trans h1 (bicLe_of_less hl), ?_, ?_⟩
      · intro c' hc'
        rcases List.mem_cons.1 hc' with rfl | hc'
        · exact h1
        · exact h2 c' hc'
      · right
        rcases h3 with h3 | ⟨c', hc', h3⟩
        · refine ⟨c, List.mem_cons_self .., h3, ?_⟩
          intro hn
          rw [hn] at hl
          exact hl
        · exact ⟨c', List.mem_cons_of_mem _ hc', h3⟩
    · rw [if_neg hl]
      obtain ⟨h1, h2, h3⟩ := xmeansLoop_least fit X cs best
      refine ⟨h1, ?_, ?_⟩
      · intro c' hc'
        rcases List.mem_cons.1 hc' with rfl | hc'
        · exact bicLe_trans h1 (bicLe_of_not_less hl)
        · exact h2 c' hc'
      · rcases h3 with h3 | ⟨c', hc', h3⟩
        · exact Or.inl h3
        · exact Or.inr ⟨c', List.mem_cons_of_mem _ hc', h3⟩

theorem xm_mem_range {n c : Nat} : c ∈ List.range' 1 (min 10 n - 1) ↔ 1 ≤ c ∧ c < 10 ∧ c < n := by
  rw [List.mem_range'_1]; omega

/-- C141: ADG takes the number of clusters, below 10 and below the number of rows, whose score is finite and the lowest of all. It finds
none exactly if all scores are infinite (or there are fewer than two rows). -/
theorem C141_lowest (fit : Nat → Clustering) (X : List Row) :
    (∀ c, xmeans fit X = some c → (1 ≤ c ∧ c < 10 ∧ c < X.length) ∧ ∃ s, bicScore (fit c) X = some s ∧
      ∀ c' s', 1 ≤ c' → c' < 10 → c' < X.length → bicScore (fit c') X = some s' → s ≤ s') ∧
    (xmeans fit X = none ↔ ∀ c, 1 ≤ c → c < 10 → c < X.length → bicScore (fit c) X = none) := by
  obtain ⟨-, h2, h3⟩ := xmeansLoop_least fit X (List.range' 1 (min 10 X.length - 1)) (none, none)
  rw [xmeans]
  rcases h3 with h3 | ⟨c, hc, h3, hn⟩
  · rw [h3] at h2 ⊢
    refine ⟨by simp, ?_⟩
    simp only [true_iff]
    intro c a b d
    have := h2 c (xm_mem_range.2 ⟨a, b, d⟩)
    cases hs : bicScore (fit c) X with
    | none => rfl
    | some v => rw [hs] at this; exact absurd this (by simp [bicLe])
  · rw [h3] at h2 ⊢
    have hr := xm_mem_range.1 hc
    obtain ⟨s, hs⟩ := Option.ne_none_iff_exists'.1 hn
    constructor
    · intro c' hc'
      obtain rfl : c = c' := by simpa using hc'
      refine ⟨hr, s, hs, ?_⟩
      intro c'' s'' a b d e
      have := h2 c'' (xm_mem_range.2 ⟨a, b, d⟩)
      rw [hs, e] at this
      exact this
    · simp only [reduceCtorEq, false_iff]
      intro hall
      exact hn (hall c hr.1 hr.2.1 hr.2.2)

/-- C141: so of two clusterings which differ in the criterion of Schwarz, ADG never takes the better one. -/
theorem C141_never_better (fit : Nat → Clustering) (X : List Row) (hd : X.headD [] ≠ []) (a b : Nat)
    (ha : (fit a).Partitions X a) (hb : (fit b).Partitions X b) (ha1 : 1 ≤ a) (ha10 : a < 10) (haN : a < X.length) (hbN : b < X.length)
    (hVa : 0 < pooledVariance (fit a) X a (X.headD []).length) (hVb : 0 < pooledVariance (fit b) X b (X.headD []).length)
    (hbetter : schwarz (fit a) X a (X.headD []).length < schwarz (fit b) X b (X.headD []).length) :
    xmeans fit X ≠ some b := by
  intro hx
  obtain ⟨-, s, hs, hmin⟩ := (C141_lowest fit X).1 b hx
  rw [(C141_score _ X b hb hbN hd).1 hVb] at hs
  have := hmin a _ ha1 ha10 haN ((C141_score _ X a ha haN hd).1 hVa)
  rw [← Option.some.inj hs] at this
  linarith

theorem xm_entropy {cl : Clustering} {X : List Row} {k : Nat} (h : cl.Partitions X k) (hk : 0 < k) (hN : 0 < X.length) :
    (X.length : ℝ) * Real.log X.length - X.length * Real.log k ≤
      ∑ j ∈ Finset.range k, (cl.labels.count j : ℝ) * Real.log (cl.labels.count j) := by
  have hN' : (0 : ℝ) < X.length := by exact_mod_cast hN
  have hk' : (0 : ℝ) < k := by exact_mod_cast hk
  have hle : ∑ j ∈ Finset.range k, ((cl.labels.count j : ℝ) * (Real.log X.length - Real.log k) -
      (cl.labels.count j : ℝ) * Real.log (cl.labels.count j)) ≤
      ∑ j ∈ Finset.range k, ((X.length : ℝ) / k - cl.labels.count j) := by
    apply Finset.sum_le_sum
    intro j hj
    have hc : (0 : ℝ) < cl.labels.count j := by
      exact_mod_cast List.count_pos_iff.2 ((h.used j).2 (Finset.mem_range.1 hj))
    have hlog := Real.log_le_sub_one_of_pos (x := (X.length : ℝ) / k / cl.labels.count j) (by positivity)
    rw [Real.log_div (by positivity) (by positivity), Real.log_div (by positivity) (by positivity)] at hlog
    have := mul_le_mul_of_nonneg_left hlog hc.le
    have e : (cl.labels.count j : ℝ) * ((X.length : ℝ) / k / cl.labels.count j - 1) = (X.length : ℝ) / k - cl.labels.count j := by
      field_simp
    rw [e] at this
    linarith [this]
  rw [Finset.sum_sub_distrib, ← Finset.sum_mul, xm_count_sum h, Finset.sum_sub_distrib, xm_count_sum h, Finset.sum_const,
    Finset.card_range, nsmul_eq_mul, mul_div_cancel₀ _ hk'.ne'] at hle
  linarith [hle]

theorem xm_log_two_pow (n : Nat) (hn : 0 < n) : Real.log n ≤ n * Real.log 2 := by
  have : (n : ℝ) ≤ 2 ^ n := by exact_mod_cast Nat.lt_two_pow_self.le
  calc Real.log n ≤ Real.log (2 ^ n) := Real.log_le_log (by exact_mod_cast hn) this
    _ = n * Real.log 2 := by rw [Real.log_pow]

/-- C141: a division into `k ≥ 2` clusters which shrinks the variance of a single cluster by a factor of `16 ^ (k - 1)` or more, that is,
a division into well separated clusters, is never taken. -/
theorem C141_separated (fit : Nat → Clustering) (X : List Row) (hd : X.headD [] ≠ []) (k : Nat) (hk : 2 ≤ k) (hkN : k < X.length)
    (h1 : (fit 1).Partitions X 1) (h : (fit k).Partitions X k)
    (hV : 0 < pooledVariance (fit k) X k (X.headD []).length)
    (hsep : 16 ^ (k - 1) * pooledVariance (fit k) X k (X.headD []).length ≤ pooledVariance (fit 1) X 1 (X.headD []).length) :
    xmeans fit X ≠ some k := by
  intro hx
  obtain ⟨-, s, hs, hmin⟩ := (C141_lowest fit X).1 k hx
  have hV1 : 0 < pooledVariance (fit 1) X 1 (X.headD []).length := lt_of_lt_of_le (by positivity) hsep
  have hc1 := xm_closed h1 hV1.ne'
  have hle := hmin 1 _ (le_refl _) (by norm_num) (by omega) hc1
  rw [xm_closed h hV.ne'] at hs
  have hN : 0 < X.length := by omega
  have hent := xm_entropy h (by omega) hN
  have hone : (fit 1).labels.count 0 = X.length := by
    have := xm_count_sum h1
    simp only [Finset.range_one, Finset.sum_singleton] at this
    exact_mod_cast this
  rw [← Option.some.inj hs, Finset.range_one, Finset.sum_singleton, hone] at hle
  have hd' : 1 ≤ (X.headD []).length := List.length_pos_of_ne_nil hd
  generalize (X.headD []).length = d at *
  generalize hVk : pooledVariance (fit k) X k d = V at *
  generalize pooledVariance (fit 1) X 1 d = W at *
  obtain ⟨m, rfl⟩ : ∃ m, k = m + 1 := ⟨k - 1, by omega⟩
  have hVr : (0 : ℝ) < (V : ℝ) := by exact_mod_cast hV
  have hsep' : (16 : ℝ) ^ m * V ≤ W := by exact_mod_cast hsep
  have hpi := Real.pi_pos
  have hlogW : Real.log (2 * Real.pi * V) + m * (4 * Real.log 2) ≤ Real.log (2 * Real.pi * W) := by
    have e : Real.log (2 * Real.pi * ((16 : ℝ) ^ m * V)) = Real.log (2 * Real.pi * V) + m * (4 * Real.log 2) := by
      rw [show 2 * Real.pi * ((16 : ℝ) ^ m * V) = (2 * Real.pi * V) * 16 ^ m by ring, Real.log_mul (by positivity) (by positivity),
        Real.log_pow, show (16 : ℝ) = 2 ^ 4 by norm_num, Real.log_pow]
      norm_num
    rw [← e]
    exact Real.log_le_log (by positivity) (by nlinarith)
  have hlogN := xm_log_two_pow X.length hN
  have hlogk : Real.log ((m + 1 : Nat) : ℝ) ≤ m * Real.log 2 := by
    have : ((m + 1 : Nat) : ℝ) ≤ 2 ^ m := by exact_mod_cast Nat.lt_two_pow_self
    calc Real.log ((m + 1 : Nat) : ℝ) ≤ Real.log (2 ^ m) := Real.log_le_log (by positivity) this
      _ = m * Real.log 2 := by rw [Real.log_pow]
  have hl2 : 0 < Real.log 2 := Real.log_pos (by norm_num)
  have hNr : (0 : ℝ) < X.length := by exact_mod_cast hN
  have hdr : (1 : ℝ) ≤ d := by exact_mod_cast hd'
  have hm : (1 : ℝ) ≤ m := by
    have : 1 ≤ m := by omega
    exact_mod_cast this
  generalize (X.length : ℝ) = N at *
  generalize Real.log 2 = l at *
  generalize Real.log (2 * Real.pi * V) = LV at *
  generalize Real.log (2 * Real.pi * W) = LW at *
  generalize Real.log N = L at *
  generalize Real.log ((m + 1 : Nat) : ℝ) = Lk at *
  generalize (∑ j ∈ Finset.range (m + 1), _ : ℝ) = S at *
  push_cast at hle
  have a1 : N * d / 2 * (LV + m * (4 * l)) ≤ N * d / 2 * LW := mul_le_mul_of_nonneg_left hlogW (by positivity)
  have a2 : N * Lk ≤ N * (m * l) := mul_le_mul_of_nonneg_left hlogk hNr.le
  have a3 : (1 / 2 * m * (d + 1)) * L ≤ (1 / 2 * m * (d + 1)) * (N * l) := mul_le_mul_of_nonneg_left hlogN (by positivity)
  have a4 : 0 ≤ (d - 1) * (N * m * l) := mul_nonneg (by linarith) (by positivity)
  have a5 : 0 < (m : ℝ) * d / 2 := by positivity
  nlinarith [a1, a2, a3, a4, a5, hle, hent]

/-- C141: when all scores are infinite a round of ADG fails with `AttributeError`. -/
theorem C141_none (env : AdgEnv) (par : AdgParams) (a : Int) (d t q : Nat) (st : AdgState)
    (hinf : ∀ c, 1 ≤ c → c < st.hat.length → env.kbic d c st.hat = .posInf) :
    adgTurn env par a d t q st = .error .attributeError := by
  rw [adgTurn, adgPick_none hinf]

/-- Two pairs of rows far from each other, as one cluster and as two. -/
def xmRows : List Row := [[0], [1], [100], [101]]
/-- The clusterings of `xmRows` into one and into two clusters. -/
def xmFit (c : Nat) : Clustering :=
  if c = 2 then ⟨[0, 0, 1, 1], [[1 / 2], [201 / 2]]⟩ else if c = 3 then ⟨[0, 1, 2, 2], [[0], [1], [201 / 2]]⟩ else ⟨[0, 0, 0, 0], [[101 / 2]]⟩

/-- C141: the two obvious clusters are not found. -/
example : xmeans xmFit xmRows ≠ some 2 :=
  C141_separated xmFit xmRows (by decide) 2 (by decide) (by decide)
    ⟨by decide, fun i => by simp [xmFit]⟩ ⟨by decide, fun i => by simp [xmFit]; omega⟩ (by decide +kernel) (by decide +kernel)

end Verif

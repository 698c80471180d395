import Verif.Model.Kernel
import Verif.Props.C88
import Verif.Props.C37
import Mathlib.Tactic.Linarith
import Mathlib.Tactic.Positivity

/-!
# C89: KernelADASYN
-/

namespace Verif

/-- The weighted density of Gaussian bumps at the rows, up to a constant factor. -/
def kernelDensity (ex : ℚ → ℚ) (h : ℚ) (rows : List Row) (w : List ℚ) (x : Row) : ℚ :=
  ((List.range rows.length).map (fun i => w.getD i 0 * ex (-(1 / 2) * sqDist x (rows.getD i []) / h))).sum

/-- The Metropolis chain: the `t`-th move is made if the number `u t` is less than the ratio of the densities. -/
def metropolis (p : Row → ℚ) (move : Nat → Row) (u : Nat → ℚ) (x₀ : Row) : Nat → Row
  | 0 => x₀
  | t + 1 =>
    let x := metropolis p move u x₀ t
    if u t * p x < p (Row.add x (move t)) then Row.add x (move t) else x

/-- The rows with a neighbour of the other class, by position. -/
def kernelEdge (table : List (List Nat)) (y : List Int) (b : Int) (m : Nat) : List Nat :=
  (List.range m).filter (fun i => decide (0 < labelledAround table y b i))

/-- The covariance matrix of rows with the mean `mu`. -/
def covOf (d : Nat) (rows : List Row) (mu : Row) : List Row :=
  (List.range d).map (fun i => (List.range d).map (fun j =>
    (rows.map (fun r => (r.getD i 0 - mu.getD i 0) * (r.getD j 0 - mu.getD j 0))).sum / ((rows.length : ℚ) - 1)))

/-- The product of the vector `z` and the matrix `L`. -/
def vecMat (d : Nat) (z : Row) (L : List Row) : Row :=
  (List.range d).map (fun j => ((List.range (min z.length L.length)).map (fun k => z.getD k 0 * (L.getD k []).getD j 0)).sum)

/-- The result of `KernelADASYN` for data with `d` columns: the rows and the number of new labels. `few`: fewer than two minority rows
have a majority neighbour. `flat`: the covariance matrix of these rows is ill-conditioned and there are two columns. `reduce`: it is
ill-conditioned and there are more; the algorithm is run on about half as many columns and the result is transformed back. `sampled`: the
rows are those of a Metropolis chain, one in every `periods` after the first `burnIn`. -/
inductive KernelOutcome (env : KaEnv) (par : KaParams) (y : List Int) (a b : Int) : Nat → List Row → List Row → Nat → Prop
  | few {d : Nat} {X : List Row} {A : List Row} {table : List (List Nat)} (hA : A = classRows X y a)
      (ht : table = env.knn (min A.length (par.k + 1)) X A) (hfew : (kernelEdge table y b A.length).length < 2) :
      KernelOutcome env par y a b d X X 0
  | flat {X : List Row} {A E : List Row} {mu : Row} {table : List (List Nat)} (hA : A = classRows X y a)
      (ht : table = env.knn (min A.length (par.k + 1)) X A) (h2 : 2 ≤ (kernelEdge table y b A.length).length)
      (hE : E = (kernelEdge table y b A.length).map (fun i => A.getD i [])) (hmu : IsMean 2 E mu) (hill : env.ill (covOf 2 E mu) = true) :
      KernelOutcome env par y a b 2 X X 0
  | reduce {d c n : Nat} {X X' : List Row} {A E : List Row} {mu : Row} {table : List (List Nat)} (hA : A = classRows X y a)
      (ht : table = env.knn (min A.length (par.k + 1)) X A) (h2 : 2 ≤ (kernelEdge table y b A.length).length)
      (hE : E = (kernelEdge table y b A.length).map (fun i => A.getD i [])) (hmu : IsMean d E mu) (hill : env.ill (covOf d E mu) = true)
      (hd : 2 < d) (hc : (d - 1 ≤ 2 * c ∧ 2 * c ≤ d + 1) ∧ (d % 2 = 1 → c % 2 = 0)) (hrec : KernelOutcome env par y a b c (env.pca c X).1 X' n) :
      KernelOutcome env par y a b d X (X'.map (env.pca c X).2) n
  | sampled {d n j : Nat} {X : List Row} {A E L : List Row} {mu : Row} {table : List (List Nat)} {w : List ℚ} (hA : A = classRows X y a)
      (ht : table = env.knn (min A.length (par.k + 1)) X A) (h2 : 2 ≤ (kernelEdge table y b A.length).length)
      (hE : E = (kernelEdge table y b A.length).map (fun i => A.getD i [])) (hmu : IsMean d E mu)
      (hill : d = 1 ∨ env.ill (covOf d E mu) = false) (hL : env.chol (covOf d E mu) = .ok L)
      (hw : w = shares ((List.range A.length).map (fun i => (labelledAround table y b i : ℚ)))) (hj : j < E.length)
      (hn : n = requested par.proportion (y.count b) (y.count a)) :
      KernelOutcome env par y a b d X (X ++ (List.range n).map (fun i =>
        metropolis (kernelDensity env.ex par.h A w) (fun t => vecMat d (env.normal d t) L) (env.unif d) (E.getD j [])
          (par.periods * (par.burnIn / par.periods + 1 + i)))) n

/-- What is known of the external functions. -/
structure KaEnv.OK (env : KaEnv) : Prop where
  knn : KnnQueryOK env.knn
  ex : ∀ q, 0 < env.ex q
  fac : ∀ m d, 0 < m → 0 < env.fac m d
  start : ∀ d m, 0 < m → env.start d m < m
  normal : ∀ d t, (env.normal d t).length = d
  chol : ∀ M, env.ill M = false → ∃ L, env.chol M = .ok L
  chol1 : ∀ v, 0 < v → ∃ L, env.chol [[v]] = .ok L
  pca : ∀ c X, (env.pca c X).1.length = X.length ∧ ∀ r ∈ (env.pca c X).1, r.length = c

theorem sqDist_eq_dot (x m : Row) : dotRow (Row.sub x m) (Row.sub x m) = sqDist x m := by
  unfold dotRow Row.sub sqDist
  congr 1
  induction x generalizing m with
  | nil => simp
  | cons a x ih =>
    cases m with
    | nil => simp
    | cons b m => simp

theorem kaP_eq (env : KaEnv) (h : ℚ) (d : Nat) {Xmin : List Row} {r : List ℚ} (hl : r.length = Xmin.length) (x : Row) :
    kaP env h d Xmin r x = env.fac Xmin.length d * kernelDensity env.ex h Xmin r x := by
  unfold kaP kernelDensity
  congr 2
  apply List.ext_getElem
  · simp [hl]
  · intro i h1 h2
    simp at h1 h2
    have h3 : i < r.length := by omega
    simp [List.getD_eq_getElem?_getD, List.getElem?_eq_getElem h3, List.getElem?_eq_getElem h2, sqDist_eq_dot]

theorem kernelDensity_pos {ex : ℚ → ℚ} {h : ℚ} {rows : List Row} {w : List ℚ} (hex : ∀ q, 0 < ex q) (h0 : ∀ q ∈ w, 0 ≤ q) {i : Nat}
    (hi : i < rows.length) (hw : 0 < w.getD i 0) (x : Row) : 0 < kernelDensity ex h rows w x := by
  unfold kernelDensity
  have hnn : ∀ j, 0 ≤ w.getD j 0 := by
    intro j
    rw [List.getD_eq_getElem?_getD]
    cases hj : w[j]? with
    | none => simp
    | some q => exact h0 q (List.mem_of_getElem? hj)
  have hall : ∀ q ∈ (List.range rows.length).map (fun i => w.getD i 0 * ex (-(1 / 2) * sqDist x (rows.getD i []) / h)), 0 ≤ q := by
    intro q hq
    obtain ⟨j, _, rfl⟩ := List.mem_map.1 hq
    exact mul_nonneg (hnn j) (hex _).le
  have := List.single_le_sum hall _ (List.mem_map.2 ⟨i, List.mem_range.2 hi, rfl⟩)
  exact lt_of_lt_of_le (mul_pos hw (hex _)) this

/-- The chain the loop runs through. -/
def kaChain (env : KaEnv) (par : KaParams) (d : Nat) (Xmin : List Row) (r : List ℚ) (L : List Row) (x₀ : Row) : Nat → Row :=
  metropolis (kernelDensity env.ex par.h Xmin r) (fun t => kaDot d (env.normal d t) L) (env.unif d) x₀

theorem kaLoop_spec {env : KaEnv} {par : KaParams} {d : Nat} {Xmin : List Row} {r : List ℚ} {L : List Row} {x₀ : Row} {n : Nat}
    (hex : ∀ q, 0 < env.ex q) (hfac : 0 < env.fac Xmin.length d) (hl : r.length = Xmin.length) (h0 : ∀ q ∈ r, 0 ≤ q) {i₀ : Nat}
    (hi : i₀ < Xmin.length) (hw : 0 < r.getD i₀ 0) (hper : 0 < par.periods) :
    ∀ (fuel it : Nat), par.periods * (par.burnIn / par.periods + n) + 1 ≤ it + fuel → it / par.periods - par.burnIn / par.periods ≤ n →
      kaLoop env par d Xmin r L n fuel it (kaChain env par d Xmin r L x₀ it) (kaP env par.h d Xmin r (kaChain env par d Xmin r L x₀ it))
        ((List.range (it / par.periods - par.burnIn / par.periods)).map (fun i =>
          kaChain env par d Xmin r L x₀ (par.periods * (par.burnIn / par.periods + 1 + i)))) =
        .ok ((List.range n).map (fun i => kaChain env par d Xmin r L x₀ (par.periods * (par.burnIn / par.periods + 1 + i)))) := by
  intro fuel
  induction fuel with
  | zero =>
    intro it h1 h2
    have h3 : par.burnIn / par.periods + n ≤ it / par.periods := by
      rw [Nat.le_div_iff_mul_le hper, mul_comm]
      omega
    have h4 : it / par.periods - par.burnIn / par.periods = n := by omega
    unfold kaLoop
    rw [h4, if_neg (by simp)]
  | succ fuel ih =>
    intro it h1 h2
    unfold kaLoop
    rw [List.length_map, List.length_range]
    by_cases hlt : it / par.periods - par.burnIn / par.periods < n
    · rw [if_pos hlt]
      dsimp only
      have hpos := kernelDensity_pos (h := par.h) hex h0 hi hw (kaChain env par d Xmin r L x₀ it)
      have hstep : (if env.unif d it < kaP env par.h d Xmin r (Row.add (kaChain env par d Xmin r L x₀ it) (kaDot d (env.normal d it) L)) /
          kaP env par.h d Xmin r (kaChain env par d Xmin r L x₀ it) then
            (Row.add (kaChain env par d Xmin r L x₀ it) (kaDot d (env.normal d it) L),
              kaP env par.h d Xmin r (Row.add (kaChain env par d Xmin r L x₀ it) (kaDot d (env.normal d it) L)))
          else (kaChain env par d Xmin r L x₀ it, kaP env par.h d Xmin r (kaChain env par d Xmin r L x₀ it))) =
          (kaChain env par d Xmin r L x₀ (it + 1), kaP env par.h d Xmin r (kaChain env par d Xmin r L x₀ (it + 1))) := by
        have hce : kaChain env par d Xmin r L x₀ (it + 1) =
            if env.unif d it * kernelDensity env.ex par.h Xmin r (kaChain env par d Xmin r L x₀ it) <
              kernelDensity env.ex par.h Xmin r (Row.add (kaChain env par d Xmin r L x₀ it) (kaDot d (env.normal d it) L)) then
            Row.add (kaChain env par d Xmin r L x₀ it) (kaDot d (env.normal d it) L) else kaChain env par d Xmin r L x₀ it := rfl
        have hiff : env.unif d it < kaP env par.h d Xmin r (Row.add (kaChain env par d Xmin r L x₀ it) (kaDot d (env.normal d it) L)) /
            kaP env par.h d Xmin r (kaChain env par d Xmin r L x₀ it) ↔
            env.unif d it * kernelDensity env.ex par.h Xmin r (kaChain env par d Xmin r L x₀ it) <
              kernelDensity env.ex par.h Xmin r (Row.add (kaChain env par d Xmin r L x₀ it) (kaDot d (env.normal d it) L)) := by
          rw [kaP_eq env par.h d hl, kaP_eq env par.h d hl, mul_div_mul_left _ _ hfac.ne', lt_div_iff₀ hpos]
        by_cases hacc : env.unif d it * kernelDensity env.ex par.h Xmin r (kaChain env par d Xmin r L x₀ it) <
              kernelDensity env.ex par.h Xmin r (Row.add (kaChain env par d Xmin r L x₀ it) (kaDot d (env.normal d it) L))
        · rw [if_pos (hiff.2 hacc), hce, if_pos hacc]
        · rw [if_neg (fun h => hacc (hiff.1 h)), hce, if_neg hacc]
      rw [hstep]
      dsimp only
      have hsam : (if (it + 1) % par.periods = 0 ∧ par.burnIn < it + 1 then
          (List.range (it / par.periods - par.burnIn / par.periods)).map (fun i =>
            kaChain env par d Xmin r L x₀ (par.periods * (par.burnIn / par.periods + 1 + i))) ++ [kaChain env par d Xmin r L x₀ (it + 1)]
          else (List.range (it / par.periods - par.burnIn / par.periods)).map (fun i =>
            kaChain env par d Xmin r L x₀ (par.periods * (par.burnIn / par.periods + 1 + i)))) =
          (List.range ((it + 1) / par.periods - par.burnIn / par.periods)).map (fun i =>
            kaChain env par d Xmin r L x₀ (par.periods * (par.burnIn / par.periods + 1 + i))) := by
        rw [Nat.succ_div]
        by_cases hdv : par.periods ∣ it + 1
        · rw [if_pos hdv]
          obtain ⟨q, hq⟩ := hdv
          have hq1 : it / par.periods + 1 = q := by
            have := Nat.succ_div (a := it) (b := par.periods)
            rw [if_pos ⟨q, hq⟩] at this
            rw [← this, hq, Nat.mul_div_cancel_left _ hper]
          by_cases hb : par.burnIn < it + 1
          · rw [if_pos ⟨Nat.mod_eq_zero_of_dvd ⟨q, hq⟩, hb⟩]
            have hbq : par.burnIn / par.periods < q := by
              rw [Nat.div_lt_iff_lt_mul hper, mul_comm, ← hq]
              exact hb
            have he : it / par.periods + 1 - par.burnIn / par.periods = (it / par.periods - par.burnIn / par.periods) + 1 := by omega
            rw [he, List.range_succ, List.map_append]
            congr 1
            have : it + 1 = par.periods * (par.burnIn / par.periods + 1 + (it / par.periods - par.burnIn / par.periods)) := by
              rw [hq]
              congr 1
              omega
            rw [this]
            rfl
          · rw [if_neg (fun h => hb h.2)]
            have hbq : q ≤ par.burnIn / par.periods := by
              rw [Nat.le_div_iff_mul_le hper, mul_comm, ← hq]
              omega
            have he : it / par.periods + 1 - par.burnIn / par.periods = it / par.periods - par.burnIn / par.periods := by omega
            rw [he]
        · rw [if_neg hdv, add_zero, if_neg (fun h => hdv (Nat.dvd_of_mod_eq_zero h.1))]
      rw [hsam]
      apply ih (it + 1) (by omega)
      rw [Nat.succ_div]
      split <;> omega
    · rw [if_neg hlt]
      have : it / par.periods - par.burnIn / par.periods = n := by omega
      rw [this]

theorem half_bounds {d : Nat} (hd : 2 < d) :
    (d - 1 ≤ 2 * (npRoundHalfEven ((d : ℚ) / 2)).toNat ∧ 2 * (npRoundHalfEven ((d : ℚ) / 2)).toNat ≤ d + 1) ∧
      (d % 2 = 1 → (npRoundHalfEven ((d : ℚ) / 2)).toNat % 2 = 0) := by
  have heven : d % 2 = 1 → npRoundHalfEven ((d : ℚ) / 2) % 2 = 0 := by
    intro hodd
    obtain ⟨q, hq⟩ : ∃ q, d = 2 * q + 1 := ⟨d / 2, by omega⟩
    have hfl : ⌊(d : ℚ) / 2⌋ = (q : ℤ) := by
      rw [Int.floor_eq_iff, hq]
      push_cast
      constructor <;> linarith
    have hfr : (d : ℚ) / 2 - (q : ℤ) = 1 / 2 := by
      rw [hq]
      push_cast
      ring
    unfold npRoundHalfEven
    rw [hfl, hfr]
    simp
    split <;> omega
  obtain ⟨h1, h2⟩ := npRound_bounds ((d : ℚ) / 2)
  generalize npRoundHalfEven ((d : ℚ) / 2) = z at h1 h2 heven ⊢
  have h3 : ((d : ℤ) : ℚ) - 1 ≤ ((2 * z : ℤ) : ℚ) := by push_cast; linarith
  have h4 : ((2 * z : ℤ) : ℚ) ≤ ((d : ℤ) : ℚ) + 1 := by push_cast; linarith
  have h5 : (d : ℤ) - 1 ≤ 2 * z := by exact_mod_cast h3
  have h6 : 2 * z ≤ (d : ℤ) + 1 := by exact_mod_cast h4
  omega

theorem kaScores {knn : Nat → List Row → List Row → List (List Nat)} {k : Nat} {X A : List Row} {y : List Int} {b : Int}
    (hk : KnnQueryOK knn) (hkX : k ≤ X.length) (hxy : X.length = y.length) :
    ((List.range A.length).mapM (fun i => do
      let row ← getRow (knn k X A) i
      let ls ← takeRows y row.tail
      return ls.count b) : Res (List Nat)) = .ok ((List.range A.length).map (labelledAround (knn k X A) y b)) := by
  obtain ⟨hkl, hkt⟩ := hk k X A hkX
  generalize knn k X A = table at *
  rw [mapM_ok_iff, List.forall₂_map_right_iff, List.forall₂_same]
  intro i hi
  have hi' : i < table.length := by rw [hkl]; exact List.mem_range.1 hi
  rw [getRow_ok.2 (List.getElem?_eq_getElem hi'), ok_bind]
  have hin : ∀ j ∈ (table[i]).tail, j < y.length := fun j hj => by
    rw [← hxy]
    exact (hkt _ (List.getElem_mem hi')).2 j (List.mem_of_mem_tail hj)
  rw [takeRows_map_getD 0 hin, ok_bind]
  show Except.ok _ = _
  congr 1
  unfold labelledAround List.count
  rw [List.countP_map, List.getD_eq_getElem?_getD, List.getElem?_eq_getElem hi', Option.getD_some]
  apply List.countP_congr
  intro j hj
  simp only [Function.comp, List.getD_eq_getElem?_getD, List.getElem?_eq_getElem (hin j hj), Option.getD_some, beq_iff_eq,
    Option.some.injEq, decide_eq_true_eq]

theorem shares_pos_iff {l : List ℚ} (h0 : ∀ q ∈ l, 0 ≤ q) {i₀ : Nat} (hi₀ : i₀ < l.length) (hp : 0 < l.getD i₀ 0) :
    (shares l).length = l.length ∧ (∀ q ∈ shares l, 0 ≤ q) ∧ ∀ i, 0 < (shares l).getD i 0 ↔ 0 < l.getD i 0 := by
  have hsum : 0 < l.sum := by
    rw [List.getD_eq_getElem?_getD, List.getElem?_eq_getElem hi₀, Option.getD_some] at hp
    exact lt_of_lt_of_le hp (List.single_le_sum h0 _ (List.getElem_mem hi₀))
  unfold shares
  rw [if_neg hsum.ne']
  refine ⟨by simp, ?_, ?_⟩
  · intro q hq
    obtain ⟨p, hp', rfl⟩ := List.mem_map.1 hq
    exact div_nonneg (h0 p hp') hsum.le
  · intro i
    rw [List.getD_eq_getElem?_getD, List.getD_eq_getElem?_getD, List.getElem?_map]
    cases l[i]? with
    | none => simp
    | some q => simp [div_pos_iff_of_pos_right hsum]

theorem gCov_eq (d : Nat) (rows : List Row) : gCov d rows = covOf d rows (meanRow d rows) := rfl

theorem kaDot_eq (d : Nat) (z : Row) (L : List Row) : kaDot d z L = vecMat d z L := by
  unfold kaDot vecMat
  apply List.map_congr_left
  intro j _
  congr 1
  apply List.ext_getElem
  · simp
  · intro i h1 h2
    simp at h1 h2
    simp [List.getD_eq_getElem?_getD, List.getElem?_eq_getElem h2.1, List.getElem?_eq_getElem h2.2]

/-- The chain of the algorithm. -/
theorem kaMcmc_spec {env : KaEnv} {par : KaParams} {d n : Nat} {A L cov : List Row} {w : List ℚ} {e : List Nat} (henv : env.OK)
    (hper : 0 < par.periods) (hl : w.length = A.length) (h0 : ∀ q ∈ w, 0 ≤ q)
    (he : (List.range w.length).filter (fun i => decide (0 < w.getD i 0)) = e) (hne : e ≠ []) (hL : env.chol cov = .ok L) :
    ∃ j, j < e.length ∧ kaMcmc env par d A w cov n = .ok ((List.range n).map (fun i =>
      metropolis (kernelDensity env.ex par.h A w) (fun t => vecMat d (env.normal d t) L) (env.unif d) ((e.map (fun i => A.getD i [])).getD j [])
        (par.periods * (par.burnIn / par.periods + 1 + i)))) := by
  have hpos : 0 < e.length := List.length_pos_iff.2 hne
  have hj := henv.start d e.length hpos
  refine ⟨env.start d e.length, hj, ?_⟩
  unfold kaMcmc
  rw [he]
  dsimp only
  rw [if_neg hne, getRow_ok.2 (List.getElem?_eq_getElem hj), ok_bind]
  have hin : e[env.start d e.length] ∈ e := List.getElem_mem hj
  have hin2 : e[env.start d e.length] < w.length ∧ 0 < w.getD e[env.start d e.length] 0 := by
    generalize e[env.start d e.length] = v at hin
    rw [← he] at hin
    have := List.mem_filter.1 hin
    exact ⟨List.mem_range.1 this.1, of_decide_eq_true this.2⟩
  have hlt : e[env.start d e.length] < A.length := by rw [← hl]; exact hin2.1
  rw [getRow_ok.2 (List.getElem?_eq_getElem hlt), ok_bind, hL, ok_bind]
  have hg : (e.map (fun i => A.getD i [])).getD (env.start d e.length) [] = A[e[env.start d e.length]] := by
    rw [List.getD_eq_getElem?_getD, List.getElem?_map, List.getElem?_eq_getElem hj, Option.map_some, Option.getD_some,
      List.getD_eq_getElem?_getD, List.getElem?_eq_getElem hlt, Option.getD_some]
  rw [hg]
  have hfac := henv.fac A.length d (by omega)
  have := kaLoop_spec (env := env) (par := par) (d := d) (Xmin := A) (r := w) (L := L) (x₀ := A[e[env.start d e.length]]) (n := n)
    henv.ex hfac hl h0 hlt hin2.2 hper (par.burnIn + par.periods * n + 1) 0 (by
      have h1 := Nat.mul_div_le par.burnIn par.periods
      rw [Nat.mul_add]
      omega) (by simp)
  simp only [Nat.zero_div, Nat.zero_sub, List.range_zero, List.map_nil] at this
  have hmv : (fun t => vecMat d (env.normal d t) L) = (fun t => kaDot d (env.normal d t) L) := by
    funext t
    exact (kaDot_eq d _ L).symm
  rw [hmv]
  exact this

/-- One call of the algorithm. -/
theorem kaSample_step {env : KaEnv} {par : KaParams} {fuel d : Nat} {X A E : List Row} {y : List Int} {a b : Int} {table : List (List Nat)}
    {mu : Row} (henv : env.OK) (hper : 0 < par.periods) (hwf : WF d X y)
    (hmin : IsMinority y a b) (h2 : 2 < y.count a) (hn : 0 < requested par.proportion (y.count b) (y.count a))
    (hAe : A = classRows X y a) (hte : table = env.knn (min A.length (par.k + 1)) X A)
    (hE : E = (kernelEdge table y b A.length).map (fun i => A.getD i [])) (hmu : mu = meanRow d E) :
    ((kernelEdge table y b A.length).length < 2 → kaSample env par (fuel + 1) d X y = .ok (X, y)) ∧
    (2 ≤ (kernelEdge table y b A.length).length → IsMean d E mu ∧
      (1 < d → env.ill (covOf d E mu) = true →
        kaSample env par (fuel + 1) d X y = if d ≤ 2 then .ok (X, y) else
          if X.length < (npRoundHalfEven ((d : ℚ) / 2)).toNat then .error .valueError else (do
            let res ← kaSample env par fuel (npRoundHalfEven ((d : ℚ) / 2)).toNat (env.pca (npRoundHalfEven ((d : ℚ) / 2)).toNat X).1 y
            return (res.1.map (env.pca (npRoundHalfEven ((d : ℚ) / 2)).toNat X).2, res.2))) ∧
      ((1 < d → env.ill (covOf d E mu) = false) → ∀ e, env.chol (covOf d E mu) = .error e →
        kaSample env par (fuel + 1) d X y = .error e) ∧
      ((1 < d → env.ill (covOf d E mu) = false) → ∀ L, env.chol (covOf d E mu) = .ok L →
        ∃ X', kaSample env par (fuel + 1) d X y = .ok (X', y ++ List.replicate (requested par.proportion (y.count b) (y.count a)) a) ∧
          (d = 1 ∨ env.ill (covOf d E mu) = false →
            KernelOutcome env par y a b d X X' (requested par.proportion (y.count b) (y.count a))))) := by
  obtain ⟨s, hs, rfl, rfl⟩ := stats_of_isMinority hmin
  obtain ⟨hm, hM, hab⟩ := stats_min_mem hs
  have hxy := hwf.1
  have hA := classRows_length hxy s.minLabel
  have hcl : y.count s.minLabel ≤ y.length := List.count_le_length
  have hkey : kaSample env par (fuel + 1) d X y = kaAlg env par d (kaSample env par fuel) s X y := by
    show sample defaultChecks d _ X y = _
    rw [sample_default hs, if_neg (by omega)]
  rw [hkey]
  unfold kaAlg
  rw [stats_count hs hm, stats_count hs hM, detN_eq_requested, ok_bind, if_neg (by omega)]
  simp only [selectLabel_eq_classRows]
  have hAw : ∀ r ∈ A, r.length = d := by
    rw [hAe]
    intro r hr
    exact hwf.2 r (mem_of_mem_classRows hr)
  rw [← hAe] at hA ⊢
  rw [kaScores henv.knn (by omega) hxy, ok_bind, ← hte]
  obtain ⟨e, hee⟩ : ∃ e, e = kernelEdge table y s.majLabel A.length := ⟨_, rfl⟩
  have hcnt : ((List.range A.length).map (labelledAround table y s.majLabel)).countP (fun q => decide (0 < q)) = e.length := by
    rw [hee, List.countP_map]
    unfold kernelEdge
    rw [← List.countP_eq_length_filter]
    rfl
  rw [hcnt, ← hee]
  rw [← hee] at hE
  constructor
  · intro hfew
    rw [if_pos hfew]
    rfl
  intro h2e
  rw [if_neg (by omega)]
  obtain ⟨w0, hw0⟩ : ∃ w0, w0 = (List.range A.length).map (fun i => (labelledAround table y s.majLabel i : ℚ)) := ⟨_, rfl⟩
  have hfd : fixDensity (((List.range A.length).map (labelledAround table y s.majLabel)).map (fun q : Nat => XF.fin (q : ℚ))) = shares w0 := by
    rw [← fixDensity_fin, hw0, List.map_map, List.map_map]
    rfl
  rw [hfd]
  have hw0l : w0.length = A.length := by rw [hw0]; simp
  have hw0g : ∀ i, i < A.length → w0.getD i 0 = (labelledAround table y s.majLabel i : ℚ) := by
    intro i hi
    rw [hw0, List.getD_eq_getElem?_getD, List.getElem?_map, List.getElem?_range hi]
    rfl
  have hw00 : ∀ q ∈ w0, 0 ≤ q := by
    rw [hw0]
    intro q hq
    obtain ⟨i, _, rfl⟩ := List.mem_map.1 hq
    positivity
  have hene : e ≠ [] := by intro h; rw [h] at h2e; simp at h2e
  obtain ⟨i₀, hi₀⟩ := List.exists_mem_of_ne_nil e hene
  have hi₁ : i₀ < A.length ∧ 0 < labelledAround table y s.majLabel i₀ := by
    rw [hee] at hi₀
    have := List.mem_filter.1 hi₀
    exact ⟨List.mem_range.1 this.1, of_decide_eq_true this.2⟩
  obtain ⟨hsl, hs0, hsp⟩ := shares_pos_iff hw00 (i₀ := i₀) (by rw [hw0l]; exact hi₁.1) (by rw [hw0g _ hi₁.1]; exact_mod_cast hi₁.2)
  have hef : (List.range A.length).filter (fun i => decide (0 < (shares w0).getD i 0)) = e := by
    rw [hee]
    unfold kernelEdge
    apply List.filter_congr
    intro i hi
    apply Bool.eq_iff_iff.2
    rw [decide_eq_true_eq, decide_eq_true_eq, hsp, hw0g i (List.mem_range.1 hi)]
    exact_mod_cast Iff.rfl
  rw [hef, gCov_eq, ← hE, ← hmu]
  have hElen : E.length = e.length := by rw [hE]; simp
  have hEw : ∀ r ∈ E, r.length = d := by
    rw [hE]
    intro r hr
    obtain ⟨i, hi, rfl⟩ := List.mem_map.1 hr
    have hi' : i < A.length := by
      rw [hee] at hi
      exact List.mem_range.1 (List.mem_filter.1 hi).1
    rw [List.getD_eq_getElem?_getD, List.getElem?_eq_getElem hi', Option.getD_some]
    exact hAw _ (List.getElem_mem hi')
  have hmean : IsMean d E mu := by
    rw [hmu]
    apply meanRow_isMean _ hEw
    intro h
    rw [h] at hElen
    simp at hElen
    omega
  refine ⟨hmean, ?_, ?_, ?_⟩
  · intro hd1 hill
    rw [if_pos ⟨hd1, hill⟩]
    by_cases hd2 : d ≤ 2
    · rw [if_pos hd2, if_pos hd2]
      rfl
    · rw [if_neg hd2, if_neg hd2]
  · intro hill er her
    rw [if_neg (by
      rintro ⟨h1, h3⟩
      rw [hill h1] at h3
      cases h3)]
    unfold kaMcmc
    rw [hsl, hw0l, hef]
    dsimp only
    rw [if_neg hene]
    have hj := henv.start d e.length (by omega)
    rw [getRow_ok.2 (List.getElem?_eq_getElem hj), ok_bind]
    have hlt : e[env.start d e.length] < A.length := by
      have hin : e[env.start d e.length] ∈ kernelEdge table y s.majLabel A.length := by
        rw [← hee]
        exact List.getElem_mem hj
      exact List.mem_range.1 (List.mem_filter.1 hin).1
    rw [getRow_ok.2 (List.getElem?_eq_getElem hlt), ok_bind, her]
    rfl
  · intro hill L hL
    rw [if_neg (by
      rintro ⟨h1, h3⟩
      rw [hill h1] at h3
      cases h3)]
    obtain ⟨j, hj, hmc⟩ := kaMcmc_spec (d := d) (n := requested par.proportion (y.count s.majLabel) (y.count s.minLabel)) henv hper
      (hsl.trans hw0l) hs0 (by rw [hsl, hw0l]; exact hef) hene hL
    rw [hmc, ok_bind, ← hE]
    have hout := fun hor : d = 1 ∨ env.ill (covOf d E mu) = false =>
      KernelOutcome.sampled (env := env) (par := par) (y := y) (a := s.minLabel) (b := s.majLabel) (d := d) (j := j) hAe hte
        (by rw [← hee]; exact h2e) (by rw [← hee]; exact hE) hmean hor hL rfl (by rw [hElen]; exact hj) rfl
    refine ⟨_, ?_, hout⟩
    show Except.ok (withSamples _ _ _ _) = _
    unfold withSamples
    rw [List.length_map, List.length_range, hw0]

/-- **KernelADASYN on at least two columns.** The call returns, with one of the four outcomes; the old labels are kept and followed by
none or the requested number of minority labels. -/
theorem C89_kernel_adasyn {env : KaEnv} {par : KaParams} {y : List Int} {a b : Int} (henv : env.OK) (hper : 0 < par.periods)
    (hmin : IsMinority y a b) (h2 : 2 < y.count a) (hn : 0 < requested par.proportion (y.count b) (y.count a)) :
    ∀ (fuel d : Nat) (X : List Row), WF d X y → 2 ≤ d → d ≤ fuel → d + 1 ≤ 2 * X.length →
      ∃ (X' : List Row) (n : Nat), kaSample env par fuel d X y = .ok (X', y ++ List.replicate n a) ∧ KernelOutcome env par y a b d X X' n ∧
        (n = 0 ∨ n = requested par.proportion (y.count b) (y.count a)) := by
  intro fuel
  induction fuel with
  | zero => intro d X _ h h'; omega
  | succ fuel ih =>
    intro d X hwf hd hf hX
    obtain ⟨A, hA⟩ : ∃ A, A = classRows X y a := ⟨_, rfl⟩
    obtain ⟨table, ht⟩ : ∃ table, table = env.knn (min A.length (par.k + 1)) X A := ⟨_, rfl⟩
    obtain ⟨E, hE⟩ : ∃ E, E = (kernelEdge table y b A.length).map (fun i => A.getD i []) := ⟨_, rfl⟩
    obtain ⟨s1, s2⟩ := kaSample_step (fuel := fuel) henv hper hwf hmin h2 hn hA ht hE (mu := meanRow d E) rfl
    by_cases hfew : (kernelEdge table y b A.length).length < 2
    · refine ⟨X, 0, ?_, KernelOutcome.few hA ht hfew, Or.inl rfl⟩
      rw [s1 hfew]
      simp
    · obtain ⟨hmu, s3, s4, s5⟩ := s2 (by omega)
      by_cases hill : env.ill (covOf d E (meanRow d E)) = true
      · rw [s3 (by omega) hill]
        by_cases hd2 : d ≤ 2
        · rw [if_pos hd2]
          have : d = 2 := by omega
          subst this
          exact ⟨X, 0, by simp, KernelOutcome.flat hA ht (by omega) hE hmu hill, Or.inl rfl⟩
        · rw [if_neg hd2]
          obtain ⟨⟨hc1, hc2⟩, hc3⟩ := half_bounds (d := d) (by omega)
          generalize (npRoundHalfEven ((d : ℚ) / 2)).toNat = c at *
          rw [if_neg (by omega)]
          obtain ⟨hp1, hp2⟩ := henv.pca c X
          obtain ⟨X', n, h3, h4, h5⟩ := ih c (env.pca c X).1 ⟨hp1.trans hwf.1, hp2⟩ (by omega) (by omega) (by rw [hp1]; omega)
          rw [h3, ok_bind]
          exact ⟨X'.map (env.pca c X).2, n, rfl, KernelOutcome.reduce hA ht (by omega) hE hmu hill (by omega) ⟨⟨hc1, hc2⟩, hc3⟩ h4, h5⟩
      · have hill' : env.ill (covOf d E (meanRow d E)) = false := by simpa using hill
        obtain ⟨L, hL⟩ := henv.chol _ hill'
        obtain ⟨X', h3, h4⟩ := s5 (fun _ => hill') L hL
        exact ⟨X', _, h3, h4 (Or.inr hill'), Or.inr rfl⟩

/-- **KernelADASYN on one column.** With two different minority values that have a majority neighbour the rows of the chain are added; if
these values are all equal, the call raises the error of the decomposition of the matrix `[[0]]`. -/
theorem C89_one_column {env : KaEnv} {par : KaParams} {X A E : List Row} {y : List Int} {a b : Int} {table : List (List Nat)} {fuel : Nat}
    (henv : env.OK) (hper : 0 < par.periods) (hwf : WF 1 X y)
    (hmin : IsMinority y a b) (h2 : 2 < y.count a) (hn : 0 < requested par.proportion (y.count b) (y.count a))
    (hA : A = classRows X y a) (ht : table = env.knn (min A.length (par.k + 1)) X A)
    (hE : E = (kernelEdge table y b A.length).map (fun i => A.getD i [])) (hE2 : 2 ≤ E.length) :
    ((∃ r ∈ E, ∃ r' ∈ E, r.getD 0 0 ≠ r'.getD 0 0) →
      ∃ X', kaSample env par (fuel + 1) 1 X y = .ok (X', y ++ List.replicate (requested par.proportion (y.count b) (y.count a)) a) ∧
        KernelOutcome env par y a b 1 X X' (requested par.proportion (y.count b) (y.count a))) ∧
    ((∀ r ∈ E, ∀ r' ∈ E, r.getD 0 0 = r'.getD 0 0) → ∀ e, env.chol [[0]] = .error e → kaSample env par (fuel + 1) 1 X y = .error e) := by
  obtain ⟨_, s2⟩ := kaSample_step (fuel := fuel) henv hper hwf hmin h2 hn hA ht hE (mu := meanRow 1 E) rfl
  have hlen : E.length = (kernelEdge table y b A.length).length := by rw [hE]; simp
  obtain ⟨hmu, _, s4, s5⟩ := s2 (by omega)
  obtain ⟨m, hm⟩ : ∃ m, m = (meanRow 1 E).getD 0 0 := ⟨_, rfl⟩
  have hm2 : m * E.length = (E.map (fun r => r.getD 0 0)).sum := by rw [hm]; exact hmu.2 0 (by omega)
  have hcov : covOf 1 E (meanRow 1 E) = [[(E.map (fun r => (r.getD 0 0 - m) * (r.getD 0 0 - m))).sum / ((E.length : ℚ) - 1)]] := by
    rw [hm]; rfl
  have hden : (0 : ℚ) < (E.length : ℚ) - 1 := by
    have : (2 : ℚ) ≤ E.length := by exact_mod_cast hE2
    linarith
  have hnn : ∀ q ∈ E.map (fun r => (r.getD 0 0 - m) * (r.getD 0 0 - m)), 0 ≤ q := by
    intro q hq
    obtain ⟨r, _, rfl⟩ := List.mem_map.1 hq
    exact mul_self_nonneg _
  constructor
  · rintro ⟨r, hr, r', hr', hne⟩
    have hpos : 0 < (E.map (fun r => (r.getD 0 0 - m) * (r.getD 0 0 - m))).sum := by
      have hone : ∀ q : Row, q ∈ E → q.getD 0 0 ≠ m → 0 < (E.map (fun r => (r.getD 0 0 - m) * (r.getD 0 0 - m))).sum := by
        intro q hq hqm
        exact lt_of_lt_of_le (mul_self_pos.2 (sub_ne_zero.2 hqm)) (List.single_le_sum hnn _ (List.mem_map.2 ⟨q, hq, rfl⟩))
      by_cases h : r.getD 0 0 = m
      · exact hone r' hr' (by rw [← h]; exact fun h' => hne h'.symm)
      · exact hone r hr h
    obtain ⟨L, hL⟩ := henv.chol1 _ (div_pos hpos hden)
    rw [← hcov] at hL
    obtain ⟨X', h3, h4⟩ := s5 (by omega) L hL
    exact ⟨X', h3, h4 (Or.inl rfl)⟩
  · intro hall e he
    apply s4 (by omega)
    rw [hcov]
    obtain ⟨r0, hr0⟩ := List.exists_mem_of_ne_nil E (by intro h; rw [h] at hE2; simp at hE2)
    have hsum : (E.map (fun r => r.getD 0 0)).sum = E.length * r0.getD 0 0 := by
      have : E.map (fun r => r.getD 0 0) = List.replicate E.length (r0.getD 0 0) := by
        rw [List.eq_replicate_iff]
        refine ⟨by simp, ?_⟩
        intro q hq
        obtain ⟨r, hr, rfl⟩ := List.mem_map.1 hq
        exact hall r hr r0 hr0
      rw [this, List.sum_replicate]
      simp
    have hl0 : (E.length : ℚ) ≠ 0 := by linarith
    have hmr : m = r0.getD 0 0 := by
      rw [hsum, mul_comm] at hm2
      exact mul_left_cancel₀ hl0 hm2
    have : (E.map (fun r => (r.getD 0 0 - m) * (r.getD 0 0 - m))).sum = 0 := by
      apply List.sum_eq_zero
      intro q hq
      obtain ⟨r, hr, rfl⟩ := List.mem_map.1 hq
      rw [hall r hr r0 hr0, hmr, sub_self, zero_mul]
    rw [this, zero_div]
    exact he

/-- The number of rows, and the old rows unless the columns were reduced. -/
theorem C89_rows {env : KaEnv} {par : KaParams} {y : List Int} {a b : Int} {d n : Nat} {X X' : List Row} (henv : env.OK)
    (h : KernelOutcome env par y a b d X X' n) : X'.length = X.length + n ∧ (d ≤ 2 → ∃ new, X' = X ++ new) := by
  induction h with
  | few => exact ⟨rfl, fun _ => ⟨[], by simp⟩⟩
  | flat => exact ⟨rfl, fun _ => ⟨[], by simp⟩⟩
  | reduce hA ht h2 hE hmu hill hd hc hrec ih =>
    refine ⟨?_, fun h => by omega⟩
    rw [List.length_map, ih.1, (henv.pca _ _).1]
  | sampled => exact ⟨by simp, fun _ => ⟨_, rfl⟩⟩

/-- With more than two columns, an ill-conditioned matrix and too few rows the call raises. -/
theorem C89_too_few_rows {env : KaEnv} {par : KaParams} {d : Nat} {X A E : List Row} {y : List Int} {a b : Int} {table : List (List Nat)}
    {fuel : Nat} (henv : env.OK) (hper : 0 < par.periods) (hwf : WF d X y)
    (hmin : IsMinority y a b) (h2 : 2 < y.count a) (hn : 0 < requested par.proportion (y.count b) (y.count a))
    (hA : A = classRows X y a) (ht : table = env.knn (min A.length (par.k + 1)) X A)
    (hE : E = (kernelEdge table y b A.length).map (fun i => A.getD i [])) (hE2 : 2 ≤ E.length)
    (hill : ∀ mu, IsMean d E mu → env.ill (covOf d E mu) = true) (hd : 2 < d) (hX : 2 * X.length < d - 1) :
    kaSample env par (fuel + 1) d X y = .error .valueError := by
  obtain ⟨_, s2⟩ := kaSample_step (fuel := fuel) henv hper hwf hmin h2 hn hA ht hE (mu := meanRow d E) rfl
  have hlen : E.length = (kernelEdge table y b A.length).length := by rw [hE]; simp
  obtain ⟨hmu, s3, _, _⟩ := s2 (by omega)
  rw [s3 (by omega) (hill _ hmu), if_neg (by omega)]
  obtain ⟨⟨hc1, _⟩, _⟩ := half_bounds hd
  rw [if_pos (by omega)]

/-! ## Examples -/

/-- Exact functions: `1 / (1 + q²)` in place of the exponential, projection on the first columns. -/
def kaEnv : KaEnv where
  knn := bruteQuery
  ill := fun M => decide (M.length = 3 ∨ M = [[0]])
  chol := fun M => if M = [[0]] then .error .runtimeError else .ok M
  pca := fun c X => (X.map (fun r => (List.range c).map (fun j => r.getD j 0)), fun r => r ++ [(meanRow 3 X).getD 2 0])
  ex := fun q => 1 / (1 + q * q)
  fac := fun _ _ => 1
  start := fun _ m => m - 1
  normal := fun d t => List.replicate d ((t : ℚ) / 4)
  unif := fun _ t => (t : ℚ) / 8

theorem kaEnv_ok : kaEnv.OK where
  knn := bruteQuery_ok
  ex := fun q => by show (0 : ℚ) < 1 / (1 + q * q); have := mul_self_nonneg q; positivity
  fac := fun _ _ _ => by show (0 : ℚ) < 1; norm_num
  start := fun _ m h => by show m - 1 < m; omega
  normal := fun d t => by simp [kaEnv]
  chol := fun M h => by
    show ∃ L, (if M = [[0]] then _ else _) = Except.ok L
    by_cases h0 : M = [[0]]
    · rw [h0] at h
      exact absurd h (by decide)
    · exact ⟨M, by rw [if_neg h0]⟩
  chol1 := fun v h => ⟨[[v]], by
    show (if [[v]] = [[0]] then _ else _) = _
    rw [if_neg (by simp; exact h.ne')]⟩
  pca := fun c X => by
    refine ⟨by simp [kaEnv], ?_⟩
    intro r hr
    obtain ⟨q, _, rfl⟩ := List.mem_map.1 hr
    simp

def kaPar : KaParams := ⟨1, 2, 1, 2, 2⟩

def kaX : List Row := [[0, 0], [1, 0], [0, 2], [2, 1], [1, 3], [3, 3], [4, 0]]
def kaY : List Int := [1, 1, 1, 0, 0, 0, 0]

theorem kaY_min : IsMinority kaY 1 0 := ⟨by decide, by decide, by decide, Or.inl (by decide)⟩

/-- Two columns: the fourth row of the chain is added. -/
example : kaSample kaEnv kaPar 2 2 kaX kaY =
      .ok ([[0, 0], [1, 0], [0, 2], [2, 1], [1, 3], [3, 3], [4, 0], [-3/4, 7/2]], [1, 1, 1, 0, 0, 0, 0, 1]) ∧
    ∃ X' n, kaSample kaEnv kaPar 2 2 kaX kaY = .ok (X', kaY ++ List.replicate n 1) ∧ KernelOutcome kaEnv kaPar kaY 1 0 2 kaX X' n ∧
      (n = 0 ∨ n = requested kaPar.proportion (kaY.count 0) (kaY.count 1)) :=
  ⟨by decide +kernel, C89_kernel_adasyn kaEnv_ok (by decide) kaY_min (by decide) (by decide +kernel) 2 2 kaX (by decide +kernel) (by decide)
    (by decide) (by decide)⟩

/-- **The old rows may be replaced.** There are data with three columns, whose minority rows have the same third entry, for which no row of
the result has that entry: the result consists of projections. -/
theorem C89_projected : ∃ (env : KaEnv) (par : KaParams) (X X' : List Row) (y y' : List Int), env.OK ∧ 0 < par.periods ∧ WF 3 X y ∧
    IsMinority y 1 0 ∧ kaSample env par 3 3 X y = .ok (X', y') ∧ y'.length = y.length + 1 ∧ ∀ r ∈ X, r ∉ X' :=
  ⟨kaEnv, kaPar, [[0, 0, 0], [1, 0, 0], [0, 2, 0], [2, 1, 1], [1, 3, -1], [3, 3, 1/2], [4, 0, 0]],
    [[0, 0, 1/14], [1, 0, 1/14], [0, 2, 1/14], [2, 1, 1/14], [1, 3, 1/14], [3, 3, 1/14], [4, 0, 1/14], [-3/4, 7/2, 1/14]], kaY,
    [1, 1, 1, 0, 0, 0, 0, 1], kaEnv_ok, by decide, by decide +kernel, kaY_min, by decide +kernel, by decide, by decide +kernel⟩

/-- One column, equal minority values: the call raises. -/
example : kaSample kaEnv kaPar 3 1 [[1], [1], [1], [1], [5], [6], [7]] [1, 0, 1, 1, 0, 0, 0] = .error .runtimeError := by decide +kernel

example : kaSample kaEnv kaPar 3 1 [[1], [1], [1], [1], [5], [6], [7]] [1, 0, 1, 1, 0, 0, 0] = .error .runtimeError :=
  (C89_one_column (A := [[1], [1], [1]]) (E := [[1], [1], [1]]) (a := 1) (b := 0) (fuel := 2)
    (table := bruteQuery 3 [[1], [1], [1], [1], [5], [6], [7]] [[1], [1], [1]]) kaEnv_ok (by decide) (by decide +kernel)
    ⟨by decide, by decide, by decide, Or.inl (by decide)⟩ (by decide) (by decide +kernel) (by decide +kernel) (by decide +kernel) (by decide +kernel) (by decide)).2 (by decide +kernel) _ rfl

/-- One column, different minority values. -/
example : kaSample kaEnv kaPar 3 1 [[1], [2], [2], [3], [5], [6], [7]] [1, 0, 1, 1, 0, 0, 0] =
    .ok ([[1], [2], [2], [3], [5], [6], [7], [9/2]], [1, 0, 1, 1, 0, 0, 0, 1]) := by decide +kernel

/-- Seven rows and twenty columns. -/
def kaBig : List Row := [[0, 0], [1, 0], [0, 1], [1, 1], [2, 1], [1, 2], [2, 2]].map (fun r : Row => r ++ List.replicate 18 0)

def kaIll : KaEnv := { kaEnv with ill := fun M => decide (1 < M.length ∨ M = [[0]]) }

theorem kaIll_ok : kaIll.OK where
  knn := kaEnv_ok.knn
  ex := kaEnv_ok.ex
  fac := kaEnv_ok.fac
  start := kaEnv_ok.start
  normal := kaEnv_ok.normal
  chol := fun M h => by
    show ∃ L, (if M = [[0]] then _ else _) = Except.ok L
    by_cases h0 : M = [[0]]
    · rw [h0] at h
      exact absurd h (by decide)
    · exact ⟨M, by rw [if_neg h0]⟩
  chol1 := kaEnv_ok.chol1
  pca := kaEnv_ok.pca

example : kaSample kaIll kaPar 3 20 kaBig [1, 0, 1, 0, 1, 0, 0] = .error .valueError :=
  C89_too_few_rows (A := classRows kaBig [1, 0, 1, 0, 1, 0, 0] 1) (a := 1) (b := 0)
    (table := kaIll.knn 3 kaBig (classRows kaBig [1, 0, 1, 0, 1, 0, 0] 1)) kaIll_ok (by decide) (by decide +kernel)
    ⟨by decide, by decide, by decide, Or.inl (by decide)⟩ (by decide) (by decide +kernel) rfl (by decide +kernel) rfl (by decide +kernel)
    (fun mu _ => by
      simp [kaIll, covOf]) (by decide) (by decide +kernel)

end Verif

import Verif.Model.Ipf
import Verif.Props.C01
import Verif.Props.C38
import Verif.Props.C83
import Verif.Props.C84
import Verif.Lemmas.SmoteExample
import Mathlib.Tactic.Linarith

/-!
# C87: SMOTE_IPF
-/

namespace Verif

/-- The sum of the labels the classifiers predict for row `i`. -/
def voteSum (P : List (List Int)) (i : Nat) : Int := (P.map (fun q => q.getD i 0)).sum

/-- Row `i` with label `l` is voted out by the predictions `P`: `l` is not 1 although the mean prediction exceeds one half, or not 0
although it does not; with consensus voting the predictions must besides add up to the configured number of folds. -/
def VotedOut (consensus : Bool) (nFolds : Nat) (P : List (List Int)) (l : Int) (i : Nat) : Prop :=
  ((P.length : ℤ) < 2 * voteSum P i ∧ l ≠ 1 ∨ 2 * voteSum P i ≤ (P.length : ℤ) ∧ l ≠ 0) ∧ (consensus = true → voteSum P i = nFolds)

/-- One round: the rows voted out, and only these, are removed. -/
def FilterRound (consensus : Bool) (nFolds : Nat) (P : List (List Int)) (X : List Row) (y : List Int) (X' : List Row) (y' : List Int) : Prop :=
  ∃ K, SubData X y X' y' K ∧ ∀ i, Removed X K i ↔ ∃ l, y[i]? = some l ∧ VotedOut consensus nFolds P l i

/-- The iterative filter, started with `c` small rounds behind it: it ends after `k` small rounds in a row, where a round is small if it
removes fewer rows than `p` times the number of rows it leaves; an exception of the classifiers is passed on. -/
inductive FilterRun (par : IpfParams) (ens : List Row → List Int → Res (List (List Int))) :
    Nat → List Row → List Int → Res (List Row × List Int) → Prop
  | done {c X y} : par.k ≤ c → FilterRun par ens c X y (.ok (X, y))
  | raised {c X y e} : c < par.k → ens X y = .error e → FilterRun par ens c X y (.error e)
  | small {c X y P X' y' r} : c < par.k → ens X y = .ok P → FilterRound par.consensus par.nFolds P X y X' y' →
      ((X.length - X'.length : ℕ) : ℚ) < par.p * X'.length → FilterRun par ens (c + 1) X' y' r → FilterRun par ens c X y r
  | large {c X y P X' y' r} : c < par.k → ens X y = .ok P → FilterRound par.consensus par.nFolds P X y X' y' →
      par.p * X'.length ≤ ((X.length - X'.length : ℕ) : ℚ) → FilterRun par ens 0 X' y' r → FilterRun par ens c X y r

/-- What is known of the classifiers: there is one for every fold, each gives every row one of the labels in use, and an empty data set is
refused. -/
def EnsembleOK (ensemble : Nat → List Row → List Int → Res (List (List Int))) : Prop :=
  ∀ f X y P, 0 < f → ensemble f X y = .ok P → X ≠ [] ∧ P.length = f ∧ ∀ q ∈ P, q.length = X.length ∧ ∀ l ∈ q, l ∈ y

theorem ipfVote_lt {P : List (List Int)} (hP : P ≠ []) (i : Nat) :
    (1 / 2 : ℚ) < (ipfSum P i : ℚ) / P.length ↔ (P.length : ℤ) < 2 * voteSum P i := by
  have h0 : (0 : ℚ) < P.length := by
    have := List.length_pos_iff.2 hP
    exact_mod_cast this
  rw [lt_div_iff₀ h0]
  have e : ipfSum P i = voteSum P i := rfl
  rw [e]
  constructor
  · intro h
    have : (P.length : ℚ) < 2 * (voteSum P i : ℚ) := by linarith
    exact_mod_cast this
  · intro h
    have : (P.length : ℚ) < 2 * (voteSum P i : ℚ) := by exact_mod_cast h
    linarith

theorem mem_ipfToRemove {par : IpfParams} {P : List (List Int)} (hP : P ≠ []) {y : List Int} {i : Nat} :
    i ∈ ipfToRemove par P y ↔ ∃ l, y[i]? = some l ∧ VotedOut par.consensus par.nFolds P l i := by
  unfold ipfToRemove
  rw [List.mem_filter, List.mem_range]
  have e : ipfSum P i = voteSum P i := rfl
  constructor
  · rintro ⟨hi, h⟩
    refine ⟨y[i], List.getElem?_eq_getElem hi, ?_⟩
    have hg : y.getD i 0 = y[i] := by rw [List.getD_eq_getElem?_getD, List.getElem?_eq_getElem hi]; rfl
    rw [hg, Bool.and_eq_true, decide_eq_true_eq, Bool.or_eq_true, decide_eq_true_eq] at h
    obtain ⟨h1, h2⟩ := h
    constructor
    · unfold ipfVote at h1
      by_cases hv : (1 / 2 : ℚ) < (ipfSum P i : ℚ) / P.length
      · rw [if_pos hv] at h1
        exact Or.inl ⟨(ipfVote_lt hP i).1 hv, fun hc => h1 hc.symm⟩
      · rw [if_neg hv] at h1
        exact Or.inr ⟨not_lt.1 (fun hc => hv ((ipfVote_lt hP i).2 hc)), fun hc => h1 hc.symm⟩
    · intro hc
      rcases h2 with h2 | h2
      · rw [hc] at h2; cases h2
      · exact h2
  · rintro ⟨l, hl, h1, h2⟩
    have hi : i < y.length := (List.getElem?_eq_some_iff.1 hl).1
    have hg : y.getD i 0 = l := by rw [List.getD_eq_getElem?_getD, hl]; rfl
    refine ⟨hi, ?_⟩
    rw [hg, Bool.and_eq_true, decide_eq_true_eq, Bool.or_eq_true, decide_eq_true_eq]
    constructor
    · unfold ipfVote
      rcases h1 with ⟨hv, hl⟩ | ⟨hv, hl⟩
      · rw [if_pos ((ipfVote_lt hP i).2 hv)]
        exact fun hc => hl hc.symm
      · rw [if_neg (fun hc => not_le.2 ((ipfVote_lt hP i).1 hc) hv)]
        exact fun hc => hl hc.symm
    · cases hc : par.consensus with
      | false => left; rfl
      | true => right; exact h2 hc

theorem ipf_round {par : IpfParams} {P : List (List Int)} (hP : P ≠ []) {X : List Row} {y : List Int} (hxy : X.length = y.length) :
    FilterRound par.consensus par.nFolds P X y (npDelete X (ipfToRemove par P y)) (npDelete y (ipfToRemove par P y)) := by
  refine ⟨_, npDelete_subData hxy _, ?_⟩
  intro i
  rw [removed_kept, mem_ipfToRemove hP]
  constructor
  · exact fun h => h.2
  · rintro ⟨l, hl, h⟩
    refine ⟨?_, l, hl, h⟩
    rw [hxy]
    exact (List.getElem?_eq_some_iff.1 hl).1

theorem ipf_removed_length {par : IpfParams} {P : List (List Int)} {X : List Row} {y : List Int} (hxy : X.length = y.length) :
    (npDelete X (ipfToRemove par P y)).length = X.length - (ipfToRemove par P y).length ∧ (ipfToRemove par P y).length ≤ X.length := by
  have hnd : (ipfToRemove par P y).Nodup := List.Nodup.filter _ List.nodup_range
  constructor
  · apply npDelete_length_eq hnd
    intro i hi
    rw [hxy]
    exact List.mem_range.1 (List.mem_of_mem_filter hi)
  · have := (List.filter_sublist (l := List.range y.length) (p := fun i =>
      decide (ipfVote P i ≠ y.getD i 0) && (! par.consensus || decide (ipfSum P i = par.nFolds)))).length_le
    rw [List.length_range] at this
    rw [hxy]
    exact this

/-- The loop ends, within as many rounds as the fuel below, if `p` is positive. -/
theorem ipfLoop_run {par : IpfParams} {folds : Nat} {ensemble : Nat → List Row → List Int → Res (List (List Int))}
    (he : EnsembleOK ensemble) (hf : 0 < folds) (hp : 0 < par.p) :
    ∀ (m c : Nat) (X : List Row) (y : List Int), X.length = y.length → c ≤ par.k → X.length * (par.k + 1) + (par.k - c) ≤ m →
      ∃ r, FilterRun par (ensemble folds) c X y r ∧
        ∀ fuel, X.length * (par.k + 1) + (par.k - c) ≤ fuel → ipfLoop par folds ensemble fuel c X y = some r := by
  intro m
  induction m with
  | zero =>
    intro c X y hxy hc hm
    refine ⟨_, .done (by omega), ?_⟩
    intro fuel _
    cases fuel with
    | zero => unfold ipfLoop; rw [if_neg (by omega)]
    | succ fuel => unfold ipfLoop; rw [if_neg (by omega)]
  | succ m ih =>
    intro c X y hxy hc hm
    by_cases hck : c < par.k
    · cases hens : ensemble folds X y with
      | error e =>
        refine ⟨_, .raised hck hens, ?_⟩
        intro fuel hfu
        cases fuel with
        | zero => omega
        | succ fuel => unfold ipfLoop; rw [if_pos hck, hens]
      | ok P =>
        obtain ⟨hX, hPl, _⟩ := he _ _ _ _ hf hens
        have hP : P ≠ [] := by intro h; rw [h] at hPl; simp at hPl; omega
        have hXl := List.length_pos_iff.2 hX
        have hround := ipf_round (par := par) hP hxy
        obtain ⟨hl1, hl2⟩ := ipf_removed_length (par := par) (P := P) hxy
        have hl3 : (npDelete y (ipfToRemove par P y)).length = (npDelete X (ipfToRemove par P y)).length := by
          rw [← (npDelete_forall X _).length_eq, ← (npDelete_forall y _).length_eq, hxy]
        obtain ⟨X', hX'⟩ : ∃ X', X' = npDelete X (ipfToRemove par P y) := ⟨_, rfl⟩
        obtain ⟨y', hy'⟩ : ∃ y', y' = npDelete y (ipfToRemove par P y) := ⟨_, rfl⟩
        rw [← hX'] at hround hl1 hl3
        rw [← hy'] at hround hl3
        have hrem : X.length - X'.length = (ipfToRemove par P y).length := by omega
        by_cases hs : ((ipfToRemove par P y).length : ℚ) < X'.length * par.p
        · have hle : X'.length * (par.k + 1) ≤ X.length * (par.k + 1) := Nat.mul_le_mul_right _ (by omega)
          obtain ⟨r, h1, h2⟩ := ih (c + 1) X' y' hl3.symm hck (by omega)
          refine ⟨r, .small hck hens hround (by rw [hrem, mul_comm]; exact hs) h1, ?_⟩
          intro fuel hfu
          cases fuel with
          | zero => omega
          | succ fuel =>
            unfold ipfLoop
            rw [if_pos hck, hens]
            dsimp only
            rw [← hX', ← hy', if_pos hs, mul_one]
            exact h2 fuel (by omega)
        · have h1le : 1 ≤ (ipfToRemove par P y).length := by
            by_contra hc0
            have h0 : (ipfToRemove par P y).length = 0 := by omega
            apply hs
            rw [h0, hl1, h0]
            have : (0 : ℚ) < ((X.length - 0 : ℕ) : ℚ) := by
              rw [Nat.sub_zero]; exact_mod_cast hXl
            have := mul_pos this hp
            simpa using this
          have hle : (X'.length + 1) * (par.k + 1) ≤ X.length * (par.k + 1) := Nat.mul_le_mul_right _ (by omega)
          rw [Nat.add_mul] at hle
          obtain ⟨r, h1, h2⟩ := ih 0 X' y' hl3.symm (by omega) (by omega)
          refine ⟨r, .large hck hens hround (by rw [hrem, mul_comm]; exact not_lt.1 hs) h1, ?_⟩
          intro fuel hfu
          cases fuel with
          | zero => omega
          | succ fuel =>
            unfold ipfLoop
            rw [if_pos hck, hens]
            dsimp only
            rw [← hX', ← hy', if_neg hs, mul_zero]
            exact h2 fuel (by omega)
    · refine ⟨_, .done (by omega), ?_⟩
      intro fuel _
      cases fuel with
      | zero => unfold ipfLoop; rw [if_neg (by omega)]
      | succ fuel => unfold ipfLoop; rw [if_neg (by omega)]

/-- `sample` on two classes with more than two minority rows. -/
theorem ipfSample_eq {sp : SmoteParams} {par : IpfParams} {ensemble : Nat → List Row → List Int → Res (List (List Int))}
    {vol : List Row → ℚ} {dr : Draws} {d : Nat} {knn : Nat → List Row → List (List Nat)}
    {X Xs : List Row} {y ys : List Int} {a b : Int} (hmin : IsMinority y a b) (h2 : 2 < y.count a)
    (hn : 0 < requested sp.proportion (y.count b) (y.count a)) (hsm : smoteSample sp vol dr d knn X y = .ok (Xs, ys)) (fuel : Nat) :
    ipfSample fuel sp par ensemble vol dr d knn X y =
      ipfLoop par (min par.nFolds (y.count a)) ensemble fuel 0 Xs ys := by
  obtain ⟨s, hs, rfl, rfl⟩ := stats_of_isMinority hmin
  obtain ⟨hm, hM, hab⟩ := stats_min_mem hs
  unfold ipfSample
  rw [hs]
  dsimp only
  rw [stats_count hs hm, checksFire_default]
  rw [if_neg (by simp; omega)]
  unfold ipfAlg
  rw [stats_count hs hm, stats_count hs hM, detN_eq_requested, ok_bind, if_neg (by omega), hsm, ok_bind]
  rfl

/-- **SMOTE_IPF.** With a positive `p` the call ends: the result is that of the iterative filter run on the rows SMOTE returns. The filter
needs at most (rows + 1)(k + 1) rounds. -/
theorem C87_ipf {sp : SmoteParams} {par : IpfParams} {ensemble : Nat → List Row → List Int → Res (List (List Int))}
    {vol : List Row → ℚ} {dr : Draws} {d : Nat} {knn : Nat → List Row → List (List Nat)}
    {X : List Row} {y : List Int} {a b : Int} (hwf : WF d X y) (hk : KnnOK knn) (hdr : dr.OK) (hpos : ∀ i j, 0 < dr.simplexU i j)
    (hg : sp.ss.gaussian = .none) (hmin : IsMinority y a b) (h2 : 2 < y.count a) (hd : 1 ≤ sp.ss.nDim)
    (hmode : sp.ss.simplexSampling = .random ∨ sp.ss.simplexSampling = .deterministic ∨
      (sp.ss.simplexSampling = .volume ∧ ∀ vs, 0 < vol vs))
    (hwi : sp.ss.within = .random ∨ (sp.ss.within = .deterministic ∧ sp.ss.nDim ≤ 2))
    (hn : 0 < requested sp.proportion (y.count b) (y.count a)) (he : EnsembleOK ensemble) (hf : 2 ≤ par.nFolds) (hp : 0 < par.p) :
    ∃ Xs ys r, smoteSample sp vol dr d knn X y = .ok (Xs, ys) ∧
      SmoteStep d X y a (requested sp.proportion (y.count b) (y.count a)) Xs ys ∧
      FilterRun par (ensemble (min par.nFolds (y.count a))) 0 Xs ys r ∧
      ∀ fuel, (Xs.length + 1) * (par.k + 1) ≤ fuel → ipfSample fuel sp par ensemble vol dr d knn X y = some r := by
  obtain ⟨⟨Xs, ys⟩, hsm⟩ := C01_smote_total (par := sp) (vol := vol) hwf hk hdr hpos hmin hd hmode hwi
  obtain ⟨s, hs, rfl, rfl⟩ := stats_of_isMinority hmin
  have hstep := smoteStep_of hwf hk hdr hg hs h2 hsm
  obtain ⟨hlen, _⟩ := smoteStep_two hwf hmin h2 hstep
  obtain ⟨r, h3, h4⟩ := ipfLoop_run (par := par) he (folds := min par.nFolds (y.count s.minLabel)) (by omega) hp _ 0 Xs ys hlen
    (by omega) (le_refl _)
  refine ⟨Xs, ys, r, hsm, hstep, h3, ?_⟩
  intro fuel hfu
  rw [ipfSample_eq hmin h2 hn hsm]
  apply h4
  rw [Nat.add_mul] at hfu
  omega

/-- The data set a run returns. -/
theorem FilterRun.invariant {par : IpfParams} {ens : List Row → List Int → Res (List (List Int))} {c : Nat} {X : List Row} {y : List Int}
    {r : Res (List Row × List Int)} (h : FilterRun par ens c X y r) {Inv : List Row → List Int → Prop} (h0 : Inv X y)
    (hstep : ∀ X y P X' y', Inv X y → ens X y = .ok P → FilterRound par.consensus par.nFolds P X y X' y' → Inv X' y') {X' : List Row}
    {y' : List Int} (hr : r = .ok (X', y')) : Inv X' y' := by
  induction h with
  | done _ =>
    injection hr with hr
    obtain ⟨rfl, rfl⟩ := Prod.mk.inj hr
    exact h0
  | raised _ _ => cases hr
  | small _ h1 h2 _ _ ih => exact ih (hstep _ _ _ _ _ h0 h1 h2) hr
  | large _ h1 h2 _ _ ih => exact ih (hstep _ _ _ _ _ h0 h1 h2) hr

theorem FilterRound.labels {nFolds : Nat} {P : List (List Int)} {X X' : List Row} {y y' : List Int}
    (h : FilterRound false nFolds P X y X' y') : ∀ l ∈ y', l = 0 ∨ l = 1 := by
  obtain ⟨K, ⟨hsub, hX, hy⟩, hrem⟩ := h
  intro l hl
  obtain ⟨i, hi, hil⟩ := forall₂_mem_right hy hl
  by_contra hc
  have hir : i < X.length := List.mem_range.1 (hsub.subset hi)
  have : Removed X K i := by
    rw [hrem]
    refine ⟨l, hil, ?_, by simp⟩
    rcases lt_or_ge (P.length : ℤ) (2 * voteSum P i) with h | h
    · exact Or.inl ⟨h, fun e => hc (Or.inr e)⟩
    · exact Or.inr ⟨h, fun e => hc (Or.inl e)⟩
  exact this.2 hi

/-- **Majority voting knows the labels 0 and 1 only**: a data set it returns has no other label. A class labelled 2 or -1 is removed
entirely. -/
theorem C87_labels {par : IpfParams} {ens : List Row → List Int → Res (List (List Int))} {X X' : List Row} {y y' : List Int}
    (hv : par.consensus = false) (hk : 1 ≤ par.k) (h : FilterRun par ens 0 X y (.ok (X', y'))) : ∀ l ∈ y', l = 0 ∨ l = 1 := by
  have key : ∀ {c : Nat} {X : List Row} {y : List Int} {r : Res (List Row × List Int)}, FilterRun par ens c X y r →
      (∀ l ∈ y, l = 0 ∨ l = 1) → r = .ok (X', y') → ∀ l ∈ y', l = 0 ∨ l = 1 := by
    intro c X y r h h0 hr
    refine h.invariant (Inv := fun _ y => ∀ l ∈ y, l = 0 ∨ l = 1) h0 ?_ hr
    intro X y P X' y' _ _ hround
    rw [hv] at hround
    exact hround.labels
  generalize hc : 0 = c at h
  generalize hr : (Except.ok (X', y') : Res (List Row × List Int)) = r at h
  cases h with
  | done h1 => omega
  | raised _ _ => cases hr
  | small _ _ h2 _ h3 => rw [hv] at h2; exact key h3 h2.labels hr.symm
  | large _ _ h2 _ h3 => rw [hv] at h2; exact key h3 h2.labels hr.symm

/-- In a round of consensus voting a row labelled 1 stays. -/
theorem votedOut_one {nFolds : Nat} {P : List (List Int)} (hP : P.length ≤ nFolds) (hP0 : 0 < P.length) (i : Nat) :
    ¬ VotedOut true nFolds P 1 i := by
  rintro ⟨h1, h2⟩
  have h2 := h2 rfl
  rcases h1 with ⟨_, h⟩ | ⟨h, _⟩
  · exact h rfl
  · rw [h2] at h
    omega

/-- **Consensus voting never removes a row labelled 1**, however many classifiers disagree with its label. -/
theorem C87_consensus {par : IpfParams} {ensemble : Nat → List Row → List Int → Res (List (List Int))} {m : Nat} {X X' : List Row}
    {y y' : List Int} (hv : par.consensus = true) (he : EnsembleOK ensemble) (hxy : X.length = y.length) (hf : 0 < min par.nFolds m)
    (h : FilterRun par (ensemble (min par.nFolds m)) 0 X y (.ok (X', y'))) : y'.count 1 = y.count 1 := by
  have key := h.invariant (Inv := fun X1 y1 => X1.length = y1.length ∧ y1.count 1 = y.count 1) ⟨hxy, rfl⟩ ?_ rfl
  · exact key.2
  · rintro X1 y1 P X2 y2 ⟨e1, e2⟩ hens ⟨K, hsub, hrem⟩
    obtain ⟨_, hP, _⟩ := he _ _ _ _ hf hens
    refine ⟨by rw [← hsub.2.1.length_eq, ← hsub.2.2.length_eq], ?_⟩
    rw [← e2]
    apply hsub.count_eq e1
    intro i hi
    by_contra hc
    have hlt : i < X1.length := by rw [e1]; exact (List.getElem?_eq_some_iff.1 hi).1
    obtain ⟨l, hl, hvo⟩ := (hrem i).1 ⟨hlt, hc⟩
    rw [hi] at hl
    obtain rfl := Option.some.inj hl
    rw [hv] at hvo
    exact votedOut_one (by omega) (by omega) i hvo

theorem voteSum_le {P : List (List Int)} {i : Nat} (h : ∀ q ∈ P, ∀ l ∈ q, l = 0 ∨ l = 1) : voteSum P i ≤ P.length := by
  unfold voteSum
  induction P with
  | nil => simp
  | cons q P ih =>
    have h1 := ih (fun q hq => h q (by simp [hq]))
    rw [List.map_cons, List.sum_cons, List.length_cons]
    have : q.getD i 0 ≤ 1 := by
      rw [List.getD_eq_getElem?_getD]
      cases hq : q[i]? with
      | none => simp
      | some l =>
        rcases h q (by simp) l (List.mem_of_getElem? hq) with rfl | rfl <;> simp
    push_cast
    omega

theorem subData_all {α : Type} {X X' : List α} {y y' : List Int} {K : List Nat} (h : SubData X y X' y' K) (hxy : X.length = y.length)
    (hno : ∀ i, ¬ Removed X K i) : X' = X ∧ y' = y := by
  have hK : K = List.range X.length := by
    apply h.1.eq_of_length
    apply le_antisymm h.1.length_le
    apply List.Subperm.length_le
    apply List.subperm_of_subset List.nodup_range
    intro i hi
    by_contra hc
    exact hno i ⟨List.mem_range.1 hi, hc⟩
  obtain ⟨_, h1, h2⟩ := h
  rw [hK] at h1 h2
  constructor
  · apply List.ext_getElem?
    intro j
    by_cases hj : j < X.length
    · have := (List.forall₂_iff_get.1 h1).2 j (by simpa using hj) (by rw [← h1.length_eq]; simpa using hj)
      simp only [List.get_eq_getElem, List.getElem_range] at this
      rw [this]
      exact List.getElem?_eq_getElem _
    · rw [List.getElem?_eq_none (by rw [← h1.length_eq, List.length_range]; omega), List.getElem?_eq_none (by omega)]
  · rw [hxy] at h2
    apply List.ext_getElem?
    intro j
    by_cases hj : j < y.length
    · have := (List.forall₂_iff_get.1 h2).2 j (by simpa using hj) (by rw [← h2.length_eq]; simpa using hj)
      simp only [List.get_eq_getElem, List.getElem_range] at this
      rw [this]
      exact List.getElem?_eq_getElem _
    · rw [List.getElem?_eq_none (by rw [← h2.length_eq, List.length_range]; omega), List.getElem?_eq_none (by omega)]

/-- **Consensus voting removes nothing when the minority class is smaller than the number of folds**: with labels 0 and 1 the data set
of SMOTE comes back. -/
theorem C87_few {par : IpfParams} {ensemble : Nat → List Row → List Int → Res (List (List Int))} {m : Nat} {X X' : List Row}
    {y y' : List Int} (hv : par.consensus = true) (he : EnsembleOK ensemble) (hxy : X.length = y.length) (hm0 : 0 < m)
    (hm : m < par.nFolds) (hy : ∀ l ∈ y, l = 0 ∨ l = 1)
    (h : FilterRun par (ensemble (min par.nFolds m)) 0 X y (.ok (X', y'))) : X' = X ∧ y' = y := by
  refine h.invariant (Inv := fun X1 y1 => X1 = X ∧ y1 = y) ⟨rfl, rfl⟩ ?_ rfl
  rintro X1 y1 P X2 y2 ⟨rfl, rfl⟩ hens ⟨K, hsub, hrem⟩
  obtain ⟨_, hP, hq⟩ := he _ _ _ _ (by omega) hens
  apply subData_all hsub hxy
  intro i hi
  obtain ⟨l, _, _, h2⟩ := (hrem i).1 hi
  have h3 := h2 hv
  have h4 := voteSum_le (i := i) (fun q hq' l hl => hy l ((hq q hq').2 l hl))
  omega

theorem voteSum_eq_count {P : List (List Int)} {i : Nat} (h : ∀ q ∈ P, q.getD i 0 = 0 ∨ q.getD i 0 = 1) :
    voteSum P i = P.countP (fun q => q.getD i 0 == 1) := by
  unfold voteSum
  induction P with
  | nil => rfl
  | cons q P ih =>
    rw [List.map_cons, List.sum_cons, ih (fun q hq => h q (by simp [hq])), List.countP_cons]
    rcases h q (by simp) with h | h <;> rw [h] <;> simp [add_comm]

/-- **The votes for labels 0 and 1.** With majority voting a row labelled 0 is voted out if more than half of the classifiers say 1, and a
row labelled 1 if no more than half do; with consensus voting a row is voted out if it is labelled 0, all say 1 and there are as many
classifiers as configured. -/
theorem C87_votes {nFolds : Nat} {P : List (List Int)} {i : Nat} (h : ∀ q ∈ P, q.getD i 0 = 0 ∨ q.getD i 0 = 1) (hP0 : 0 < P.length)
    (hP : P.length ≤ nFolds) :
    (VotedOut false nFolds P 0 i ↔ P.length < 2 * P.countP (fun q => q.getD i 0 == 1)) ∧
    (VotedOut false nFolds P 1 i ↔ 2 * P.countP (fun q => q.getD i 0 == 1) ≤ P.length) ∧
    (VotedOut true nFolds P 0 i ↔ P.length = nFolds ∧ ∀ q ∈ P, q.getD i 0 = 1) ∧
    ¬ VotedOut true nFolds P 1 i := by
  have e := voteSum_eq_count h
  refine ⟨?_, ?_, ?_, votedOut_one hP hP0 i⟩
  · unfold VotedOut
    rw [e]
    simp
    omega
  · unfold VotedOut
    rw [e]
    simp
    omega
  · have hle := List.countP_le_length (p := fun q : List Int => q.getD i 0 == 1) (l := P)
    have hall : (∀ q ∈ P, q.getD i 0 = 1) ↔ P.countP (fun q => q.getD i 0 == 1) = P.length := by
      rw [List.countP_eq_length]
      simp
    rw [hall]
    unfold VotedOut
    rw [e]
    constructor
    · rintro ⟨_, h2⟩
      have := h2 rfl
      omega
    · rintro ⟨h1, h2⟩
      rw [h2]
      refine ⟨Or.inl ⟨by omega, by decide⟩, fun _ => by omega⟩

theorem ipfLoop_zero {par : IpfParams} {folds : Nat} {ensemble : Nat → List Row → List Int → Res (List (List Int))} (hp : par.p = 0)
    (hk : 1 ≤ par.k) : ∀ (fuel : Nat) (X : List Row) (y : List Int) (r : List Row × List Int),
      ipfLoop par folds ensemble fuel 0 X y ≠ some (.ok r)
  | 0, X, y, r => by unfold ipfLoop; rw [if_pos (by omega)]; simp
  | fuel + 1, X, y, r => by
    unfold ipfLoop
    rw [if_pos (by omega)]
    cases ensemble folds X y with
    | error e => simp
    | ok P =>
      dsimp only
      rw [hp, mul_zero, if_neg (by push Not; positivity), mul_zero]
      exact ipfLoop_zero hp hk fuel _ _ r

/-- **With `p = 0` no data set is ever returned** if any row was requested, although the constructor accepts `p = 0`. -/
theorem C87_zero {sp : SmoteParams} {par : IpfParams} {ensemble : Nat → List Row → List Int → Res (List (List Int))}
    {vol : List Row → ℚ} {dr : Draws} {d : Nat} {knn : Nat → List Row → List (List Nat)}
    {X : List Row} {y : List Int} {a b : Int} (hmin : IsMinority y a b) (h2 : 2 < y.count a)
    (hn : 0 < requested sp.proportion (y.count b) (y.count a)) (hp : par.p = 0) (hk : 1 ≤ par.k) (fuel : Nat) (r : List Row × List Int) :
    ipfSample fuel sp par ensemble vol dr d knn X y ≠ some (.ok r) := by
  cases hsm : smoteSample sp vol dr d knn X y with
  | ok sm =>
    obtain ⟨Xs, ys⟩ := sm
    rw [ipfSample_eq hmin h2 hn hsm]
    exact ipfLoop_zero hp hk _ _ _ _
  | error e =>
    obtain ⟨s, hs, rfl, rfl⟩ := stats_of_isMinority hmin
    obtain ⟨hm, hM, hab⟩ := stats_min_mem hs
    unfold ipfSample
    rw [hs]
    dsimp only
    rw [stats_count hs hm, checksFire_default]
    rw [if_neg (by simp; omega)]
    unfold ipfAlg
    rw [stats_count hs hm, stats_count hs hM, detN_eq_requested, ok_bind, if_neg (by omega), hsm, error_bind]
    simp

theorem ipfLoop_stuck {par : IpfParams} {folds : Nat} {ensemble : Nat → List Row → List Int → Res (List (List Int))} (hp : par.p = 0)
    (hk : 1 ≤ par.k) {X : List Row} {y : List Int} {P : List (List Int)} (hens : ensemble folds X y = .ok P)
    (hno : ipfToRemove par P y = []) : ∀ fuel : Nat, ipfLoop par folds ensemble fuel 0 X y = none
  | 0 => by unfold ipfLoop; rw [if_pos (by omega)]
  | fuel + 1 => by
    unfold ipfLoop
    rw [if_pos (by omega), hens]
    dsimp only
    rw [hp, mul_zero, if_neg (by push Not; positivity), mul_zero, hno]
    have e : ∀ {α : Type} (l : List α), npDelete l [] = l := by
      intro α l
      unfold npDelete
      simp
    rw [e, e]
    exact ipfLoop_stuck hp hk hens hno fuel

/-- **It then runs for ever**: with `p = 0` and classifiers that learn the labels 0 and 1 of the rows SMOTE returns, no number of rounds is
enough. -/
theorem C87_hangs {sp : SmoteParams} {par : IpfParams} {ensemble : Nat → List Row → List Int → Res (List (List Int))}
    {vol : List Row → ℚ} {dr : Draws} {d : Nat} {knn : Nat → List Row → List (List Nat)}
    {X Xs : List Row} {y ys : List Int} {a b : Int} (hmin : IsMinority y a b) (h2 : 2 < y.count a)
    (hn : 0 < requested sp.proportion (y.count b) (y.count a)) (hsm : smoteSample sp vol dr d knn X y = .ok (Xs, ys)) (hp : par.p = 0)
    (hk : 1 ≤ par.k) (hf : 2 ≤ par.nFolds) (hy : ∀ l ∈ ys, l = 0 ∨ l = 1)
    (hens : ensemble (min par.nFolds (y.count a)) Xs ys = .ok (List.replicate (min par.nFolds (y.count a)) ys)) (fuel : Nat) :
    ipfSample fuel sp par ensemble vol dr d knn X y = none := by
  rw [ipfSample_eq hmin h2 hn hsm]
  apply ipfLoop_stuck hp hk hens
  obtain ⟨f, hfe⟩ : ∃ f, f = min par.nFolds (y.count a) := ⟨_, rfl⟩
  rw [← hfe]
  apply List.eq_nil_iff_forall_not_mem.2
  intro i hi
  have hP : List.replicate f ys ≠ [] := by
    intro h
    have := congrArg List.length h
    simp at this
    omega
  obtain ⟨l, hl, h1, _⟩ := (mem_ipfToRemove hP).1 hi
  have hg : ys.getD i 0 = l := by rw [List.getD_eq_getElem?_getD, hl]; rfl
  have hvs : voteSum (List.replicate f ys) i = f * l := by
    unfold voteSum
    rw [List.map_replicate, List.sum_replicate, hg]
    simp
  rw [hvs, List.length_replicate] at h1
  rcases hy l (List.mem_of_getElem? hl) with rfl | rfl
  · rcases h1 with ⟨h, _⟩ | ⟨_, h⟩
    · simp at h; omega
    · exact h rfl
  · rcases h1 with ⟨_, h⟩ | ⟨h, _⟩
    · exact h rfl
    · omega

/-! ## Examples -/

/-- Classifiers that say 1 for rows whose first coordinate is less than `t` and 0 for the others, as far as the label is in use. -/
def ipEnsemble (t : ℚ) (f : Nat) (X : List Row) (y : List Int) : Res (List (List Int)) :=
  if X = [] ∨ y = [] then .error .valueError
  else .ok (List.replicate f (X.map (fun r => if (if r.getD 0 0 < t then 1 else 0) ∈ y then (if r.getD 0 0 < t then 1 else 0) else y.getD 0 0)))

theorem ipEnsemble_ok (t : ℚ) : EnsembleOK (ipEnsemble t) := by
  intro f X y P hf h
  unfold ipEnsemble at h
  split at h
  · cases h
  · rename_i hc
    push Not at hc
    injection h with h
    subst h
    refine ⟨hc.1, by simp, ?_⟩
    intro q hq
    obtain rfl := List.eq_of_mem_replicate hq
    refine ⟨by simp, ?_⟩
    intro l hl
    obtain ⟨r, _, rfl⟩ := List.mem_map.1 hl
    have h0 : y.getD 0 0 ∈ y := by
      cases y with
      | nil => exact absurd rfl hc.2
      | cons a y => simp
    generalize (if r.getD 0 0 < t then (1 : Int) else 0) = v
    by_cases hv : v ∈ y
    · rw [if_pos hv]; exact hv
    · rw [if_neg hv]; exact h0

/-- Three folds, three small rounds, one percent, majority voting. -/
def ipPar : IpfParams := ⟨3, 3, 1 / 100, false⟩

/-- The hypotheses of `C87_ipf` are met; the filter removes the two majority rows taken for minority rows. -/
example : WF 2 exX exY ∧ IsMinority exY 1 0 ∧ 2 < exY.count 1 ∧ exDraws.OK ∧ (∀ i j, 0 < exDraws.simplexU i j) ∧ KnnOK exKnn ∧
    exPar.ss.gaussian = .none ∧ 1 ≤ exPar.ss.nDim ∧ exPar.ss.simplexSampling = .random ∧ exPar.ss.within = .random ∧
    0 < requested exPar.proportion (exY.count 0) (exY.count 1) ∧ EnsembleOK (ipEnsemble (11 / 2)) ∧ 2 ≤ ipPar.nFolds ∧ 0 < ipPar.p ∧
    ipfSample 60 exPar ipPar (ipEnsemble (11 / 2)) (fun _ => 1) exDraws 2 exKnn exX exY =
      some (.ok ([[0, 0], [1, 0], [0, 1], [6, 5], [6, 6], [7, 7], [3 / 5, 0], [3 / 5, 0]], [1, 1, 1, 0, 0, 0, 1, 1])) :=
  ⟨by decide, exY_min, by decide, exDraws_ok, fun i j => by simp only [exDraws]; positivity, exKnn_ok, rfl, by decide, rfl, rfl,
    by decide +kernel, ipEnsemble_ok _, by decide, by decide +kernel, by decide +kernel⟩

/-- With the minority labelled 2 and the majority 1 majority voting leaves none of the minority rows (`C87_labels`). -/
example : ipfSample 60 exPar ipPar (ipEnsemble 2) (fun _ => 1) exDraws 2 exKnn exX (exY.map (· + 1)) =
    some (.ok ([[5, 5], [6, 5], [5, 6], [6, 6], [7, 7]], [1, 1, 1, 1, 1])) := by decide +kernel

/-- Consensus voting: of the rows labelled 0 those which all take for 1 go, the rows labelled 1 which all take for 0 stay
(`C87_consensus`). -/
example : ipfSample 60 exPar ⟨3, 3, 1 / 100, true⟩ (ipEnsemble (11 / 2)) (fun _ => 1) exDraws 2 exKnn exX exY =
      some (.ok ([[0, 0], [1, 0], [0, 1], [6, 5], [6, 6], [7, 7], [3 / 5, 0], [3 / 5, 0]], [1, 1, 1, 0, 0, 0, 1, 1])) ∧
    ipfSample 60 exPar ⟨3, 3, 1 / 100, true⟩ (ipEnsemble (1 / 2)) (fun _ => 1) exDraws 2 exKnn exX exY =
      some (smoteSample exPar (fun _ => 1) exDraws 2 exKnn exX exY) := by decide +kernel

/-- With nine folds configured and three minority rows nothing is removed (`C87_few`). -/
example : ipfSample 60 exPar ⟨9, 3, 1 / 100, true⟩ (ipEnsemble (11 / 2)) (fun _ => 1) exDraws 2 exKnn exX exY =
    some (smoteSample exPar (fun _ => 1) exDraws 2 exKnn exX exY) := by decide +kernel

/-- The hypotheses of `C87_hangs` are met. -/
example : ∃ Xs ys, smoteSample exPar (fun _ => 1) exDraws 2 exKnn exX exY = .ok (Xs, ys) ∧ (∀ l ∈ ys, l = 0 ∨ l = 1) ∧
    ipEnsemble 2 (min 9 (exY.count 1)) Xs ys = .ok (List.replicate (min 9 (exY.count 1)) ys) :=
  ⟨[[0, 0], [1, 0], [0, 1], [5, 5], [6, 5], [5, 6], [6, 6], [7, 7], [3 / 5, 0], [3 / 5, 0]], [1, 1, 1, 0, 0, 0, 0, 0, 1, 1],
    by decide +kernel⟩

end Verif

import Verif.Model.Lee
import Verif.Lemmas.Smote
import Verif.Lemmas.SmoteExample
import Verif.Lemmas.ClassRows
import Verif.Spec.Neighbors

/-!
# C32 The rejection loop of Lee terminates
-/

namespace Verif

/-- Share of the `nNeighbors` neighbours listed for `x` that carry the label `maj`. -/
def shareOf (y : List Int) (maj : Int) (nNeighbors : Nat) (nbs : List Nat) : ℚ :=
  ((nbs.filter (fun i => decide (y[i]? = some maj))).length : ℚ) / nNeighbors

/-- Number of raises by 0.1 until the level exceeds one. -/
def raisesLeft (level : ℚ) : Nat := if 1 < level then 0 else ⌊(1 - level) * 10⌋.toNat + 1

theorem lee_count_takeRows {y labels : List Int} {l : Int} {idx : List Nat} (h : takeRows y idx = .ok labels) :
    labels.count l = (idx.filter (fun i => decide (y[i]? = some l))).length := by
  have h' := mapM_ok_iff.1 h
  clear h
  induction h' with
  | nil => rfl
  | @cons i v is vs hab _ ih =>
    have hv := getRow_ok.1 hab
    rw [List.filter_cons, hv]
    by_cases he : v = l
    · subst he; simp [ih]
    · simp [he, ih]

theorem majFrac_eq {y : List Int} {maj : Int} {k : Nat} {query : Row → List Nat} {x : Row} {f : ℚ}
    (h : majFrac y maj k query x = .ok f) : f = shareOf y maj k (query x) := by
  unfold majFrac at h
  obtain ⟨labels, hl, h⟩ := bind_ok.1 h
  injection h with h
  rw [← h, lee_count_takeRows hl, shareOf]

theorem majFrac_ok {y : List Int} {maj : Int} {k : Nat} {query : Row → List Nat} {x : Row}
    (hq : ∀ i ∈ query x, i < y.length) : majFrac y maj k query x = .ok (shareOf y maj k (query x)) := by
  obtain ⟨labels, hl⟩ := takeRows_ok_of_lt hq
  have : majFrac y maj k query x = .ok ((labels.count maj : ℚ) / (k : ℚ)) := by
    unfold majFrac; rw [hl]; rfl
  rw [this, majFrac_eq this]

theorem withFrac_eq {y : List Int} {maj : Int} {k : Nat} {query : Row → List Nat} {rows : List Row}
    {cand : List (Row × ℚ)} (h : withFrac y maj k query rows = .ok cand) :
    cand = rows.map (fun x => (x, shareOf y maj k (query x))) := by
  have h' := mapM_ok_iff.1 h
  clear h
  induction h' with
  | nil => rfl
  | @cons x c xs cs hab _ ih =>
    obtain ⟨f, hf, hab⟩ := bind_ok.1 hab
    injection hab with hab
    rw [List.map_cons, ← ih, ← hab, majFrac_eq hf]

theorem withFrac_ok {y : List Int} {maj : Int} {k : Nat} {query : Row → List Nat} {rows : List Row}
    (hq : ∀ x ∈ rows, ∀ i ∈ query x, i < y.length) : ∃ cand, withFrac y maj k query rows = .ok cand := by
  apply mapM_exists_ok
  intro x hx
  exact ⟨_, by rw [majFrac_ok (hq x hx)]; rfl⟩

theorem shareOf_le_one {y : List Int} {maj : Int} {k : Nat} {nbs : List Nat} (h : nbs.length ≤ k) :
    shareOf y maj k nbs ≤ 1 := by
  unfold shareOf
  apply div_le_one_of_le₀ _ (by positivity)
  exact_mod_cast le_trans (List.length_filter_le _ _) h

/-- What the loop has left to do. -/
def leeMeasure (n : Nat) (st : LeeState) : Nat :=
  (n - st.samples.length) + (6 * raisesLeft st.level - st.tries)

theorem raisesLeft_step {level : ℚ} (h : level ≤ 1) : raisesLeft (level + 1 / 10) + 1 = raisesLeft level := by
  unfold raisesLeft
  rw [if_neg (not_lt.2 h)]
  have e : (1 - (level + 1 / 10)) * 10 = (1 - level) * 10 - 1 := by ring
  have e2 : ⌊(1 - level) * 10 - 1⌋ = ⌊(1 - level) * 10⌋ - 1 := by
    simp
  have h0 : 0 ≤ ⌊(1 - level) * 10⌋ := Int.floor_nonneg.2 (by nlinarith)
  split
  · rename_i h1
    have : (1 - level) * 10 < 1 := by linarith
    have : ⌊(1 - level) * 10⌋ < 1 := Int.floor_lt.2 (by simpa using this)
    omega
  · rename_i h1
    have : 1 ≤ (1 - level) * 10 := by linarith
    have : 1 ≤ ⌊(1 - level) * 10⌋ := Int.le_floor.2 (by simpa using this)
    rw [e, e2]
    omega

theorem raisesLeft_pos {level : ℚ} (h : level ≤ 1) : 1 ≤ raisesLeft level := by
  unfold raisesLeft; rw [if_neg (not_lt.2 h)]; omega

/-- A round with at least one candidate, all of fraction at most one, makes progress. -/
theorem leeUpdate_measure {n : Nat} {st : LeeState} {cand : List (Row × ℚ)} (hne : cand ≠ [])
    (hle : ∀ c ∈ cand, c.2 ≤ 1) (ht : st.tries ≤ 5) (hn : st.samples.length < n) :
    leeMeasure n (leeUpdate st cand) < leeMeasure n st ∧ (leeUpdate st cand).tries ≤ 5 := by
  unfold leeMeasure leeUpdate
  dsimp only
  by_cases hz : (accepted st.level cand).length = 0
  · have hlev : st.level ≤ 1 := by
      by_contra hc
      obtain ⟨c, cs, rfl⟩ := List.exists_cons_of_ne_nil hne
      have h1 := hle c (by simp)
      have : accepted st.level (c :: cs) ≠ [] := by
        unfold accepted
        rw [List.filter_cons, if_pos (by simp; linarith [not_le.1 hc])]
        simp
      exact this (List.length_eq_zero_iff.1 hz)
    have h1 := raisesLeft_step hlev
    have h2 := raisesLeft_pos hlev
    rw [if_pos hz]
    by_cases h5 : st.tries + 1 > 5
    · simp only [if_pos h5, List.length_append]
      omega
    · simp only [if_neg h5, List.length_append]
      omega
  · rw [if_neg hz, if_neg (by omega), if_neg (by omega), List.length_append]
    omega

/-- `leeLoop` gives up on nothing once the fuel covers the measure. -/
theorem leeLoop_done {round : LeeState → Res LeeState} {n : Nat} {P : LeeState → Prop}
    (hstep : ∀ st, P st → st.samples.length < n → ∃ st', round st = .ok st' ∧ P st' ∧ leeMeasure n st' < leeMeasure n st) :
    ∀ (fuel : Nat) (st : LeeState), P st → leeMeasure n st ≤ fuel →
      ∃ samples, leeLoop round n fuel st = .ok (some samples) ∧ samples.length = n := by
  intro fuel
  induction fuel with
  | zero =>
    intro st _ hm
    have : ¬ st.samples.length < n := by unfold leeMeasure at hm; omega
    refine ⟨st.samples.take n, by simp only [leeLoop, if_neg this], ?_⟩
    rw [List.length_take]; omega
  | succ f ih =>
    intro st hP hm
    by_cases hl : st.samples.length < n
    · obtain ⟨st', h1, h2, h3⟩ := hstep st hP hl
      obtain ⟨s, hs, hs'⟩ := ih st' h2 (by omega)
      exact ⟨s, by simp only [leeLoop, if_pos hl]; rw [h1, ok_bind, hs], hs'⟩
    · refine ⟨st.samples.take n, by simp only [leeLoop, if_neg hl], ?_⟩
      rw [List.length_take]; omega

/-- Every invariant of the rounds holds for some state the returned rows come from. -/
theorem leeLoop_inv {round : LeeState → Res LeeState} {n : Nat} {P : LeeState → Prop}
    (hstep : ∀ st st', P st → st.samples.length < n → round st = .ok st' → P st') :
    ∀ (fuel : Nat) (st : LeeState) (out : List Row), P st → leeLoop round n fuel st = .ok (some out) →
      ∃ st', P st' ∧ n ≤ st'.samples.length ∧ out = st'.samples.take n := by
  intro fuel
  induction fuel with
  | zero =>
    intro st out hP h
    simp only [leeLoop] at h
    split at h
    · simp at h
    · injection h with h
      injection h with h
      exact ⟨st, hP, by omega, h.symm⟩
  | succ f ih =>
    intro st out hP h
    simp only [leeLoop] at h
    split at h
    · rename_i hl
      obtain ⟨st', h1, h2⟩ := bind_ok.1 h
      exact ih st' out (hstep st st' hP hl h1) h2
    · injection h with h
      injection h with h
      exact ⟨st, hP, by omega, h.symm⟩

/-- The loop of `Lee` ends: after at most `requested + 6 * (raises of the level until it exceeds one)` rounds the call has
returned, for every data set, every neighbour answer and every infinite sequence of draws. -/
theorem C32_terminates {par : LeeParams} {vol : List Row → ℚ} {dr : Nat → Draws} {d : Nat}
    {knn : Nat → List Row → List (List Nat)} {query : Nat → List Row → Row → List Nat}
    {X : List Row} {y : List Int} {a b : Int} (hwf : WF d X y) (hmin : IsMinority y a b) (hknn : KnnOK knn)
    (hquery : ∀ k rows x, k ≤ rows.length → (query k rows x).length = k ∧ ∀ i ∈ query k rows x, i < rows.length)
    (hdim : 1 ≤ par.ss.nDim) (hmode : par.ss.simplexSampling = .random ∨ par.ss.simplexSampling = .deterministic)
    (hwi : par.ss.within = .random ∨ (par.ss.within = .deterministic ∧ par.ss.nDim ≤ 2))
    (hdr : ∀ r, (dr r).OK) (hu : ∀ r i j, 0 < (dr r).simplexU i j)
    {fuel : Nat}
    (hf : requested par.proportion (y.count b) (y.count a) + 6 * (⌊(1 - par.rejection) * 10⌋.toNat + 1) ≤ fuel) :
    ∃ r, leeSample fuel par vol dr d knn query X y = .ok (some r) := by
  obtain ⟨s, hs, rfl, rfl⟩ := stats_of_isMinority hmin
  obtain ⟨hm, hM, _⟩ := stats_min_mem hs
  unfold leeSample
  rw [hs, ok_bind, stats_count hs hm, checksFire_default]
  by_cases h2 : y.count s.minLabel ≤ 2
  · exact ⟨(X, y), by simp [h2]⟩
  simp only [h2, decide_false]
  rw [if_neg (by simp)]
  unfold leeAlg
  rw [stats_count hs hm, stats_count hs hM, detN_eq_requested, ok_bind]
  set n := requested par.proportion (y.count s.majLabel) (y.count s.minLabel) with hn
  by_cases h0 : n = 0
  · rw [if_pos h0]; exact ⟨_, rfl⟩
  rw [if_neg h0]
  dsimp only
  have hl := selectLabel_length hwf.1 s.minLabel
  have hlX : (selectLabel X y s.minLabel).length ≤ X.length := by
    rw [hl, ← hwf.1.symm]; exact List.count_le_length
  set Xmin := selectLabel X y s.minLabel with hXm
  obtain ⟨ht, htab⟩ := hknn (min Xmin.length (par.nNeighbors + 1)) Xmin (by omega)
  obtain ⟨out, hout, -⟩ := leeLoop_done (n := n)
    (round := leeRound par vol dr d y s.majLabel Xmin (knn (min Xmin.length (par.nNeighbors + 1)) Xmin)
      (min Xmin.length (par.nNeighbors + 1)) n (query (min Xmin.length par.nNeighbors) X))
    (P := fun st => st.tries ≤ 5)
    (by
      intro st hP hlt
      unfold leeRound
      obtain ⟨new, hnew⟩ := sampleSimplex_ok (ss := par.ss) (vol := vol) (dr := dr st.round) (d := d) (X := Xmin)
        (n := max (n - st.samples.length) 20) (a := {}) htab (by omega)
        (by intro hc; rw [hc] at ht; simp at ht; omega) (by omega) hdim rfl (by intro ws h; cases h) (by intro h; cases h)
        (by rcases hmode with h | h <;> simp [WeightsOK, h]) (hdr _).choice (hu _)
        (hwi.imp id (fun h => ⟨h.1, by omega⟩))
      obtain ⟨cand, hcand⟩ := withFrac_ok (y := y) (maj := s.majLabel) (k := par.nNeighbors)
        (query := query (min Xmin.length par.nNeighbors) X) (rows := new) (by
          intro x _ i hi
          have := (hquery (min Xmin.length par.nNeighbors) X x (by omega)).2 i hi
          rw [← hwf.1]; exact this)
      rw [hnew, ok_bind, hcand, ok_bind]
      have hnl : new.length = max (n - st.samples.length) 20 := by
        obtain ⟨gen, g1, _, g3⟩ := sampleSimplex_sound
          (X := Xmin) (fun r hr => hwf.2 r (selectLabel_mem hr)) (by intro V hV; cases hV)
          (by intro V hV; cases hV) (by intro hV; cases hV) (fun i j => ((hdr st.round).simplex i j).1)
          (by omega) hnew
        rw [g3, addGaussianNoise_length, g1]
      have hc := withFrac_eq hcand
      obtain ⟨m1, m2⟩ := leeUpdate_measure (n := n) (st := st) (cand := cand)
        (by rw [hc]; intro h; have := congrArg List.length h; simp at this; rw [this] at hnl; simp at hnl; omega)
        (by
          intro c hcm
          rw [hc, List.mem_map] at hcm
          obtain ⟨x, _, rfl⟩ := hcm
          apply shareOf_le_one
          have := (hquery (min Xmin.length par.nNeighbors) X x (by omega)).1
          omega) hP hlt
      exact ⟨_, rfl, m2, m1⟩)
    fuel ⟨[], par.rejection, 0, 0⟩ (by simp) (by
      refine le_trans ?_ hf
      unfold leeMeasure raisesLeft
      dsimp only
      split <;> simp)
  exact ⟨_, by rw [hout, ok_bind]; rfl⟩

theorem mem_accepted {level : ℚ} {y : List Int} {maj : Int} {k : Nat} {query : Row → List Nat} {new : List Row} {x : Row}
    (h : x ∈ accepted level (new.map (fun x => (x, shareOf y maj k (query x))))) :
    x ∈ new ∧ shareOf y maj k (query x) < level := by
  unfold accepted at h
  rw [List.mem_map] at h
  obtain ⟨c, hc, rfl⟩ := h
  rw [List.mem_filter, List.mem_map] at hc
  obtain ⟨⟨x, hx, rfl⟩, hc⟩ := hc
  exact ⟨hx, by simpa using hc⟩

/-- Whatever number of rounds was needed: a completed call returns the input followed by exactly the requested number of
minority rows, each a convex combination of a minority row and its minority neighbours (without gaussian component), and
each with a share of majority neighbours below the rejection level after `j` raises by one tenth, where a raise only happens
when the level does not exceed one. -/
theorem C32_result {fuel : Nat} {par : LeeParams} {vol : List Row → ℚ} {dr : Nat → Draws} {d : Nat}
    {knn : Nat → List Row → List (List Nat)} {query : Nat → List Row → Row → List Nat}
    {X X' : List Row} {y y' : List Int} {a b : Int} (hwf : WF d X y) (hmin : IsMinority y a b) (hknn : KnnOK knn)
    (hquery : ∀ k rows x, k ≤ rows.length → (query k rows x).length = k ∧ ∀ i ∈ query k rows x, i < rows.length)
    (hg : par.ss.gaussian = .none) (hdr : ∀ r, (dr r).OK)
    (h : leeSample fuel par vol dr d knn query X y = .ok (some (X', y'))) :
    (y.count a ≤ 2 ∧ X' = X ∧ y' = y) ∨
    (2 < y.count a ∧ ∃ new : List Row, X' = X ++ new ∧
      y' = y ++ List.replicate (requested par.proportion (y.count b) (y.count a)) a ∧
      new.length = requested par.proportion (y.count b) (y.count a) ∧
      ∃ j : Nat, (j = 0 ∨ par.rejection + (j - 1) / 10 ≤ 1) ∧ ∀ x ∈ new,
        GeneratedFrom d (classRows X y a) (classRows X y a)
          (knn (min (y.count a) (par.nNeighbors + 1)) (classRows X y a)) x ∧
        shareOf y b par.nNeighbors (query (min (y.count a) par.nNeighbors) X x) < par.rejection + j / 10) := by
  obtain ⟨s, hs, rfl, rfl⟩ := stats_of_isMinority hmin
  obtain ⟨hm, hM, _⟩ := stats_min_mem hs
  unfold leeSample at h
  rw [hs, ok_bind, stats_count hs hm, checksFire_default] at h
  by_cases h2 : y.count s.minLabel ≤ 2
  · simp only [h2, decide_true, if_true] at h
    injection h with h
    injection h with h
    obtain ⟨rfl, rfl⟩ := Prod.mk.inj h
    exact Or.inl ⟨h2, rfl, rfl⟩
  right
  refine ⟨by omega, ?_⟩
  simp only [h2, decide_false] at h
  rw [if_neg (by simp)] at h
  unfold leeAlg at h
  rw [stats_count hs hm, stats_count hs hM, detN_eq_requested, ok_bind] at h
  set n := requested par.proportion (y.count s.majLabel) (y.count s.minLabel) with hn
  by_cases h0 : n = 0
  · rw [if_pos h0] at h
    injection h with h
    injection h with h
    obtain ⟨rfl, rfl⟩ := Prod.mk.inj h
    exact ⟨[], by simp, by simp [h0], by simp [h0], 0, Or.inl rfl, by simp⟩
  rw [if_neg h0] at h
  dsimp only at h
  have hl := selectLabel_length hwf.1 s.minLabel
  have hlX : (selectLabel X y s.minLabel).length ≤ X.length := by
    rw [hl, ← hwf.1.symm]; exact List.count_le_length
  rw [hl] at h hlX
  rw [← selectLabel_eq_classRows]
  set Xmin := selectLabel X y s.minLabel with hXm
  obtain ⟨ht, htab⟩ := hknn (min (y.count s.minLabel) (par.nNeighbors + 1)) Xmin (by omega)
  obtain ⟨out, hout, h⟩ := bind_ok.1 h
  injection h with h
  cases out with
  | none => simp at h
  | some out =>
    simp only [Option.map_some, Option.some.injEq] at h
    obtain ⟨rfl, rfl⟩ := Prod.mk.inj h
    obtain ⟨st, ⟨-, ⟨j, hj, hlev⟩, hP⟩, hlen, rfl⟩ := leeLoop_inv (n := n)
      (P := fun st => st.tries ≤ 5 ∧ (∃ j : Nat, (j = 0 ∨ par.rejection + (j - 1) / 10 ≤ 1) ∧ st.level = par.rejection + j / 10) ∧
        ∀ x ∈ st.samples, GeneratedFrom d Xmin Xmin (knn (min (y.count s.minLabel) (par.nNeighbors + 1)) Xmin) x ∧
          shareOf y s.majLabel par.nNeighbors (query (min (y.count s.minLabel) par.nNeighbors) X x) < st.level)
      (by
        intro st st' ⟨h5, ⟨j, hj, hlev⟩, hP⟩ hlt hr
        unfold leeRound at hr
        obtain ⟨new, hnew, hr⟩ := bind_ok.1 hr
        obtain ⟨cand, hcand, hr⟩ := bind_ok.1 hr
        injection hr with hr
        have hc := withFrac_eq hcand
        obtain ⟨gen, g1, g2, g3⟩ := sampleSimplex_sound
          (X := Xmin) (fun r hr => hwf.2 r (selectLabel_mem hr)) (by intro V hV; cases hV)
          (by intro V hV; cases hV) (by intro hV; cases hV) (fun i j => ((hdr st.round).simplex i j).1)
          (by omega) hnew
        rw [hg] at g3
        simp only [addGaussianNoise] at g3
        subst g3
        have hne : new ≠ [] := by
          intro hz; rw [hz] at g1; simp at g1; omega
        subst hr
        subst hc
        unfold leeUpdate
        dsimp only
        have key : ∀ lev, st.level ≤ lev → ∀ x ∈ st.samples ++ accepted lev (new.map (fun x =>
            (x, shareOf y s.majLabel par.nNeighbors (query (min (y.count s.minLabel) par.nNeighbors) X x)))),
            GeneratedFrom d Xmin Xmin (knn (min (y.count s.minLabel) (par.nNeighbors + 1)) Xmin) x ∧
            shareOf y s.majLabel par.nNeighbors (query (min (y.count s.minLabel) par.nNeighbors) X x) < lev := by
          intro lev hlev x hx
          rcases List.mem_append.1 hx with hx | hx
          · exact ⟨(hP x hx).1, lt_of_lt_of_le (hP x hx).2 hlev⟩
          · obtain ⟨hx1, hx2⟩ := mem_accepted hx
            exact ⟨g2 x hx1, hx2⟩
        split
        · rename_i hz
          split
          · refine ⟨by omega, ⟨j + 1, Or.inr ?_, by rw [hlev]; push_cast; ring⟩, key _ (by linarith)⟩
            -- a failed round has a level of at most one
            by_contra hc
            obtain ⟨x, xs, rfl⟩ := List.exists_cons_of_ne_nil hne
            have h1 : shareOf y s.majLabel par.nNeighbors (query (min (y.count s.minLabel) par.nNeighbors) X x) ≤ 1 := by
              apply shareOf_le_one
              have := (hquery (min (y.count s.minLabel) par.nNeighbors) X x (by omega)).1
              omega
            have : accepted st.level ((x :: xs).map (fun x =>
                (x, shareOf y s.majLabel par.nNeighbors (query (min (y.count s.minLabel) par.nNeighbors) X x)))) ≠ [] := by
              unfold accepted
              rw [List.map_cons, List.filter_cons, if_pos]
              · simp
              · simp only [decide_eq_true_eq]
                rw [hlev]
                push_cast at hc
                have := not_le.1 hc
                rw [add_sub_cancel_right] at this
                linarith
            exact this (List.length_eq_zero_iff.1 hz)
          · exact ⟨by omega, ⟨j, hj, hlev⟩, key _ le_rfl⟩
        · split
          · omega
          · exact ⟨by omega, ⟨j, hj, hlev⟩, key _ le_rfl⟩)
      fuel ⟨[], par.rejection, 0, 0⟩ out ⟨by simp, ⟨0, Or.inl rfl, by simp⟩, by simp⟩ hout
    refine ⟨st.samples.take n, rfl, by rw [List.length_take, Nat.min_eq_left hlen], by rw [List.length_take]; omega, j, hj, ?_⟩
    intro x hx
    rw [← hlev]
    exact hP x (List.mem_of_mem_take hx)

/-- Three minority rows, with majority rows around the midpoint of the first two. -/
def leeX : List Row := [[0], [10], [20], [49/10], [51/10], [149/10], [151/10]]
def leeY : List Int := [1, 1, 1, 0, 0, 0, 0]
/-- The two nearest rows, by the specification's own search. -/
def leeQuery (k : Nat) (rows : List Row) (x : Row) : List Nat := nearestTo rows k x
def leeDraws (_ : Nat) : Draws := { choiceU := fun _ => 0, simplexU := fun _ _ => 1/2, normalU := fun _ _ => 0 }
def leePar : LeeParams := { proportion := 1, nNeighbors := 2, rejection := 1, ss := exPar.ss }

/-- The rejection level is not a guarantee: with level 1 (reject only rows all of whose neighbours are majority) and correct
nearest neighbours the call returns a row all of whose neighbours are majority. -/
theorem C32_level_not_guaranteed :
    leeSample 20 leePar (fun _ => 1) leeDraws 1 exKnn leeQuery leeX leeY = .ok (some (leeX ++ [[5]], leeY ++ [1])) ∧
    shareOf leeY 0 leePar.nNeighbors (leeQuery 2 leeX [5]) = 1 := by
  constructor
  · decide +kernel
  · decide +kernel

/-- Non-vacuity of the hypotheses of the two theorems, on the same data. -/
example : WF 1 leeX leeY ∧ IsMinority leeY 1 0 ∧ KnnOK exKnn ∧ (∀ r, (leeDraws r).OK) ∧
    (∀ r i j, 0 < (leeDraws r).simplexU i j) := by
  refine ⟨⟨by decide, by decide⟩, ⟨by decide, by decide, by decide, Or.inl (by decide)⟩, exKnn_ok, ?_, ?_⟩
  · intro r; constructor <;> intros <;> norm_num [leeDraws]
  · intros; norm_num [leeDraws]
example : requested leePar.proportion (leeY.count 0) (leeY.count 1) + 6 * (⌊(1 - leePar.rejection) * 10⌋.toNat + 1) ≤ 20 := by
  decide +kernel
example (k : Nat) (rows : List Row) (x : Row) (h : k ≤ rows.length) :
    (leeQuery k rows x).length = k ∧ ∀ i ∈ leeQuery k rows x, i < rows.length := by
  unfold leeQuery nearestTo
  have hp := List.perm_insertionSort (fun a b => sqDist x (rows.getD a []) ≤ sqDist x (rows.getD b [])) (List.range rows.length)
  constructor
  · rw [List.length_take, hp.length_eq, List.length_range]; omega
  · intro i hi
    exact List.mem_range.1 (hp.mem_iff.1 (List.mem_of_mem_take hi))

end Verif

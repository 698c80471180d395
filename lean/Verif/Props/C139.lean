import Verif.Model.RoundedScale
import Verif.Spec.RoundedScale
import Verif.Props.C132c
import Verif.Props.C65
import Verif.Props.C59

/-!
# C139: data which is scaled and scaled back comes back rounded
-/

namespace Verif

/-! ## One number -/

theorem stdRound_near {fl : ℚ → ℚ} {ε : ℚ} (hW : RoundsWithin fl ε) (h0 : 0 ≤ ε) {m s : ℚ} (hs : s ≠ 0) (x : ℚ) :
    |flStdUnscale fl m s (flStdScale fl m s x) - x| ≤ stdError ε x m := by
  unfold flStdUnscale flStdScale stdError
  have h1 := hW (x - m)
  generalize fl (x - m) = a at *
  have h2 := hW (a / s)
  generalize fl (a / s) = z at *
  have h2' : |z * s - a| ≤ ε * |a| := by
    have e : z * s - a = (z - a / s) * s := by field_simp
    rw [e, abs_mul]
    calc |z - a / s| * |s| ≤ ε * |a / s| * |s| := mul_le_mul_of_nonneg_right h2 (abs_nonneg s)
      _ = ε * |a| := by rw [abs_div]; field_simp [abs_ne_zero.2 hs]
  have h3 := hW (z * s)
  generalize z * s = p at *
  generalize fl p = w at *
  have h4 := hW (w + m)
  generalize fl (w + m) = v at *
  have e1 : |a| ≤ (1 + ε) * |x - m| := by
    have := abs_sub_abs_le_abs_sub a (x - m)
    linarith
  have e2 : |p| ≤ (1 + ε) * |a| := by
    have := abs_sub_abs_le_abs_sub p a
    linarith
  have hD := abs_nonneg (x - m)
  have e3 : |p| ≤ (1 + ε) * ((1 + ε) * |x - m|) := e2.trans (mul_le_mul_of_nonneg_left e1 (by linarith))
  have e4 : |w - (x - m)| ≤ ((1 + ε) ^ 3 - 1) * |x - m| := by
    have t1 := abs_sub_le w p (x - m)
    have t2 := abs_sub_le p a (x - m)
    have t3 := mul_le_mul_of_nonneg_left e3 h0
    have t4 := mul_le_mul_of_nonneg_left e1 h0
    nlinarith
  have e5 : |w + m - x| ≤ ((1 + ε) ^ 3 - 1) * |x - m| := by
    have : w + m - x = w - (x - m) := by ring
    rwa [this]
  generalize ((1 + ε) ^ 3 - 1) * |x - m| = F at *
  have e6 : |w + m| ≤ |x| + F := by
    have := abs_sub_abs_le_abs_sub (w + m) x
    linarith
  have t := abs_sub_le v (w + m) x
  have t2 := mul_le_mul_of_nonneg_left e6 h0
  linarith

theorem minRound_near {fl : ℚ → ℚ} {ε : ℚ} (hW : RoundsWithin fl ε) (h0 : 0 ≤ ε) {b s : ℚ} (hs : s ≠ 0) (x : ℚ) :
    |flMinUnscale fl b s (flMinScale fl b s x) - x| ≤ minError ε x (b / s) := by
  unfold flMinUnscale flMinScale minError
  have hs' : 0 < |s| := abs_pos.2 hs
  have hx : |x * s| = |x| * |s| := abs_mul x s
  have hb : |b| = |b / s| * |s| := by rw [abs_div]; field_simp
  have h1 := hW (x * s)
  generalize fl (x * s) = t at *
  have h2 := hW (t + b)
  generalize fl (t + b) = z at *
  have h3 := hW (z - b)
  generalize fl (z - b) = w at *
  have h4 := hW (w / s)
  generalize fl (w / s) = v at *
  have e1 : |t| ≤ (1 + ε) * |x * s| := by
    have := abs_sub_abs_le_abs_sub t (x * s)
    linarith
  have e2 : |z - b - x * s| ≤ ε * ((2 + ε) * |x| + |b / s|) * |s| := by
    have t1 : z - b - x * s = (z - (t + b)) + (t - x * s) := by ring
    have t2 := abs_add_le (z - (t + b)) (t - x * s)
    have t3 := mul_le_mul_of_nonneg_left ((abs_add_le t b).trans (add_le_add_left e1 |b|)) h0
    rw [t1]
    rw [hx] at h1 t3
    rw [hb] at t3
    nlinarith
  generalize ε * ((2 + ε) * |x| + |b / s|) = E at *
  have e3 : |z - b| ≤ |x| * |s| + E * |s| := by
    have := abs_sub_abs_le_abs_sub (z - b) (x * s)
    rw [hx] at this
    linarith
  have e4 : |w - x * s| ≤ ((1 + ε) * E + ε * |x|) * |s| := by
    have t1 := abs_sub_le w (z - b) (x * s)
    have t2 := mul_le_mul_of_nonneg_left e3 h0
    nlinarith
  generalize (1 + ε) * E + ε * |x| = F at *
  have e5 : |w / s - x| ≤ F := by
    have : w / s - x = (w - x * s) / s := by field_simp
    rw [this, abs_div, div_le_iff₀ hs']
    exact e4
  have e6 : |w / s| ≤ |x| + F := by
    have := abs_sub_abs_le_abs_sub (w / s) x
    linarith
  have t1 := abs_sub_le v (w / s) x
  have t2 := mul_le_mul_of_nonneg_left e6 h0
  linarith

/-! ## Rows -/

theorem colMap_length {f : ℚ → ℚ → ℚ → ℚ} {sc : Row × Row} {d : Nat} {r : Row} (h1 : sc.1.length = d) (h2 : sc.2.length = d) (hr : r.length = d) :
    (colMap f sc r).length = d := by
  simp [colMap, h1, h2, hr]

theorem colMap_getD {f : ℚ → ℚ → ℚ → ℚ} {sc : Row × Row} {d : Nat} {r : Row} (h1 : sc.1.length = d) (h2 : sc.2.length = d) (hr : r.length = d) {c : Nat}
    (hc : c < d) : (colMap f sc r).getD c 0 = f (sc.1.getD c 0) (sc.2.getD c 0) (r.getD c 0) := by
  have a1 : c < sc.1.length := by omega
  have a2 : c < sc.2.length := by omega
  have a3 : c < r.length := by omega
  simp [colMap, List.getD_eq_getElem?_getD, List.getElem?_map, List.getElem?_zip_eq_some, a1, a2, a3, List.getElem?_eq_getElem, List.getElem_zip]

theorem roundTrip_row {f g : ℚ → ℚ → ℚ → ℚ} {sc : Row × Row} {d : Nat} {e : ℚ → ℚ → ℚ → ℚ} (h1 : sc.1.length = d) (h2 : sc.2.length = d)
    (hs : ∀ s ∈ sc.2, s ≠ 0) (h : ∀ m s x, s ≠ 0 → |g m s (f m s x) - x| ≤ e m s x) {r : Row} (hr : r.length = d) :
    NearRow d (fun c => e (sc.1.getD c 0) (sc.2.getD c 0)) (colMap g sc (colMap f sc r)) r := by
  have hl := colMap_length (f := f) h1 h2 hr
  refine ⟨colMap_length h1 h2 hl, fun c hc => ?_⟩
  rw [colMap_getD h1 h2 hl hc, colMap_getD h1 h2 hr hc]
  refine h _ _ _ (hs _ ?_)
  have a2 : c < sc.2.length := by omega
  rw [List.getD_eq_getElem?_getD, List.getElem?_eq_getElem a2, Option.getD_some]
  exact List.getElem_mem _

theorem stdRow_near {fl : ℚ → ℚ} {ε : ℚ} (hW : RoundsWithin fl ε) (h0 : 0 ≤ ε) {sc : Row × Row} {d : Nat} (h1 : sc.1.length = d) (h2 : sc.2.length = d)
    (hs : ∀ s ∈ sc.2, s ≠ 0) {r : Row} (hr : r.length = d) :
    NearRow d (fun c x => stdError ε x (sc.1.getD c 0)) (colMap (flStdUnscale fl) sc (colMap (flStdScale fl) sc r)) r :=
  roundTrip_row (f := flStdScale fl) (g := flStdUnscale fl) (e := fun m _ x => stdError ε x m) h1 h2 hs (fun _ _ x h => stdRound_near hW h0 h x) hr

theorem minRow_near {fl : ℚ → ℚ} {ε : ℚ} (hW : RoundsWithin fl ε) (h0 : 0 ≤ ε) {sc : Row × Row} {d : Nat} (h1 : sc.1.length = d) (h2 : sc.2.length = d)
    (hs : ∀ s ∈ sc.2, s ≠ 0) {r : Row} (hr : r.length = d) :
    NearRow d (fun c x => minError ε x (sc.1.getD c 0 / sc.2.getD c 0)) (colMap (flMinUnscale fl) sc (colMap (flMinScale fl) sc r)) r :=
  roundTrip_row (f := flMinScale fl) (g := flMinUnscale fl) (e := fun m s x => minError ε x (m / s)) h1 h2 hs (fun _ _ x h => minRound_near hW h0 h x) hr

theorem forall₂_map_near {α β : Type} {R : β → α → Prop} {f : α → β} {l : List α} (h : ∀ x ∈ l, R (f x) x) : List.Forall₂ R (l.map f) l := by
  induction l with
  | nil => exact .nil
  | cons x l ih => exact .cons (h x (List.mem_cons_self ..)) (ih (fun z hz => h z (List.mem_cons_of_mem _ hz)))

theorem classRows_map_rows {α β : Type} (f : α → β) (X : List α) (y : List Int) (l : Int) : classRows (X.map f) y l = (classRows X y l).map f := by
  induction X generalizing y with
  | nil => rfl
  | cons x X ih =>
    cases y with
    | nil => rfl
    | cons v y =>
      have := ih y
      unfold classRows at *
      rw [List.map_cons, List.zip_cons_cons, List.zip_cons_cons, List.filter_cons, List.filter_cons]
      dsimp only
      split
      · rw [List.map_cons, List.map_cons, List.map_cons, this]
      · exact this

theorem unmarked_map {α β : Type} (f : α → β) (l : List α) (marks : List Bool) : unmarked (l.map f) marks = (unmarked l marks).map f := by
  induction l generalizing marks with
  | nil => rfl
  | cons x l ih =>
    cases marks with
    | nil => rfl
    | cons v marks =>
      have := ih marks
      unfold unmarked at *
      rw [List.map_cons, List.zip_cons_cons, List.zip_cons_cons, List.filter_cons, List.filter_cons]
      dsimp only
      split
      · rw [List.map_cons, List.map_cons, List.map_cons, this]
      · exact this

theorem mem_unmarked {α : Type} {l : List α} {marks : List Bool} {x : α} (h : x ∈ unmarked l marks) : x ∈ l := by
  obtain ⟨⟨a, b⟩, hp, rfl⟩ := List.mem_map.1 h
  exact (List.of_mem_zip (List.mem_filter.1 hp).1).1

theorem mem_classRows_mem {X : List Row} {y : List Int} {l : Int} {r : Row} (h : r ∈ classRows X y l) : r ∈ X := by
  rw [← selectLabel_eq_classRows] at h
  exact mem_of_mem_selectLabel h

theorem takeRows_countP {y ls : List Int} {idx : List Nat} (a : Int) (h : takeRows y idx = .ok ls) :
    ls.count a = idx.countP (fun j => decide (y[j]? = some a)) := by
  have := takeRows_forall h
  clear h
  induction this with
  | nil => rfl
  | cons h1 _ ih => rw [List.count_cons, List.countP_cons, ih, h1]; simp

theorem flNrasNoise_eq {fl : ℚ → ℚ} {t : ℚ} {k : Nat} {y : List Int} {a : Int} {ind : List (List Nat)} {noise : List Bool}
    (h : flNrasNoise fl t k y a ind = .ok noise) : noise = fewNeighbours y a (fl (t * k)) ind := by
  have := mapM_ok_iff.1 h
  clear h
  unfold fewNeighbours
  induction this with
  | nil => rfl
  | cons h1 _ ih =>
    obtain ⟨ls, hls, h1⟩ := bind_ok.1 h1
    injection h1 with h1
    rw [List.map_cons, ← ih, ← h1, takeRows_countP a hls]

/-! ## The oversamplers -/

/-- **VIS_RST with rounding.** Either the input itself is returned, or its rows come first, in order, each number within `stdError` of the original one. -/
theorem C139_vis {fl : ℚ → ℚ} {ε : ℚ} (hW : RoundsWithin fl ε) (h0 : 0 ≤ ε) {prop : ℚ} {d : Nat} {fitScaler : List Row → Row × Row}
    {steps : Nat → List Row → List Int → Int → Int → Res (List Row × List Int)} {X X' : List Row} {y y' : List Int} {a b : Int}
    (hwf : WF d X y) (hmin : IsMinority y a b) (h1 : (fitScaler X).1.length = d) (h2 : (fitScaler X).2.length = d) (hs : ∀ s ∈ (fitScaler X).2, s ≠ 0)
    (h : sample defaultChecks d (flVisAlg fl prop fitScaler steps) X y = .ok (X', y')) :
    (X' = X ∧ y' = y) ∨ ∃ A S y1, X' = A ++ S ∧ y' = y1 ++ List.replicate S.length a ∧
      List.Forall₂ (NearRow d (fun c x => stdError ε x ((fitScaler X).1.getD c 0))) A X ∧
      ∃ T, steps (flRequested fl prop (y.count b) (y.count a)) (X.map (colMap (flStdScale fl) (fitScaler X))) y a b = .ok (T, y1) ∧
        S = T.map (colMap (flStdUnscale fl) (fitScaler X)) := by
  obtain ⟨s, hst, rfl, rfl⟩ := stats_of_isMinority hmin
  obtain ⟨hm, hMj, _⟩ := stats_min_mem hst
  rcases sample_default_ok hst h with h | h
  · exact Or.inl h
  unfold flVisAlg at h
  rw [stats_count hst hm, stats_count hst hMj, flDetN_eq, ok_bind] at h
  split at h
  · injection h with h
    obtain ⟨rfl, rfl⟩ := Prod.mk.inj h
    exact Or.inl ⟨rfl, rfl⟩
  dsimp only at h
  split at h
  · injection h with h
    obtain ⟨rfl, rfl⟩ := Prod.mk.inj h
    exact Or.inl ⟨rfl, rfl⟩
  · cases h
  · rename_i r hr
    injection h with h
    obtain ⟨rfl, rfl⟩ := Prod.mk.inj h
    refine Or.inr ⟨_, _, r.2, List.map_append, by rw [List.length_map], ?_, r.1, hr, rfl⟩
    rw [List.map_map]
    exact forall₂_map_near (fun r hr => stdRow_near hW h0 h1 h2 hs (hwf.2 r hr))

/-- **NRAS with rounding.** Either the input itself is returned, or the majority rows, the minority rows which are no noise, and the new rows: each number of
the old rows within `minError` of the original one. -/
theorem C139_nras {fl : ℚ → ℚ} {ε : ℚ} (hW : RoundsWithin fl ε) (h0 : 0 ≤ ε) {prop t : ℚ} {d nNeighbors : Nat} {fitScaler : List Row → Row × Row}
    {table : Nat → List Row → List Int → List (List Nat)} {gen : List Row → List (List Nat) → List Bool → Nat → Res (List Row)}
    {X X' : List Row} {y y' : List Int} {a b : Int}
    (hwf : WF d X y) (hmin : IsMinority y a b) (h1 : (fitScaler X).1.length = d) (h2 : (fitScaler X).2.length = d) (hs : ∀ s ∈ (fitScaler X).2, s ≠ 0)
    (h : sample defaultChecks d (flNrasAlg fl prop nNeighbors t fitScaler table gen) X y = .ok (X', y')) :
    (X' = X ∧ y' = y) ∨ ∃ A B S noise, X' = A ++ B ++ S ∧
      y' = List.replicate A.length b ++ List.replicate B.length a ++ List.replicate S.length a ∧
      List.Forall₂ (NearRow d (fun c x => minError ε x ((fitScaler X).1.getD c 0 / (fitScaler X).2.getD c 0))) A (classRows X y b) ∧
      List.Forall₂ (NearRow d (fun c x => minError ε x ((fitScaler X).1.getD c 0 / (fitScaler X).2.getD c 0))) B (unmarked (classRows X y a) noise) ∧
      noise = fewNeighbours y a (fl (t * (min X.length (nNeighbors + 1) : Nat)))
        (table (min X.length (nNeighbors + 1)) (X.map (colMap (flMinScale fl) (fitScaler X))) y) ∧ noise.count true + 1 < y.count a ∧
      ∃ T, gen (X.map (colMap (flMinScale fl) (fitScaler X)))
          (table (min X.length (nNeighbors + 1)) (X.map (colMap (flMinScale fl) (fitScaler X))) y) noise
          (flRequested fl prop (y.count b) (y.count a) + noise.count true) = .ok T ∧ S = T.map (colMap (flMinUnscale fl) (fitScaler X)) := by
  obtain ⟨s, hst, rfl, rfl⟩ := stats_of_isMinority hmin
  obtain ⟨hm, hMj, _⟩ := stats_min_mem hst
  rcases sample_default_ok hst h with h | h
  · exact Or.inl h
  unfold flNrasAlg at h
  rw [stats_count hst hm, stats_count hst hMj, flDetN_eq, ok_bind] at h
  split at h
  · injection h with h
    obtain ⟨rfl, rfl⟩ := Prod.mk.inj h
    exact Or.inl ⟨rfl, rfl⟩
  dsimp only at h
  obtain ⟨noise, hnoise, h⟩ := bind_ok.1 h
  split at h
  · injection h with h
    obtain ⟨rfl, rfl⟩ := Prod.mk.inj h
    exact Or.inl ⟨rfl, rfl⟩
  rename_i hcount
  obtain ⟨samples, hsam, h⟩ := bind_ok.1 h
  injection h with h
  simp only [selectLabel_eq_classRows, classRows_map_rows] at h hcount
  have hk := unmarked_map (colMap (flMinScale fl) (fitScaler X)) (classRows X y s.minLabel) noise
  unfold unmarked at hk
  rw [hk] at h
  have hlen : ∀ l : Int, (classRows X y l).length = y.count l := fun l => by
    rw [← selectLabel_eq_classRows]; exact selectLabel_length hwf.1 l
  rw [List.length_map, hlen] at hcount
  obtain ⟨rfl, rfl⟩ := Prod.mk.inj h
  have near : ∀ r : Row, r ∈ X → NearRow d (fun c x => minError ε x ((fitScaler X).1.getD c 0 / (fitScaler X).2.getD c 0))
      ((colMap (flMinUnscale fl) (fitScaler X) ∘ colMap (flMinScale fl) (fitScaler X)) r) r := fun r hr =>
    minRow_near hW h0 h1 h2 hs (hwf.2 r hr)
  refine Or.inr ⟨_, _, _, noise, by rw [List.map_append, List.map_append], ?_, ?_, ?_, flNrasNoise_eq hnoise, by omega, samples, hsam, rfl⟩
  · simp only [List.length_map, hlen]
  · rw [List.map_map]
    exact forall₂_map_near (fun r hr => near r (mem_classRows_mem hr))
  · rw [List.map_map]
    exact forall₂_map_near (fun r hr => near r (mem_classRows_mem (mem_unmarked hr)))

/-! ## The rows are not returned exactly -/

def scX : List Row := [[0, 5000], [0, 5000], [2, 5000], [-2, 5000], [0, 0], [0, 0], [0, 0], [0, 0], [9, 0], [-9, 0]] ++ List.replicate 5 [15, 0] ++
  List.replicate 5 [-15, 0]
def scY : List Int := List.replicate 4 1 ++ List.replicate 16 0
def scSteps (n : Nat) (X : List Row) (y : List Int) (a b : Int) : Res (List Row × List Int) :=
  visSteps (clPar 2) viNb (fun _ => 1) (fun _ => clPick) (fun _ => exDraws) 2 n X y a b

/-- **VIS_RST does not return the training rows exactly.** With the numbers of Python and the true means and standard deviations of the columns, the entries 15
of the training data come back as a smaller number; the labels are the same. -/
theorem C139_vis_lost : ∃ (X' : List Row) (y' : List Int), Representable (binaryFl 53) scX ∧
    (∀ p ∈ [((0 : Nat), (0 : ℚ), (11 : ℚ)), (1, 1000, 2000)], (scX.map (fun r => r.getD p.1 0)).sum = 20 * p.2.1 ∧
      (scX.map (fun r => (r.getD p.1 0 - p.2.1) ^ 2)).sum = 20 * p.2.2 ^ 2) ∧
    sample defaultChecks 2 (flVisAlg (binaryFl 53) 1 (fun _ => ([0, 1000], [11, 2000])) scSteps) scX scY = .ok (X', y') ∧
    y'.take 20 = scY ∧ y'.count 1 = y'.count 0 ∧ (scX.getD 10 []).getD 0 0 = 15 ∧ (X'.getD 10 []).getD 0 0 = 15 - 1 / 2 ^ 49 := by
  refine ⟨scX.take 10 ++ List.replicate 5 [15 - 1 / 2 ^ 49, 0] ++ List.replicate 5 [-15 + 1 / 2 ^ 49, 0] ++
    ([[0, 5000], [2, 5000], [-2, 5000], [0, 5000]] ++ [[0, 5000], [2, 5000], [-2, 5000], [0, 5000]] ++ [[0, 5000], [2, 5000], [-2, 5000], [0, 5000]]),
    scY ++ List.replicate 12 1, by unfold Representable; decide +kernel, by decide +kernel, by decide +kernel, ?_⟩
  decide +kernel

def rnX : List Row := [[1], [2], [3], [2], [6], [6], [6], [6], [6], [5]]
def rnY : List Int := [1, 1, 1, 1, 0, 0, 0, 0, 0, 0]
def rnTable (k : Nat) (X : List Row) (y : List Int) : List (List Nat) := (selectLabel X y 1).map (nearestTo X k)
def rnGen (X : List Row) (ind : List (List Nat)) (noise : List Bool) (n : Nat) : Res (List Row) :=
  sampleSimplex (clPar 2).ss (fun _ => 1) exDraws 1 (selectLabel X rnY 1) ind 3 n
    { Xv := some X, vertexWeights := some (List.replicate X.length 1), baseWeights := some (noise.map (fun b => if b then 0 else 1)) }
def rnFit (_ : List Row) : Row × Row := ([-(binaryFl 53 (1 / 5))], [binaryFl 53 (1 / 5)])

/-- **NRAS does not return the training rows exactly.** With the numbers of Python and the true minimum 1 and maximum 6 of the column, the majority rows `[6]`
come back above the maximum of the data. -/
theorem C139_nras_lost : ∃ (X' : List Row) (y' : List Int), Representable (binaryFl 53) rnX ∧ (∀ r ∈ rnX, 1 ≤ r.getD 0 0 ∧ r.getD 0 0 ≤ 6) ∧
    (rnFit rnX).2 = [binaryFl 53 (1 / (6 - 1))] ∧ (rnFit rnX).1 = [binaryFl 53 (0 - binaryFl 53 (1 * (rnFit rnX).2.getD 0 0))] ∧
    sample defaultChecks 1 (flNrasAlg (binaryFl 53) 1 2 (1 / 2) rnFit rnTable rnGen) rnX rnY = .ok (X', y') ∧
    y'.count 1 = 6 ∧ y'.count 0 = 6 ∧ y'.getD 0 1 = 0 ∧ 6 < (X'.getD 0 []).getD 0 0 := by
  refine ⟨List.replicate 5 [6 + 1 / 2 ^ 50] ++ [[5], [1], [2], [3 + 1 / 2 ^ 51], [2], [5854679515581645 / 2 ^ 51], [5854679515581645 / 2 ^ 51]],
    List.replicate 6 0 ++ List.replicate 6 1, by unfold Representable; decide +kernel, by decide +kernel, by decide +kernel, by decide +kernel,
    by decide +kernel, ?_⟩
  decide +kernel

/-- The size of the errors for the numbers of Python. -/
theorem C139_doubles {x m M : ℚ} (hx : |x| ≤ M) (hm : |m| ≤ M) : RoundsWithin (binaryFl 53) (1 / 2 ^ 53) ∧
    stdError (1 / 2 ^ 53) x m ≤ 8 / 2 ^ 53 * M ∧ minError (1 / 2 ^ 53) x m ≤ 6 / 2 ^ 53 * M := by
  have hM : 0 ≤ M := (abs_nonneg x).trans hx
  have hd : |x - m| ≤ 2 * M := (abs_sub x m).trans (by linarith)
  refine ⟨binaryFl_within 53, ?_, ?_⟩
  · unfold stdError
    norm_num at *
    linarith
  · unfold minError
    norm_num at *
    linarith

/-- Non-vacuity: the two calls meet the assumptions. -/
example : WF 2 scX scY ∧ IsMinority scY 1 0 ∧ WF 1 rnX rnY ∧ IsMinority rnY 1 0 ∧ (∀ s ∈ (rnFit rnX).2, s ≠ 0) :=
  ⟨⟨by decide, by decide +kernel⟩, ⟨by decide, by decide, by decide, Or.inl (by decide)⟩, ⟨by decide, by decide +kernel⟩,
    ⟨by decide, by decide, by decide, Or.inl (by decide)⟩, by decide +kernel⟩

end Verif

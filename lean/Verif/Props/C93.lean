import Verif.Model.Neater
import Verif.Props.C01
import Verif.Props.C38
import Verif.Props.C47
import Verif.Props.C82
import Mathlib.Tactic.Linarith
import Mathlib.Tactic.Positivity
import Mathlib.Tactic.FieldSimp
import Mathlib.Tactic.Ring

/-!
# C93: NEATER
-/

namespace Verif

/-! ## Specification -/

/-- The weight of a neighbour: the reciprocal of the distance, at most `alpha` (a zero distance counts as 1e-8). -/
def closenessUpTo (alpha dist : ℚ) : ℚ := min alpha (1 / (if dist = 0 then 1 / 100000000 else dist))

/-- How far the `j`-th row is believed to belong to the minority after `t` rounds: the rows of the input (the first `off`) are known, the
others start at one half and are reinforced by the support of their neighbours `nbs i` for either class. -/
def believed (alpha : ℚ) (off : Nat) (known : Nat → Bool) (nbs : Nat → List Nat) (w : Nat → Nat → ℚ) : Nat → Nat → ℚ
  | 0, j => if j < off then (if known j then 1 else 0) else 1 / 2
  | t + 1, j =>
    if j < off then (if known j then 1 else 0)
    else
      let P := believed alpha off known nbs w t
      let forMin := ((nbs (j - off)).map (fun i => w (j - off) i * (1 - P i) + P i)).sum
      let forMaj := ((nbs (j - off)).map (fun i => (1 - P i) + w (j - off) i * P i)).sum
      P j * (alpha + forMin) / (P j * (alpha + forMin) + (1 - P j) * (alpha + forMaj))

/-! ## Proofs -/

theorem neaterWeight_eq {alpha dist : ℚ} : neaterWeight alpha dist = closenessUpTo alpha dist := by
  unfold neaterWeight closenessUpTo
  dsimp only
  generalize (1 / (if dist = 0 then 1 / 100000000 else dist) : ℚ) = q
  split
  · rename_i h
    rw [min_eq_left (le_of_lt h)]
  · rename_i h
    rw [min_eq_right (not_lt.1 h)]

theorem closenessUpTo_nonneg {alpha dist : ℚ} (ha : 0 ≤ alpha) (hd : 0 ≤ dist) : 0 ≤ closenessUpTo alpha dist := by
  unfold closenessUpTo
  apply le_min ha
  split
  · norm_num
  · positivity

/-- The probabilities as a list. -/
def beliefs (P : Nat → ℚ) (m : Nat) : List (ℚ × ℚ) := (List.range m).map (fun j => (1 - P j, P j))

theorem beliefs_getD {P : Nat → ℚ} {m j : Nat} (hj : j < m) : (beliefs P m).getD j (0, 0) = (1 - P j, P j) := by
  unfold beliefs
  simp [List.getD_eq_getElem?_getD, hj]

theorem neaterMin_eq (w P : Nat → ℚ) (l : List Nat) :
    neaterMin (l.map (fun j => (w j, (1 - P j, P j)))) = (l.map (fun i => w i * (1 - P i) + P i)).sum := by
  unfold neaterMin
  rw [List.map_map]
  congr 1
  apply List.map_congr_left
  intro j _
  simp only [Function.comp]
  ring

theorem neaterMaj_eq (w P : Nat → ℚ) (l : List Nat) :
    neaterMaj (l.map (fun j => (w j, (1 - P j, P j)))) = (l.map (fun i => (1 - P i) + w i * P i)).sum := by
  unfold neaterMaj
  rw [List.map_map]
  congr 1
  apply List.map_congr_left
  intro j _
  simp only [Function.comp]
  ring

theorem neaterMixed_nonneg (w P : Nat → ℚ) (l : List Nat) {p : ℚ} (hp : 0 ≤ p ∧ p ≤ 1) (hw : ∀ j ∈ l, 0 ≤ w j) (hP : ∀ j ∈ l, 0 ≤ P j ∧ P j ≤ 1) :
    0 ≤ neaterMixed (1 - p, p) (l.map (fun j => (w j, (1 - P j, P j)))) := by
  unfold neaterMixed
  apply List.sum_nonneg
  intro q hq
  rw [List.map_map] at hq
  obtain ⟨j, hj, rfl⟩ := List.mem_map.1 hq
  simp only [Function.comp]
  have h1 := hw j hj
  have h2 := hP j hj
  have h3 : 0 ≤ 1 - p := by linarith
  have h4 : 0 ≤ 1 - P j := by linarith
  have h5 := hp.1
  have h6 := h2.1
  positivity

theorem support_nonneg {w P : Nat → ℚ} {l : List Nat} (hw : ∀ j ∈ l, 0 ≤ w j) (hP : ∀ j ∈ l, 0 ≤ P j ∧ P j ≤ 1) :
    0 ≤ (l.map (fun i => w i * (1 - P i) + P i)).sum ∧ 0 ≤ (l.map (fun i => (1 - P i) + w i * P i)).sum := by
  constructor <;> apply List.sum_nonneg <;> intro q hq <;> obtain ⟨j, hj, rfl⟩ := List.mem_map.1 hq <;> (
    have h1 := hw j hj
    have h2 := hP j hj
    have h4 : 0 ≤ 1 - P j := by linarith
    have h6 := h2.1
    positivity)

/-- One row in one round. -/
theorem neaterRow_new {alpha p : ℚ} {w P : Nat → ℚ} {l : List Nat} (ha : 0 < alpha) (hp : 0 ≤ p ∧ p ≤ 1) (hw : ∀ j ∈ l, 0 ≤ w j)
    (hP : ∀ j ∈ l, 0 ≤ P j ∧ P j ≤ 1) :
    ∃ r, neaterRow alpha (1 - p, p) (some (l.map (fun j => (w j, (1 - P j, P j))))) = .ok (1 - r, r) ∧ 0 ≤ r ∧ r ≤ 1 ∧
      r = p * (alpha + (l.map (fun i => w i * (1 - P i) + P i)).sum) / (p * (alpha + (l.map (fun i => w i * (1 - P i) + P i)).sum) +
        (1 - p) * (alpha + (l.map (fun i => (1 - P i) + w i * P i)).sum)) := by
  obtain ⟨h1, h2⟩ := support_nonneg hw hP
  have h3 := neaterMixed_nonneg w P l hp hw hP
  unfold neaterRow
  simp only [neaterMin_eq, neaterMaj_eq]
  generalize (l.map (fun i => w i * (1 - P i) + P i)).sum = mi at *
  generalize (l.map (fun i => (1 - P i) + w i * P i)).sum = ma at *
  generalize neaterMixed (1 - p, p) (l.map (fun j => (w j, (1 - P j, P j)))) = mx at *
  have hx : 0 < alpha + mx := by linarith
  have hmi : 0 < alpha + mi := by linarith
  have hma : 0 < alpha + ma := by linarith
  have hq : 0 ≤ 1 - p := by linarith
  have hp0 := hp.1
  have hsum : 0 < p * (alpha + mi) + (1 - p) * (alpha + ma) := by
    rcases eq_or_lt_of_le hp0 with h | h
    · rw [← h]; simp; exact hma
    · have : 0 < p * (alpha + mi) := by positivity
      have : 0 ≤ (1 - p) * (alpha + ma) := by positivity
      linarith
  rw [if_neg hx.ne']
  simp only [pure_bind]
  have hs : (1 - p) * (alpha + ma) / (alpha + mx) + p * (alpha + mi) / (alpha + mx) = (p * (alpha + mi) + (1 - p) * (alpha + ma)) / (alpha + mx) := by
    rw [← add_div, add_comm]
  rw [hs, if_neg (by positivity)]
  refine ⟨_, ?_, ?_, ?_, rfl⟩
  · show Except.ok _ = Except.ok _
    congr 2
    · field_simp
      ring
    · field_simp
  · positivity
  · rw [div_le_one hsum]
    have : 0 ≤ (1 - p) * (alpha + ma) := by positivity
    linarith

theorem neaterRow_old {alpha p : ℚ} : neaterRow alpha (1 - p, p) none = .ok (1 - p, p) := by
  unfold neaterRow
  simp only [pure_bind]
  rw [if_neg (by simp)]
  simp

/-- The rounds. -/
theorem neaterLoop_spec {alpha : ℚ} (ha : 0 < alpha) {off m : Nat} {indices : List (List Nat)} {w : Nat → Nat → ℚ} {known : Nat → Bool}
    (hw : ∀ i j, 0 ≤ w i j) (hin : ∀ i, i < m - off → ∀ j ∈ (indices.getD i []).drop 1, j < m) :
    ∀ (h t : Nat), (∀ j, 0 ≤ believed alpha off known (fun i => (indices.getD i []).drop 1) w t j ∧
        believed alpha off known (fun i => (indices.getD i []).drop 1) w t j ≤ 1) →
      neaterLoop alpha off indices w h (beliefs (believed alpha off known (fun i => (indices.getD i []).drop 1) w t) m) =
        .ok (beliefs (believed alpha off known (fun i => (indices.getD i []).drop 1) w (t + h)) m) := by
  intro h
  induction h with
  | zero => intro t _; rfl
  | succ h ih =>
    intro t hP
    obtain ⟨P, hPe⟩ : ∃ P, P = believed alpha off known (fun i => (indices.getD i []).drop 1) w t := ⟨_, rfl⟩
    have hnext : ∀ j, 0 ≤ believed alpha off known (fun i => (indices.getD i []).drop 1) w (t + 1) j ∧
        believed alpha off known (fun i => (indices.getD i []).drop 1) w (t + 1) j ≤ 1 := by
      intro j
      unfold believed
      split
      · split <;> norm_num
      · dsimp only
        obtain ⟨r, _, h1, h2, h3⟩ := neaterRow_new (w := w (j - off)) (P := believed alpha off known (fun i => (indices.getD i []).drop 1) w t)
          (l := (indices.getD (j - off) []).drop 1) ha (hP j) (fun _ _ => hw _ _) (fun i _ => hP i)
        rw [← h3]
        exact ⟨h1, h2⟩
    have hround : neaterRound alpha off indices w (beliefs P m) =
        .ok (beliefs (believed alpha off known (fun i => (indices.getD i []).drop 1) w (t + 1)) m) := by
      unfold neaterRound
      rw [show (beliefs P m).length = m by simp [beliefs]]
      conv_rhs => rw [beliefs]
      rw [mapM_ok_iff, List.forall₂_map_right_iff, List.forall₂_same]
      intro j hj
      rw [List.mem_range] at hj
      rw [beliefs_getD hj]
      by_cases ho : j < off
      · rw [if_pos ho]
        have e1 : believed alpha off known (fun i => (indices.getD i []).drop 1) w (t + 1) j = P j := by
          rw [hPe]
          cases t <;> simp [believed, ho]
        rw [e1]
        exact neaterRow_old
      · rw [if_neg ho]
        have e2 : ((indices.getD (j - off) []).drop 1).map (fun i => (w (j - off) i, (beliefs P m).getD i (0, 0))) =
            ((indices.getD (j - off) []).drop 1).map (fun i => (w (j - off) i, (1 - P i, P i))) := by
          apply List.map_congr_left
          intro i hi
          rw [beliefs_getD (hin (j - off) (by omega) i hi)]
        rw [e2]
        obtain ⟨r, h0, h1, h2, h3⟩ := neaterRow_new (w := w (j - off)) (P := P) (p := P j)
          (l := (indices.getD (j - off) []).drop 1) ha (by rw [hPe]; exact hP j) (fun _ _ => hw _ _) (fun i _ => by rw [hPe]; exact hP i)
        rw [h0]
        have e3 : believed alpha off known (fun i => (indices.getD i []).drop 1) w (t + 1) j = r := by
          rw [h3, hPe]
          conv_lhs => unfold believed
          rw [if_neg ho]
        rw [e3]
    unfold neaterLoop
    rw [← hPe, hround, ok_bind, ih (t + 1) hnext]
    congr 2
    congr 1
    omega

/-- **NEATER.** If rows are requested, those of SMOTE and of ADASYN are added to the unchanged rows, the input labels are kept, and a new row
is labelled 1 if it is believed to belong to the minority by more than one half after `h` rounds, otherwise 0. ADASYN adds the difference
of the class sizes, or nothing under its own conditions. -/
theorem C93_neater {par : NeaterParams} {vol : List Row → ℚ} {drS drA : Draws} {d : Nat} {knnS : Nat → List Row → List (List Nat)}
    {knn : Nat → List Row → List Row → List (List Nat)} {dist : Row → Row → ℚ} {X : List Row} {y : List Int} {a b : Int} (hwf : WF d X y)
    (hkS : KnnOK knnS) (hk : KnnQueryOK knn) (hdS : drS.OK) (hdA : drA.OK) (huS : ∀ i j, 0 < drS.simplexU i j)
    (huA : ∀ i j, 0 < drA.simplexU i j) (hdist : ∀ p q, 0 ≤ dist p q) (hmin : IsMinority y a b) (h3 : 2 < y.count a)
    (hg : par.ss.gaussian = .none) (hd : 1 ≤ par.ss.nDim) (hvol : ∀ vs, 0 < vol vs) (hb : 1 ≤ par.b) (ha : 0 < par.alpha)
    (hmode : par.ss.simplexSampling = .random ∨ par.ss.simplexSampling = .deterministic ∨ par.ss.simplexSampling = .volume)
    (hwi : par.ss.within = .random ∨ (par.ss.within = .deterministic ∧ par.ss.nDim ≤ 2))
    (hn : 0 < requested par.proportion (y.count b) (y.count a)) :
    ∃ S T : List Row, S.length = requested par.proportion (y.count b) (y.count a) ∧ (∀ x ∈ S, InHull d (classRows X y a) x) ∧
      (AdasynSkips ⟨par.b, 9 / 10, 1, par.ss⟩ knn X y a b → T = []) ∧
      (¬ AdasynSkips ⟨par.b, 9 / 10, 1, par.ss⟩ knn X y a b → T.length = requested 1 (y.count b) (y.count a) ∧
        ∀ x ∈ T, AroundEligible d (classRows X y a) (classRows X y a)
          (HasNeighborLabelled (knn (adasynK ⟨par.b, 9 / 10, 1, par.ss⟩ (y.count a)) X (classRows X y a)) y b) x) ∧
      ((X ++ S ++ T).length ≤ par.b → sample defaultChecks d (neaterAlg par vol drS drA d knnS knn dist) X y = .error .valueError) ∧
      (par.b < (X ++ S ++ T).length → ∃ labels : List Int, labels.length = S.length + T.length ∧
        sample defaultChecks d (neaterAlg par vol drS drA d knnS knn dist) X y = .ok (X ++ S ++ T, y ++ labels) ∧
        ∀ i l, labels[i]? = some l → l = if 1 / 2 < believed par.alpha X.length (fun j => decide (y[j]? = some a))
          (fun i => ((knn (par.b + 1) (X ++ S ++ T) (S ++ T)).getD i []).tail)
          (fun i j => closenessUpTo par.alpha (dist ((S ++ T).getD i []) ((X ++ S ++ T).getD j []))) par.h (X.length + i) then 1 else 0) := by
  have hxy := hwf.1
  obtain ⟨⟨Xs, ys⟩, hsm⟩ := C01_smote_total (par := ⟨par.proportion, par.smoteNeighbors, par.ss⟩) (vol := vol) hwf hkS hdS huS hmin hd
    (by rcases hmode with h | h | h
        · exact Or.inl h
        · exact Or.inr (Or.inl h)
        · exact Or.inr (Or.inr ⟨h, hvol⟩)) hwi
  obtain ⟨Xt, yt, had⟩ := C47_adasyn_total (par := ⟨par.b, 9 / 10, 1, par.ss⟩) (vol := vol) hwf hk hdA huA hmin hb hd hwi
  have hada := C47_adasyn hwf hk hdA hmin (show (⟨par.b, 9 / 10, 1, par.ss⟩ : AdasynParams).ss.gaussian = .none from hg) hb (fun vs => (hvol vs).le) h3 had
  obtain ⟨s, hs, rfl, rfl⟩ := stats_of_isMinority hmin
  obtain ⟨hm, hM, hab⟩ := stats_min_mem hs
  obtain ⟨S, hXs, hys, hSl, hSh⟩ := smoteStep_of hwf hkS hdS hg hs h3 hsm
  have hT : ∃ T : List Row, Xt = X ++ T ∧ yt.drop y.length = List.replicate T.length s.minLabel ∧
      (AdasynSkips ⟨par.b, 9 / 10, 1, par.ss⟩ knn X y s.minLabel s.majLabel → T = []) ∧
      (¬ AdasynSkips ⟨par.b, 9 / 10, 1, par.ss⟩ knn X y s.minLabel s.majLabel → T.length = requested 1 (y.count s.majLabel) (y.count s.minLabel) ∧
        ∀ x ∈ T, AroundEligible d (classRows X y s.minLabel) (classRows X y s.minLabel)
          (HasNeighborLabelled (knn (adasynK ⟨par.b, 9 / 10, 1, par.ss⟩ (y.count s.minLabel)) X (classRows X y s.minLabel)) y s.majLabel) x) := by
    by_cases hsk : AdasynSkips ⟨par.b, 9 / 10, 1, par.ss⟩ knn X y s.minLabel s.majLabel
    · obtain ⟨rfl, rfl⟩ := hada.1 hsk
      exact ⟨[], by simp, by simp, fun _ => rfl, fun h => absurd hsk h⟩
    · obtain ⟨T, h1, h2, h3, h4⟩ := hada.2 hsk
      refine ⟨T, h1, ?_, fun h => absurd h hsk, fun _ => ⟨h3, h4⟩⟩
      rw [h2, List.drop_left, h3]
  obtain ⟨T, hXt, hyt, hT1, hT2⟩ := hT
  refine ⟨S, T, hSl, hSh, hT1, hT2, ?_⟩
  obtain ⟨out, hout⟩ : ∃ out, out = sample defaultChecks d (neaterAlg par vol drS drA d knnS knn dist) X y := ⟨_, rfl⟩
  rw [← hout]
  rw [sample_default hs, if_neg (by omega)] at hout
  unfold neaterAlg at hout
  rw [stats_count hs hm, stats_count hs hM, detN_eq_requested, ok_bind, if_neg (by omega), hsm, ok_bind, had, ok_bind] at hout
  dsimp only at hout
  have hXall : Xs ++ Xt.drop X.length = X ++ S ++ T := by rw [hXs, hXt, List.drop_left]
  rw [hXall, hyt, hys] at hout
  have hsyn : (X ++ S ++ T).drop X.length = S ++ T := by rw [List.append_assoc, List.drop_left]
  rw [hsyn] at hout
  have htake : (y ++ List.replicate (requested par.proportion (y.count s.majLabel) (y.count s.minLabel)) s.minLabel ++
      List.replicate T.length s.minLabel).take X.length = y := by
    rw [List.append_assoc, hxy, List.take_left]
  rw [htake] at hout
  constructor
  · intro hle
    rw [if_pos (by omega)] at hout
    exact hout
  · intro hlt
    rw [if_neg (by omega)] at hout
    have hprob : (List.range (X ++ S ++ T).length).map (fun i =>
        if i < X.length then (if y.getD i 0 = s.minLabel then ((0 : ℚ), (1 : ℚ)) else (1, 0)) else (1 / 2, 1 / 2)) =
        beliefs (believed par.alpha X.length (fun j => decide (y[j]? = some s.minLabel))
          (fun i => ((knn (par.b + 1) (X ++ S ++ T) (S ++ T)).getD i []).drop 1)
          (fun i j => closenessUpTo par.alpha (dist ((S ++ T).getD i []) ((X ++ S ++ T).getD j []))) 0) (X ++ S ++ T).length := by
      unfold beliefs
      apply List.map_congr_left
      intro i _
      unfold believed
      by_cases hi : i < X.length
      · rw [if_pos hi, if_pos hi]
        have e : y.getD i 0 = y[i]'(by omega) := by simp [List.getD_eq_getElem?_getD, show i < y.length by omega]
        rw [e, List.getElem?_eq_getElem (by omega)]
        by_cases h : y[i]'(by omega) = s.minLabel
        · simp [h]
        · simp [h]
      · rw [if_neg hi, if_neg hi]
        norm_num
    simp only [neaterWeight_eq] at hout
    rw [hprob] at hout
    have hkq := hk (par.b + 1) (X ++ S ++ T) (S ++ T) (by omega)
    rw [neaterLoop_spec ha (fun i j => closenessUpTo_nonneg ha.le (hdist _ _)) ?_ par.h 0 ?_] at hout
    · rw [ok_bind, Nat.zero_add] at hout
      refine ⟨_, ?_, hout, ?_⟩
      · simp [beliefs]
      · intro i l hl
        rw [List.getElem?_map, List.getElem?_drop, Option.map_eq_some_iff] at hl
        obtain ⟨p, hp, rfl⟩ := hl
        unfold beliefs at hp
        rw [List.getElem?_map, Option.map_eq_some_iff] at hp
        obtain ⟨i', hi', rfl⟩ := hp
        obtain ⟨hlt', hji⟩ := List.getElem?_eq_some_iff.1 hi'
        rw [List.getElem_range] at hji
        subst hji
        simp only [List.drop_one]
        congr 1
        apply propext
        constructor <;> intro h <;> linarith
    · intro i hi j hj
      have hil : i < (knn (par.b + 1) (X ++ S ++ T) (S ++ T)).length := by
        rw [hkq.1]
        simp at hi ⊢
        omega
      rw [List.getD_eq_getElem?_getD, List.getElem?_eq_getElem hil] at hj
      exact (hkq.2 _ (List.getElem_mem hil)).2 j (List.mem_of_mem_drop hj)
    · intro j
      unfold believed
      split
      · split <;> norm_num
      · norm_num

/-! ## The hypotheses are met, and what the labels are -/

def neaterDist (p q : Row) : ℚ := |p.getD 0 0 - q.getD 0 0|
def neaterPar (h : Nat) : NeaterParams := ⟨1, 2, exPar.ss, 2, 1/10, h⟩

example : WF 1 adaX adaY ∧ IsMinority adaY 1 0 ∧ 2 < adaY.count 1 ∧ KnnOK bruteKnn ∧ KnnQueryOK bruteQuery ∧ exDraws.OK ∧
    (∀ i j, 0 < exDraws.simplexU i j) ∧ (∀ p q, 0 ≤ neaterDist p q) ∧ 0 < requested 1 (adaY.count 0) (adaY.count 1) ∧
    sample defaultChecks 1 (neaterAlg (neaterPar 1) (fun _ => 1) exDraws exDraws 1 bruteKnn bruteQuery neaterDist) adaX adaY =
      .ok (adaX ++ [[8 / 5]] ++ [[29 / 5]], adaY ++ [1, 1]) :=
  ⟨⟨by decide, by decide +kernel⟩, ⟨by decide, by decide, by decide, Or.inl (by decide)⟩, by decide, bruteKnn_ok, bruteQuery_ok, exDraws_ok,
    fun i j => by simp only [exDraws]; positivity, fun _ _ => abs_nonneg _, by decide +kernel, by decide +kernel⟩

/-- **The labels are exchanged** if the minority is labelled 0: the new row between minority rows, with minority rows only as neighbours, gets
the label of the majority. -/
theorem C93_exchanged : ∃ y : List Int, IsMinority y 0 1 ∧
    sample defaultChecks 1 (neaterAlg (neaterPar 1) (fun _ => 1) exDraws exDraws 1 bruteKnn bruteQuery neaterDist) adaX y =
      .ok (adaX ++ [[8 / 5]] ++ [[29 / 5]], y ++ [1, 1]) ∧
    (bruteQuery 3 (adaX ++ [[8 / 5]] ++ [[29 / 5]]) [[8 / 5]]).map (List.map (fun j => (y ++ [0, 0]).getD j 1)) = [[0, 0, 0]] :=
  ⟨adaY.map (fun l => 1 - l), ⟨by decide, by decide, by decide, Or.inl (by decide)⟩, by decide +kernel, by decide +kernel⟩

/-- **Labels that do not occur.** With the labels 2 and 3 the new rows are labelled 1. -/
theorem C93_foreign : ∃ y : List Int, IsMinority y 3 2 ∧
    sample defaultChecks 1 (neaterAlg (neaterPar 1) (fun _ => 1) exDraws exDraws 1 bruteKnn bruteQuery neaterDist) adaX y =
      .ok (adaX ++ [[8 / 5]] ++ [[29 / 5]], y ++ [1, 1]) :=
  ⟨adaY.map (fun l => 2 + l), ⟨by decide, by decide, by decide, Or.inl (by decide)⟩, by decide +kernel⟩

/-- **No rounds.** With `h = 0`, which the constructor accepts, no new row is labelled 1. -/
theorem C93_no_rounds (alpha : ℚ) (off : Nat) (known : Nat → Bool) (nbs : Nat → List Nat) (w : Nat → Nat → ℚ) (i : Nat) :
    ¬ 1 / 2 < believed alpha off known nbs w 0 (off + i) := by
  unfold believed
  rw [if_neg (by omega)]
  exact lt_irrefl _

end Verif

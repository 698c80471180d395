import Verif.Model.Sso
import Verif.Props.C19
import Verif.Props.C58
import Verif.Lemmas.SamplerTotal
import Mathlib.Tactic.Linarith
import Mathlib.Tactic.Positivity
import Mathlib.Tactic.Ring

/-!
# C91: SSO
-/

namespace Verif

/-! ## Specification -/

/-- The size of a value; infinite values and NaN count as zero. -/
def sizeOfValue : XF → ℚ
  | .fin q => |q|
  | _ => 0

/-- One round: the rows `block` are made from the minority rows `A` of the data `(X, y)`, each around a row drawn by its share `w` of the
values of the network, at most `Q (1 - w)` away from it in every coordinate; `Q` is the mean distance from the (k+1)-th neighbour (the row
itself being the first) over the square root of the dimension. -/
def SsoRound (env : SsoEnv) (k d t s : Nat) (A X : List Row) (y : List Int) (block : List Row) : Prop :=
  ∃ (vals : List XF) (base : List Nat) (Q : ℚ), env.stsm t X y = .ok vals ∧ block.length = s ∧
    Q * env.sqrt d * (env.kdist (min (k + 1) X.length) X A).length = (env.kdist (min (k + 1) X.length) X A).sum ∧ 0 ≤ Q ∧
    DrawnByShares (shares (vals.map sizeOfValue)) (env.pick t) s base ∧
    ∀ i x, block[i]? = some x → ∃ c r w, base[i]? = some c ∧ A[c]? = some r ∧ (shares (vals.map sizeOfValue))[c]? = some w ∧
      0 < w ∧ w ≤ 1 ∧ x.length = d ∧ ∀ j, j < d → x.getD j 0 = r.getD j 0 + Q * (1 - w) * (2 * env.lam t i j - 1)

/-- What is known of the external functions. -/
structure SsoEnv.OK (env : SsoEnv) (a : Int) : Prop where
  stsm : ∀ t X y vals, env.stsm t X y = .ok vals → vals.length = y.count a
  kdist : ∀ k X Q, (env.kdist k X Q).length = Q.length ∧ ∀ q ∈ env.kdist k X Q, 0 ≤ q
  sqrt : ∀ q, 0 < q → 0 < env.sqrt q
  pick : ∀ t i, 0 ≤ env.pick t i ∧ env.pick t i < 1

/-! ## Proofs -/

theorem ssoWeights_eq (v : List XF) : fixDensity (v.map XF.mag) = shares (v.map sizeOfValue) := by
  have : (v.map XF.mag).map XF.toNum = v.map sizeOfValue := by
    rw [List.map_map]
    apply List.map_congr_left
    intro x _
    cases x <;> rfl
  unfold fixDensity shares
  simp only [this, List.length_map]
  split
  · rw [List.map_replicate, List.sum_replicate]; simp
  · rfl

theorem shares_distribution {l : List ℚ} (h0 : ∀ q ∈ l, 0 ≤ q) (hne : l ≠ []) :
    (shares l).length = l.length ∧ (∀ q ∈ shares l, 0 ≤ q) ∧ (shares l).sum = 1 := by
  have hl := List.length_pos_iff.2 hne
  have hs := List.sum_nonneg h0
  unfold shares
  split
  · refine ⟨by simp, ?_, ?_⟩
    · intro q hq
      rw [List.eq_of_mem_replicate hq]
      positivity
    · rw [List.sum_replicate, nsmul_eq_mul]
      have : (l.length : ℚ) ≠ 0 := by positivity
      rw [mul_one_div, div_self this]
  · rename_i h
    refine ⟨by simp, ?_, ?_⟩
    · intro q hq
      obtain ⟨p, hp, rfl⟩ := List.mem_map.1 hq
      exact div_nonneg (h0 p hp) hs
    · rw [sum_map_div, div_self h]

theorem ssoRound_spec {env : SsoEnv} {a : Int} (henv : env.OK a) {k d t s : Nat} (hd : 0 < d) {X : List Row} {y : List Int} {vals : List XF}
    (hv : env.stsm t X y = .ok vals) (hxy : X.length = y.length) (hA : 0 < y.count a) :
    ∃ block, ssoGenerate env t d (classRows X y a) (fixDensity (vals.map XF.mag)) (ssoQ env k d X (classRows X y a)) s = .ok block ∧
      SsoRound env k d t s (classRows X y a) X y block := by
  have hl := classRows_length hxy a
  obtain ⟨A, hAe⟩ : ∃ A, A = classRows X y a := ⟨_, rfl⟩
  rw [← hAe] at hl ⊢
  have hvl := henv.stsm _ _ _ _ hv
  rw [ssoWeights_eq]
  have h0 : ∀ q ∈ vals.map sizeOfValue, 0 ≤ q := by
    intro q hq
    obtain ⟨x, _, rfl⟩ := List.mem_map.1 hq
    cases x <;> simp [sizeOfValue]
  obtain ⟨hwl, hw0, hw1⟩ := shares_distribution h0 (List.length_pos_iff.1 (by simp; omega))
  obtain ⟨W, hW⟩ : ∃ W, W = shares (vals.map sizeOfValue) := ⟨_, rfl⟩
  have hround : SsoRound env k d t s A X y = fun block => ∃ (base : List Nat) (Q : ℚ), block.length = s ∧
    Q * env.sqrt d * (env.kdist (min (k + 1) X.length) X A).length = (env.kdist (min (k + 1) X.length) X A).sum ∧ 0 ≤ Q ∧
    DrawnByShares W (env.pick t) s base ∧
    ∀ i x, block[i]? = some x → ∃ c r w, base[i]? = some c ∧ A[c]? = some r ∧ W[c]? = some w ∧
      0 < w ∧ w ≤ 1 ∧ x.length = d ∧ ∀ j, j < d → x.getD j 0 = r.getD j 0 + Q * (1 - w) * (2 * env.lam t i j - 1) := by
    funext block
    apply propext
    unfold SsoRound
    constructor
    · rintro ⟨vals', base, Q, h1, h2, h3, h4, h5, h6⟩
      rw [hv] at h1
      injection h1 with h1
      subst h1
      rw [← hW] at h5 h6
      exact ⟨base, Q, h2, h3, h4, h5, h6⟩
    · rintro ⟨base, Q, h2, h3, h4, h5, h6⟩
      refine ⟨vals, base, Q, hv, h2, h3, h4, ?_⟩
      rw [← hW]
      exact ⟨h5, h6⟩
  rw [hround, ← hW]
  rw [← hW] at hwl hw0 hw1
  simp only [List.length_map] at hwl
  obtain ⟨sel, hsel, hsl, hpos⟩ := npChoice_ok (m := A.length) (n := s) (u := env.pick t) (show W.length = A.length by omega) hw0 hw1 (henv.pick t)
  have hdr := npChoice_drawn (henv.pick t) hsel
  have hin : ∀ i ∈ sel, i < A.length := by
    intro i hi
    obtain ⟨x, hx, _⟩ := hpos i hi
    have := (List.getElem?_eq_some_iff.1 hx).1
    omega
  unfold ssoGenerate
  rw [hsel, ok_bind, takeRows_map_getD [] hin, ok_bind]
  refine ⟨_, rfl, sel, ssoQ env k d X A, by simp, ?_, ?_, hdr, ?_⟩
  · unfold ssoQ
    dsimp only
    have h1 := henv.sqrt d (by exact_mod_cast hd)
    have h2 : ((env.kdist (min (k + 1) X.length) X A).length : ℚ) ≠ 0 := by
      rw [(henv.kdist _ _ _).1]
      have : 0 < A.length := by omega
      positivity
    field_simp
  · unfold ssoQ
    dsimp only
    have h1 := henv.sqrt d (by exact_mod_cast hd)
    exact div_nonneg (div_nonneg (List.sum_nonneg (henv.kdist _ _ _).2) (by positivity)) h1.le
  · intro i x hx
    rw [List.getElem?_map, Option.map_eq_some_iff] at hx
    obtain ⟨i', hi', rfl⟩ := hx
    obtain ⟨hlt, hji⟩ := List.getElem?_eq_some_iff.1 hi'
    rw [List.getElem_range] at hji
    subst hji
    simp only [List.length_range] at hlt
    have hi2 : i < sel.length := by omega
    have hm := List.getElem_mem hi2
    obtain ⟨w, hw, hwp⟩ := hpos _ hm
    have hA' := hin _ hm
    have hwle : w ≤ 1 := by
      rw [← hw1]
      exact List.single_le_sum hw0 _ (List.mem_of_getElem? hw)
    refine ⟨sel[i], A[sel[i]], w, List.getElem?_eq_getElem hi2, List.getElem?_eq_getElem hA', hw, hwp, hwle, by simp, ?_⟩
    intro j hj
    have e1 : sel.getD i 0 = sel[i] := by simp [List.getD_eq_getElem?_getD, hi2]
    have e2 : (sel.map (fun i => A.getD i [])).getD i [] = A[sel[i]] := by simp [List.getD_eq_getElem?_getD, hi2, hA']
    have e3 : W.getD sel[i] 0 = w := by rw [List.getD_eq_getElem?_getD, hw]; rfl
    dsimp only
    rw [e1, e2, e3]
    rw [List.getD_eq_getElem?_getD, List.getElem?_map, List.getElem?_range hj]
    simp only [Option.map_some, Option.getD_some]
    ring

theorem classRows_replicate {N : List Row} {a : Int} : classRows N (List.replicate N.length a) a = N := by
  unfold classRows
  induction N with
  | nil => rfl
  | cons x N ih => simpa [List.replicate_succ] using ih

/-- The rounds from `t` on add `fuel * s` rows. -/
theorem ssoLoop_spec {env : SsoEnv} {a : Int} (henv : env.OK a) {k h d s : Nat} (hd : 0 < d) (hh : 2 ≤ h) :
    ∀ (fuel t : Nat) (X : List Row) (y : List Int), X.length = y.length → 2 ≤ y.count a →
      (∃ e t' X' y', t ≤ t' ∧ t' < t + fuel ∧ ssoLoop env k h d a s fuel t X y = .error e ∧ env.stsm t' X' y' = .error e) ∨
      ∃ new : List Row, ssoLoop env k h d a s fuel t X y = .ok (X ++ new, y ++ List.replicate (fuel * s) a) ∧ new.length = fuel * s ∧
        ∀ j, j < fuel → SsoRound env k d (t + j) s (classRows X y a ++ new.take (j * s)) (X ++ new.take (j * s))
          (y ++ List.replicate (j * s) a) ((new.drop (j * s)).take s) := by
  intro fuel
  induction fuel with
  | zero =>
    intro t X y _ _
    exact Or.inr ⟨[], by simp [ssoLoop], by simp, by simp⟩
  | succ fuel ih =>
    intro t X y hxy hA
    have hl := classRows_length hxy a
    unfold ssoLoop
    dsimp only
    rw [selectLabel_eq_classRows]
    unfold ssoWeights
    rw [if_neg (by omega)]
    cases hv : env.stsm t X y with
    | error e => exact Or.inl ⟨e, t, X, y, le_rfl, by omega, rfl, hv⟩
    | ok vals =>
      obtain ⟨block, hb, hr⟩ := ssoRound_spec (k := k) (s := s) henv hd hv hxy (by omega)
      simp only [ok_bind, pure_bind, hb]
      have hbl : block.length = s := by
        obtain ⟨_, _, _, _, h, _⟩ := hr
        exact h
      have hcnt : 2 ≤ (y ++ List.replicate block.length a).count a := by rw [List.count_append]; omega
      rcases ih (t + 1) (X ++ block) (y ++ List.replicate block.length a) (by simp [hxy]) hcnt with
        ⟨e, t', X', y', h1, h2, h3, h4⟩ | ⟨new, h1, h2, h3⟩
      · exact Or.inl ⟨e, t', X', y', by omega, by omega, h3, h4⟩
      · refine Or.inr ⟨block ++ new, ?_, ?_, ?_⟩
        · rw [h1, List.append_assoc, List.append_assoc, List.replicate_append_replicate, hbl]
          congr 4
          ring
        · simp [h2, hbl]
          ring
        · intro j hj
          cases j with
          | zero =>
            simp only [Nat.zero_mul, List.take_zero, List.append_nil, List.replicate_zero, List.drop_zero, Nat.add_zero]
            rw [← hbl, List.take_left, hbl]
            exact hr
          | succ j =>
            have h5 := h3 j (by omega)
            have e0 : (j + 1) * s = block.length + j * s := by rw [hbl]; ring
            rw [e0, List.take_append, List.drop_append]
            simp only [Nat.add_sub_cancel_left]
            rw [List.take_of_length_le (show block.length ≤ block.length + j * s by omega), List.drop_eq_nil_of_le (show block.length ≤ block.length + j * s by omega)]
            rw [classRows_append hxy, classRows_replicate] at h5
            rw [List.nil_append, show t + (j + 1) = t + 1 + j by ring]
            rw [List.append_assoc, List.append_assoc, List.append_assoc, List.replicate_append_replicate] at h5
            exact h5

/-- **SSO.** The call raises only what the network raises; otherwise every one of the `n_iter` rounds adds as many rows, the requested
number divided by `n_iter` but at least one, around the minority rows of its input, which includes the rows of the rounds before. -/
theorem C91_sso {env : SsoEnv} {a b : Int} (henv : env.OK a) {proportion : ℚ} {k h nIter d : Nat} (hd : 0 < d) (hh : 2 ≤ h)
    {X : List Row} {y : List Int} (hwf : WF d X y) (hmin : IsMinority y a b) (h3 : 2 < y.count a) :
    (∃ e t X' y', sample defaultChecks d (ssoAlg env proportion k h nIter d) X y = .error e ∧ env.stsm t X' y' = .error e) ∨
    ∃ (new : List Row) (s : Nat), s = max 1 (requested proportion (y.count b) (y.count a) / nIter) ∧ new.length = nIter * s ∧
      sample defaultChecks d (ssoAlg env proportion k h nIter d) X y = .ok (X ++ new, y ++ List.replicate (nIter * s) a) ∧
      ∀ t, t < nIter → SsoRound env k d t s (classRows X y a ++ new.take (t * s)) (X ++ new.take (t * s))
        (y ++ List.replicate (t * s) a) ((new.drop (t * s)).take s) := by
  obtain ⟨s, hs, rfl, rfl⟩ := stats_of_isMinority hmin
  obtain ⟨hm, hM, hab⟩ := stats_min_mem hs
  rw [sample_default hs, if_neg (by omega)]
  unfold ssoAlg
  rw [stats_count hs hm, stats_count hs hM, detN_eq_requested, ok_bind]
  rcases ssoLoop_spec (k := k) (h := h) (s := max 1 (requested proportion (y.count s.majLabel) (y.count s.minLabel) / nIter)) henv hd hh
      nIter 0 X y hwf.1 (by omega) with ⟨e, t', X', y', _, _, h1, h2⟩ | ⟨new, h1, h2, h3⟩
  · exact Or.inl ⟨e, t', X', y', h1, h2⟩
  · refine Or.inr ⟨new, _, rfl, h2, h1, ?_⟩
    intro t ht
    have := h3 t ht
    rwa [Nat.zero_add] at this

/-- **Where the samples are.** -/
theorem C91_box {env : SsoEnv} {k d t s : Nat} {A X : List Row} {y : List Int} {block : List Row}
    (hlam : ∀ i j, 0 ≤ env.lam t i j ∧ env.lam t i j < 1) (h : SsoRound env k d t s A X y block) :
    ∃ Q, Q * env.sqrt d * (env.kdist (min (k + 1) X.length) X A).length = (env.kdist (min (k + 1) X.length) X A).sum ∧ 0 ≤ Q ∧
      ∀ x ∈ block, ∃ r ∈ A, ∀ j, j < d → |x.getD j 0 - r.getD j 0| ≤ Q := by
  obtain ⟨vals, base, Q, _, _, h3, h4, _, h6⟩ := h
  refine ⟨Q, h3, h4, ?_⟩
  intro x hx
  obtain ⟨i, hi⟩ := List.mem_iff_getElem?.1 hx
  obtain ⟨c, r, w, _, hr, _, hw0, hw1, _, hxj⟩ := h6 i x hi
  refine ⟨r, List.mem_of_getElem? hr, ?_⟩
  intro j hj
  rw [hxj j hj, add_sub_cancel_left, abs_mul, abs_mul, abs_of_nonneg h4, abs_of_nonneg (show (0 : ℚ) ≤ 1 - w by linarith)]
  have h7 : |2 * env.lam t i j - 1| ≤ 1 := by
    have := hlam i j
    rw [abs_le]
    constructor <;> linarith
  calc Q * (1 - w) * |2 * env.lam t i j - 1| ≤ Q * (1 - w) * 1 := mul_le_mul_of_nonneg_left h7 (mul_nonneg h4 (by linarith))
    _ ≤ Q := by nlinarith

/-- **The number of rows.** It is the requested one only if that is a positive multiple of `n_iter`; it falls short of it by less than
`n_iter` if at least `n_iter` are requested, and is `n_iter` if fewer are. -/
theorem C91_count {n nIter : Nat} (hi : 0 < nIter) :
    (nIter * max 1 (n / nIter) = n ↔ 0 < n ∧ nIter ∣ n) ∧ (n < nIter → nIter * max 1 (n / nIter) = nIter) ∧
    (nIter ≤ n → nIter * max 1 (n / nIter) ≤ n ∧ n < nIter * max 1 (n / nIter) + nIter) := by
  have hlt : n < nIter → nIter * max 1 (n / nIter) = nIter := by
    intro h
    rw [Nat.div_eq_of_lt h]
    simp
  have hge : nIter ≤ n → nIter * max 1 (n / nIter) = nIter * (n / nIter) := by
    intro h
    have : 1 ≤ n / nIter := (Nat.one_le_div_iff hi).2 h
    rw [max_eq_right this]
  have hdm := Nat.div_add_mod n nIter
  have hml := Nat.mod_lt n hi
  refine ⟨?_, hlt, ?_⟩
  · constructor
    · intro h
      refine ⟨?_, ⟨_, h.symm⟩⟩
      rw [← h]
      exact Nat.mul_pos hi (lt_of_lt_of_le Nat.one_pos (le_max_left _ _))
    · rintro ⟨h0, hdv⟩
      rw [hge (Nat.le_of_dvd h0 hdv)]
      exact Nat.mul_div_cancel' hdv
  · intro h
    rw [hge h]
    omega

/-- **Nothing requested.** If no row is requested (balanced classes, or `proportion` zero) the call adds `n_iter` rows anyway. -/
theorem C91_unrequested {env : SsoEnv} {a b : Int} (henv : env.OK a) {proportion : ℚ} {k h nIter d : Nat} (hd : 0 < d) (hh : 2 ≤ h)
    {X : List Row} {y : List Int} (hwf : WF d X y) (hmin : IsMinority y a b) (h3 : 2 < y.count a)
    (h0 : requested proportion (y.count b) (y.count a) = 0) (hok : ∀ t X' y', ∃ v, env.stsm t X' y' = .ok v) :
    ∃ new : List Row, new.length = nIter ∧
      sample defaultChecks d (ssoAlg env proportion k h nIter d) X y = .ok (X ++ new, y ++ List.replicate nIter a) := by
  rcases C91_sso (proportion := proportion) (k := k) (nIter := nIter) henv hd hh hwf hmin h3 with ⟨e, t, X', y', _, h2⟩ | ⟨new, s, h1, h2, h3, _⟩
  · obtain ⟨v, hv⟩ := hok t X' y'
    rw [hv] at h2
    cases h2
  · rw [h0, Nat.zero_div, max_eq_left (by omega)] at h1
    subst h1
    rw [Nat.mul_one] at h2 h3
    exact ⟨new, h2, h3⟩

/-- **One centre.** `h = 1`, which the constructor accepts, always raises. -/
theorem C91_one_centre {env : SsoEnv} {a b : Int} {proportion : ℚ} {k h nIter d : Nat} (hh : h < 2) (hi : 0 < nIter)
    {X : List Row} {y : List Int} (hmin : IsMinority y a b) (h3 : 2 < y.count a) :
    sample defaultChecks d (ssoAlg env proportion k h nIter d) X y = .error .valueError := by
  obtain ⟨s, hs, rfl, rfl⟩ := stats_of_isMinority hmin
  obtain ⟨hm, hM, hab⟩ := stats_min_mem hs
  rw [sample_default hs, if_neg (by omega)]
  unfold ssoAlg
  rw [stats_count hs hm, stats_count hs hM, detN_eq_requested, ok_bind]
  obtain ⟨m, rfl⟩ : ∃ m, nIter = m + 1 := ⟨nIter - 1, by omega⟩
  unfold ssoLoop
  dsimp only
  unfold ssoWeights
  rw [if_pos (by omega)]
  rfl

/-! ## The hypotheses are met -/

/-- All values of the network are one, all distances two. -/
def ssoEnv : SsoEnv := ⟨fun _ _ y => .ok (List.replicate (y.count 1) (.fin (-1))), fun _ _ Q => Q.map (fun _ => 2), fun _ => 1, fun t i => (t + i) / (t + i + 1),
  fun _ _ _ => 3/4⟩

theorem ssoEnv_ok : ssoEnv.OK 1 where
  stsm := by
    intro t X y vals h
    injection h with h
    rw [← h]
    simp
  kdist := by
    intro k X Q
    refine ⟨by simp [ssoEnv], ?_⟩
    intro q hq
    obtain ⟨_, _, rfl⟩ := List.mem_map.1 hq
    norm_num
  sqrt := fun _ _ => by simp [ssoEnv]
  pick := by
    intro t i
    simp only [ssoEnv]
    constructor
    · positivity
    · rw [div_lt_one (by positivity)]
      linarith

def ssoX : List Row := [[0], [1], [2], [10], [11], [12], [13], [14]]
def ssoY : List Int := [1, 1, 1, 0, 0, 0, 0, 0]

/-- Two of three requested rows; the shares are one third in the first round and one fourth in the second. -/
example : sample defaultChecks 1 (ssoAlg ssoEnv (3/2) 2 2 2 1) ssoX ssoY = .ok (ssoX ++ [[2/3], [2 + 3/4]], ssoY ++ [1, 1]) ∧
    requested (3/2) (ssoY.count 0) (ssoY.count 1) = 3 ∧ WF 1 ssoX ssoY ∧ 2 < ssoY.count 1 := by decide +kernel

example : IsMinority ssoY 1 0 := ⟨by decide, by decide, by decide, Or.inl (by decide)⟩

/-- **Balanced data become unbalanced.** -/
theorem C91_balanced : ∃ (X : List Row) (y y' : List Int) (new : List Row), WF 1 X y ∧ IsMinority y 1 0 ∧ y.count 1 = y.count 0 ∧ ssoEnv.OK 1 ∧
    sample defaultChecks 1 (ssoAlg ssoEnv 1 5 10 5 1) X y = .ok (X ++ new, y') ∧ y'.count 1 = y'.count 0 + 5 := by
  obtain ⟨new, _, h⟩ := C91_unrequested (proportion := 1) (k := 5) (h := 10) (nIter := 5) ssoEnv_ok Nat.one_pos (by norm_num)
    (show WF 1 [[0], [1], [2], [10], [11], [12]] [1, 1, 1, 0, 0, 0] by decide +kernel)
    (show IsMinority [1, 1, 1, 0, 0, 0] 1 0 from ⟨by decide, by decide, by decide, Or.inr ⟨by decide, by decide⟩⟩) (by decide)
    (by decide +kernel) (fun _ _ _ => ⟨_, rfl⟩)
  exact ⟨_, _, _, new, by decide +kernel, ⟨by decide, by decide, by decide, Or.inr ⟨by decide, by decide⟩⟩, by decide, ssoEnv_ok, h, by decide⟩

end Verif

import Verif.Model.Rounded
import Verif.Lemmas.Rounding
import Verif.Lemmas.Smote

/-! # Lemmas on SMOTE with rounding -/

namespace Verif

theorem flDetN_eq (fl : ℚ → ℚ) (p : ℚ) (nMaj nMin : Nat) : flDetN fl p nMaj nMin = .ok (flRequested fl p nMaj nMin) := by
  unfold flDetN flRequested pyInt
  congr 1
  split
  · rename_i h
    have := Int.floor_nonneg.2 h
    omega
  · rename_i h
    push Not at h
    have h1 := Int.ceil_le.2 (show fl (((nMaj : ℚ) - (nMin : ℚ)) * p) ≤ ((0 : Int) : ℚ) by simpa using h.le)
    have h2 := Int.floor_le_ceil (fl (((nMaj : ℚ) - (nMin : ℚ)) * p))
    omega

theorem SameOutcome.bind {α β γ δ : Type} {P : α → β → Prop} {Q : γ → δ → Prop} {x : Res α} {x' : Res β} {f : α → Res γ} {g : β → Res δ}
    (h : SameOutcome P x x') (hf : ∀ a b, x = .ok a → x' = .ok b → P a b → SameOutcome Q (f a) (g b)) : SameOutcome Q (x >>= f) (x' >>= g) := by
  cases h with
  | ok h => exact hf _ _ rfl rfl h
  | error e => exact .error e

theorem SameOutcome.refl {α : Type} {P : α → α → Prop} (x : Res α) (h : ∀ a, x = .ok a → P a a) : SameOutcome P x x := by
  cases x with
  | ok a => exact .ok (h a rfl)
  | error e => exact .error e

theorem SameOutcome.mono {α β : Type} {P Q : α → β → Prop} {x : Res α} {x' : Res β} (h : SameOutcome P x x') (hpq : ∀ a b, P a b → Q a b) :
    SameOutcome Q x x' := by
  cases h with
  | ok h => exact .ok (hpq _ _ h)
  | error e => exact .error e

theorem SameOutcome.mapM {α β γ : Type} {P : β → γ → Prop} {f : α → Res β} {g : α → Res γ} {l : List α}
    (h : ∀ x ∈ l, SameOutcome P (f x) (g x)) : SameOutcome (List.Forall₂ P) (l.mapM f) (l.mapM g) := by
  induction l with
  | nil => exact .ok .nil
  | cons x l ih =>
    rw [List.mapM_cons, List.mapM_cons]
    refine (h x List.mem_cons_self).bind (fun a b _ _ hab => ?_)
    exact (ih (fun z hz => h z (List.mem_cons_of_mem _ hz))).bind (fun as bs _ _ has => .ok (.cons hab has))

theorem sumsUp_sum (l : List ℚ) : SumsUp id l l.sum := by
  induction l with
  | nil => exact .nil
  | cons x l ih =>
    cases l with
    | nil => simpa using SumsUp.single x
    | cons z l =>
      have := SumsUp.add (l := [x]) (m := z :: l) (by simp) (by simp) (SumsUp.single x) ih
      simpa using this

theorem simplexError_zero (m : Nat) : simplexError 0 m = 0 := by simp [simplexError]

theorem simplexError_nonneg {ε : ℚ} (h0 : 0 ≤ ε) (h1 : ε < 1) (m : Nat) : 0 ≤ simplexError ε m := by
  unfold simplexError
  have r1 : 1 ≤ (1 + ε) / (1 - ε) := by rw [le_div_iff₀ (by linarith)]; linarith
  linarith [one_le_pow₀ r1 (n := m + 1)]

theorem flPoint_length (A : MachineArith) (d : Nat) (w : List ℚ) (vs : List Row) : (flPoint A d w vs).length = d := by simp [flPoint]

theorem flPoint_getD (A : MachineArith) {d c : Nat} (hc : c < d) (w : List ℚ) (vs : List Row) :
    (flPoint A d w vs).getD c 0 = A.sum (List.zipWith (fun v x => A.fl (v * x)) (vs.map (fun r => r.getD c 0)) w) := by
  unfold flPoint
  rw [List.getD_eq_getElem?_getD, List.getElem?_map, List.getElem?_range hc, List.zipWith_map_left]
  rfl

theorem rowSum_smul_getD {d c : Nat} (hc : c < d) {w : List ℚ} {vs : List Row} (hv : ∀ r ∈ vs, r.length = d) :
    (rowSum d (List.zipWith Row.smul w vs)).getD c 0 = (List.zipWith (· * ·) w (vs.map (fun r => r.getD c 0))).sum ∧
    (rowSum d (List.zipWith Row.smul w vs)).length = d := by
  have hl : ∀ r ∈ List.zipWith Row.smul w vs, r.length = d := by
    intro r hr
    rw [← List.map_uncurry_zip_eq_zipWith] at hr
    obtain ⟨p, hp, rfl⟩ := List.mem_map.1 hr
    have := hv _ (List.of_mem_zip hp).2
    simp [Function.uncurry, Row.smul, this]
  refine ⟨?_, rowSum_length hl⟩
  rw [rowSum_getD hl hc, List.map_zipWith, List.zipWith_map_right]
  congr 1
  exact congrArg (fun f => List.zipWith f w vs) (by funext a b; exact Row.smul_getD a b c)

/-- One point of a simplex, with rounding and without. -/
theorem flPoint_near {A : MachineArith} {ε : ℚ} (h : RoundsWithin A.fl ε) (h0 : 0 ≤ ε) (h1 : ε < 1) (hsum : ∀ l, SumsUp A.fl l (A.sum l))
    {d : Nat} {M : Nat → ℚ} {u : List ℚ} {vs : List Row} (hl : u.length = vs.length) (hu : ∀ x ∈ u, 0 ≤ x) (hS : u.sum ≠ 0)
    (hv : ∀ r ∈ vs, r.length = d) (hM : ∀ r ∈ vs, ∀ c, c < d → |r.getD c 0| ≤ M c) :
    RowsWithin d (fun c => simplexError ε u.length * M c) (flPoint A d (u.map (fun x => A.fl (x / A.sum u))) vs)
      (rowSum d (List.zipWith Row.smul (u.map (· / u.sum)) vs)) := by
  have hS0 : 0 < u.sum := lt_of_le_of_ne (List.sum_nonneg hu) (Ne.symm hS)
  refine ⟨flPoint_length .., ?_, fun c hc => ?_⟩
  · refine rowSum_length fun r hr => ?_
    rw [← List.map_uncurry_zip_eq_zipWith] at hr
    obtain ⟨p, hp, rfl⟩ := List.mem_map.1 hr
    have := hv _ (List.of_mem_zip hp).2
    simp [Function.uncurry, Row.smul, this]
  · rw [flPoint_getD A hc, (rowSum_smul_getD hc hv).1]
    have hp := simplex_point_near h h0 h1 (u := u) (v := vs.map (fun r => r.getD c 0)) (by simpa using hl) hu hS (hsum u) (hsum _)
    refine hp.trans (mul_le_mul_of_nonneg_left ?_ (simplexError_nonneg h0 h1 _))
    have hw : ∀ x ∈ u.map (· / u.sum), 0 ≤ x := by
      intro x hx
      obtain ⟨z, hz, rfl⟩ := List.mem_map.1 hx
      exact div_nonneg (hu z hz) hS0.le
    have hb := abs_weighted_sum (w := u.map (· / u.sum)) (v := vs.map (fun r => r.getD c 0)) (M := M c) hw (by
      intro x hx
      obtain ⟨r, hr, rfl⟩ := List.mem_map.1 hx
      exact hM r hr c hc) (by simpa using hl)
    have hone : (u.map (· / u.sum)).sum = 1 := by
      have := sum_map_times u (1 / u.sum)
      have e : u.map (· / u.sum) = u.map (· * (1 / u.sum)) := List.map_congr_left (fun x _ => by ring)
      rw [e, this]
      field_simp
    rw [hone, one_mul] at hb
    exact hb

theorem sum_zero_iff {A : MachineArith} {ε : ℚ} (h : RoundsWithin A.fl ε) (h0 : 0 ≤ ε) (h1 : ε < 1) (hsum : ∀ l, SumsUp A.fl l (A.sum l))
    {u : List ℚ} (hu : ∀ x ∈ u, 0 ≤ x) : A.sum u = 0 ↔ u.sum = 0 := by
  have hb := sumsUp_nonneg h h0 h1.le (hsum u) hu
  constructor
  · intro hz
    have hp : 0 < (1 - ε) ^ (u.length - 1) := pow_pos (by linarith) _
    have := List.sum_nonneg hu
    by_contra hc
    have : 0 < u.sum := lt_of_le_of_ne this (Ne.symm hc)
    have := mul_pos this hp
    linarith [hb.1]
  · intro hz
    rw [hz, zero_mul, zero_mul] at hb
    linarith [hb.1, hb.2]

/-- Points of a list of simplices. -/
theorem flRandomSamples_near {A : MachineArith} {ε : ℚ} (h : RoundsWithin A.fl ε) (h0 : 0 ≤ ε) (h1 : ε < 1)
    (hsum : ∀ l, SumsUp A.fl l (A.sum l)) {d m : Nat} {M : Nat → ℚ} {X : List Row} {sel : List (List Nat)} {u : Nat → Nat → ℚ}
    (hu : ∀ i j, 0 ≤ u i j) (hsel : ∀ s ∈ sel, s.length = m) (hX : ∀ r ∈ X, r.length = d) (hM : ∀ r ∈ X, ∀ c, c < d → |r.getD c 0| ≤ M c) :
    SameOutcome (List.Forall₂ (RowsWithin d (fun c => simplexError ε m * M c))) (flRandomSamples A d X sel none u)
      (randomSamplesFromSimplices d X sel none none u) := by
  unfold flRandomSamples randomSamplesFromSimplices
  refine SameOutcome.mapM ?_
  rintro ⟨s, i⟩ hs
  have hsm : s.length = m := hsel s (List.mem_zipIdx_iff_getElem?.1 hs |> List.mem_of_getElem?)
  have hu' : ∀ x ∈ (List.range s.length).map (u i), 0 ≤ x := by
    intro x hx
    obtain ⟨j, _, rfl⟩ := List.mem_map.1 hx
    exact hu i j
  have hz := sum_zero_iff h h0 h1 hsum hu'
  dsimp only
  unfold flNormalize normalizeDraw
  by_cases hS : ((List.range s.length).map (u i)).sum = 0
  · rw [if_pos hS, if_pos (hz.2 hS)]
    exact .error _
  · rw [if_neg hS, if_neg (fun hc => hS (hz.1 hc)), ok_bind, ok_bind]
    refine SameOutcome.bind (P := fun a b => a = b) (SameOutcome.refl _ (fun _ _ => rfl)) ?_
    rintro vs _ hvs _ rfl
    have hvs' : takeRows X s = .ok vs := hvs
    have hlen := takeRows_length hvs'
    have hmem : ∀ r ∈ vs, r ∈ X := fun r hr => takeRows_mem hvs' hr
    have := flPoint_near h h0 h1 hsum (u := (List.range s.length).map (u i)) (vs := vs) (d := d) (M := M) (by simp [hlen]) hu' hS
      (fun r hr => hX r (hmem r hr)) (fun r hr => hM r (hmem r hr))
    rw [List.length_map, List.length_range, hsm] at this
    rw [hsm]
    exact .ok this

theorem fl_nonneg {fl : ℚ → ℚ} {ε : ℚ} (h : RoundsWithin fl ε) (h1 : ε < 1) {x : ℚ} (hx : 0 ≤ x) : 0 ≤ fl x := by
  have := abs_le.1 (h x)
  rw [abs_of_nonneg hx] at this
  nlinarith [this.1]

theorem fl_nonpos {fl : ℚ → ℚ} {ε : ℚ} (h : RoundsWithin fl ε) (h1 : ε < 1) {x : ℚ} (hx : x ≤ 0) : fl x ≤ 0 := by
  have := abs_le.1 (h x)
  rw [abs_of_nonpos hx] at this
  nlinarith [this.2]

theorem sumsUp_sign {fl : ℚ → ℚ} {ε : ℚ} (h : RoundsWithin fl ε) (h1 : ε < 1) {l : List ℚ} {s : ℚ} (hs : SumsUp fl l s) :
    ((∀ x ∈ l, 0 ≤ x) → 0 ≤ s) ∧ ((∀ x ∈ l, x ≤ 0) → s ≤ 0) := by
  induction hs with
  | nil => simp
  | single x => simp
  | add _ _ _ _ i1 i2 =>
    constructor
    · intro hp
      exact fl_nonneg h h1 (add_nonneg (i1.1 fun x hx => hp x (List.mem_append_left _ hx)) (i2.1 fun x hx => hp x (List.mem_append_right _ hx)))
    · intro hp
      exact fl_nonpos h h1 (add_nonpos (i1.2 fun x hx => hp x (List.mem_append_left _ hx)) (i2.2 fun x hx => hp x (List.mem_append_right _ hx)))

/-- The sign of a point of a simplex in a coordinate in which all vertices have the same sign. -/
theorem flPoint_sign {A : MachineArith} {ε : ℚ} (h : RoundsWithin A.fl ε) (h1 : ε < 1) (hsum : ∀ l, SumsUp A.fl l (A.sum l))
    {d c : Nat} (hc : c < d) {w : List ℚ} {vs : List Row} (hw : ∀ x ∈ w, 0 ≤ x) :
    ((∀ r ∈ vs, 0 ≤ r.getD c 0) → 0 ≤ (flPoint A d w vs).getD c 0) ∧ ((∀ r ∈ vs, r.getD c 0 ≤ 0) → (flPoint A d w vs).getD c 0 ≤ 0) := by
  have key : ∀ x ∈ List.zipWith (fun v x => A.fl (v * x)) (vs.map (fun r => r.getD c 0)) w,
      ∃ r ∈ vs, ∃ t ∈ w, x = A.fl (r.getD c 0 * t) := by
    intro x hx
    rw [← List.map_uncurry_zip_eq_zipWith] at hx
    obtain ⟨⟨v, t⟩, hp, rfl⟩ := List.mem_map.1 hx
    obtain ⟨hv, ht⟩ := List.of_mem_zip hp
    obtain ⟨r, hr, rfl⟩ := List.mem_map.1 hv
    exact ⟨r, hr, t, ht, rfl⟩
  rw [flPoint_getD A hc]
  have hs := sumsUp_sign h h1 (hsum (List.zipWith (fun v x => A.fl (v * x)) (vs.map (fun r => r.getD c 0)) w))
  refine ⟨fun hp => hs.1 fun x hx => ?_, fun hp => hs.2 fun x hx => ?_⟩
  · obtain ⟨r, hr, t, ht, rfl⟩ := key x hx
    exact fl_nonneg h h1 (mul_nonneg (hp r hr) (hw t ht))
  · obtain ⟨r, hr, t, ht, rfl⟩ := key x hx
    exact fl_nonpos h h1 (mul_nonpos_of_nonpos_of_nonneg (hp r hr) (hw t ht))

/-- Every new row is a point, with weights of at least zero, of a simplex of rows of `X`. -/
theorem flRandomSamples_mem {A : MachineArith} {ε : ℚ} (h : RoundsWithin A.fl ε) (h1 : ε < 1) (hsum : ∀ l, SumsUp A.fl l (A.sum l))
    {d : Nat} {X out : List Row} {sel : List (List Nat)} {u : Nat → Nat → ℚ} (hu : ∀ i j, 0 ≤ u i j)
    (ho : flRandomSamples A d X sel none u = .ok out) {x : Row} (hx : x ∈ out) :
    ∃ w vs, (∀ t ∈ w, 0 ≤ t) ∧ (∀ r ∈ vs, r ∈ X) ∧ x = flPoint A d w vs := by
  unfold flRandomSamples at ho
  obtain ⟨⟨s, i⟩, -, hi⟩ := forall₂_mem_right (mapM_ok_iff.1 ho) hx
  obtain ⟨w, hw, hi⟩ := bind_ok.1 hi
  obtain ⟨vs, hvs, hi⟩ := bind_ok.1 hi
  injection hi with hi
  refine ⟨w, vs, ?_, fun r hr => takeRows_mem (show takeRows X s = .ok vs from hvs) hr, hi.symm⟩
  unfold flNormalize at hw
  split at hw
  · cases hw
  · injection hw with hw
    subst hw
    have hu' : ∀ x ∈ (List.range s.length).map (u i), 0 ≤ x := by
      intro x hx
      obtain ⟨j, _, rfl⟩ := List.mem_map.1 hx
      exact hu i j
    intro t ht
    obtain ⟨z, hz, rfl⟩ := List.mem_map.1 ht
    exact fl_nonneg h h1 (div_nonneg (hu' z hz) ((sumsUp_sign h h1 (hsum _)).1 hu'))

end Verif

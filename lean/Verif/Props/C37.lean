import Verif.Model.Ccr
import Verif.Lemmas.Interp
import Verif.Props.C36

/-!
# C37: radii, sample budget and sample positions of CCR
-/

namespace Verif

/-! ## Radii -/

theorem prevDistance_nonneg {ds : List ℚ} (h : ∀ x ∈ ds, 0 ≤ x) (m : Nat) : 0 ≤ prevDistance ds m := by
  unfold prevDistance
  split
  · cases ds with
    | nil => simp
    | cons a l =>
      rw [List.getLastD_cons, List.getLastD_eq_getLast?]
      cases hl : l.getLast? with
      | none => exact h a (by simp)
      | some z => exact h z (by simp [List.mem_of_getLast? hl])
  · rw [List.getD_eq_getElem?_getD]
    cases hx : ds[m - 1]? with
    | none => simp
    | some z => exact h z (List.mem_of_getElem? hx)

/-- What the loop returns, from any state in which the radius is positive as soon as energy was spent. -/
theorem ccrLoop_pos {ds : List ℚ} (hds : ∀ x ∈ ds, 0 ≤ x) : ∀ (rest : List ℚ) (m : Nat) (last rem radius : ℚ),
    (∀ x ∈ rest, 0 ≤ x) → m + rest.length = ds.length → 2 ≤ ds.length → 0 ≤ last → (m = 0 → last = 0) → 0 ≤ radius →
    (0 < rem ∨ (0 < radius ∧ rest ≠ []) ∨ (rest = [] ∧ 0 < radius + rem / max 1 ((m - 1 : Nat) : ℚ))) →
    0 < (ccrLoop ds rest m last rem radius).1 + ((ccrLoop ds rest m last rem radius).2.1 /
      max 1 ((ccrLoop ds rest m last rem radius).2.2 : ℚ)) *
      (if (ccrLoop ds rest m last rem radius).2.2 + 1 = ds.length then 1 else 0) := by
  intro rest
  induction rest with
  | nil =>
    intro m last rem radius _ hm h2 _ _ hr hst
    simp only [ccrLoop]
    simp only [List.length_nil, Nat.add_zero] at hm
    have hif : (if m - 1 + 1 = ds.length then (1:ℚ) else 0) = 1 := if_pos (by omega)
    show 0 < radius + rem / max 1 ((m - 1 : Nat) : ℚ) * (if m - 1 + 1 = ds.length then (1:ℚ) else 0)
    rw [hif, mul_one]
    rcases hst with h | ⟨_, h⟩ | ⟨_, h⟩
    · have : (0:ℚ) < max 1 ((m - 1 : Nat) : ℚ) := lt_max_of_lt_left one_pos
      have := div_pos h this
      linarith
    · exact absurd rfl h
    · exact h
  | cons dist rest ih =>
    intro m last rem radius hrest hm h2 hl hm0 hr hst
    have hmx : ∀ c : Nat, (0:ℚ) < max 1 (c : ℚ) := fun c => lt_max_of_lt_left one_pos
    rw [ccrLoop]
    split
    · rename_i hrem
      have : 0 < radius := by
        rcases hst with h | h | h
        · linarith
        · exact h.1
        · simp at h
      dsimp only
      rw [zero_div, zero_mul, add_zero]
      exact this
    · rename_i hrem
      push Not at hrem
      split
      · have h1 : (0:ℚ) < rem / (m + 1) := by positivity
        have h3 : 0 ≤ rem / max 1 (m : ℚ) := (div_pos hrem (hmx m)).le
        dsimp only
        split <;> nlinarith
      · rename_i hlt
        push Not at hlt
        have hd0 : 0 ≤ dist := hrest dist (by simp)
        set rc := max (dist - last) 0 with hrc
        have hrc0 : 0 ≤ rc := le_max_right _ _
        have hrcd : rc ≤ dist := max_le (by linarith) hd0
        simp only [List.length_cons] at hm
        refine ih (m + 1) _ _ _ (fun x hx => hrest x (by simp [hx])) (by omega) h2 (prevDistance_nonneg hds m) (by omega)
          (by linarith) ?_
        by_cases hpos : 0 < rem - rc * (m + 1)
        · exact Or.inl hpos
        · push Not at hpos
          right
          have hmm : (0:ℚ) < (m:ℚ) + 1 := by positivity
          have hrcpos : 0 < rc := by
            by_contra h
            have : rc = 0 := le_antisymm (not_lt.1 h) hrc0
            rw [this] at hpos
            linarith
          by_cases hre : rest = []
          · right
            refine ⟨hre, ?_⟩
            rw [hre] at hm
            simp only [List.length_nil] at hm
            have hm1 : 1 ≤ m := by omega
            have hmq : (1:ℚ) ≤ m := by exact_mod_cast hm1
            rw [Nat.add_sub_cancel, max_eq_right hmq]
            have hmp : (0:ℚ) < m := by linarith
            have e : radius + rc + (rem - rc * (m + 1)) / m = (radius * m + (rem - rc)) / m := by
              field_simp; ring
            rw [e]
            apply div_pos _ hmp
            have h3 : rc < radius + rem / (m + 1) := lt_of_le_of_lt hrcd hlt
            have h4 : rem / ((m:ℚ) + 1) ≤ rem := div_le_self hrem.le (by linarith)
            nlinarith
          · left
            exact ⟨by linarith, hre⟩

theorem sortedL1_nonneg {p : Row} {majority : List Row} : ∀ x ∈ sortedL1 p majority, 0 ≤ x := by
  intro x hx
  unfold sortedL1 at hx
  rw [(List.perm_insertionSort (· ≤ ·) _).mem_iff, List.mem_map] at hx
  obtain ⟨q, _, rfl⟩ := hx
  unfold l1Dist
  apply List.sum_nonneg
  intro z hz
  rw [List.mem_map] at hz
  obtain ⟨t, _, rfl⟩ := hz
  exact abs_nonneg t

/-- Radii are positive for every list of at least two non-negative distances and every positive energy, so no share is
infinite. -/
theorem C37_radius_pos (E : ℚ) (hE : 0 < E) (ds : List ℚ) (h2 : 2 ≤ ds.length) (hds : ∀ x ∈ ds, 0 ≤ x) :
    0 < ccrRadius E ds := by
  unfold ccrRadius
  exact ccrLoop_pos hds ds 0 0 E 0 hds (by omega) h2 (le_refl _) (fun _ => rfl) (le_refl _) (Or.inl hE)

example : ccrRadius 3 [1, 2, 3] = 2 ∧ ccrRadius (1/4) [0, 0, 0] = 1/8 := by decide +kernel

/-- The energy needed to grow a sphere to the radius `r` among majority rows at the distances `ds`: every unit of radius costs
one plus the number of majority rows already inside. -/
def expansionCost (ds : List ℚ) (r : ℚ) : ℚ := r + (ds.map (fun d => max 0 (r - d))).sum

/-- The energy is not the budget it is meant to be. In the first example the distance subtracted is the one before the last, so
the same growth is taken more than once; in the second the energy already spent on the last step is added again. -/
theorem C37_energy_budget_broken :
    2 * 10 < expansionCost [0, 0, 3, 3, 3, 100] (ccrRadius 10 [0, 0, 3, 3, 3, 100]) ∧
    ccrRadius 10 [0, 5] = 15 ∧ expansionCost [0, 5] 5 = 10 := by decide +kernel

/-! ## Budget -/

theorem amhm_dev (a : ℚ) (ha : 0 < a) (l : List ℚ) (hl : ∀ r ∈ l, 0 < r) :
    l.sum / a + a * (l.map (fun r => 1 / r)).sum - 2 * l.length = (l.map (fun r => (r - a) ^ 2 / (a * r))).sum := by
  induction l with
  | nil => simp
  | cons r l ih =>
    have hr : 0 < r := hl r (by simp)
    have := ih (fun r hr => hl r (by simp [hr]))
    simp only [List.map_cons, List.sum_cons, List.length_cons]
    rw [← this]
    push_cast
    field_simp
    ring

theorem amhm_dev_nonneg (a : ℚ) (ha : 0 < a) (l : List ℚ) (hl : ∀ r ∈ l, 0 < r) :
    0 ≤ (l.map (fun r => (r - a) ^ 2 / (a * r))).sum ∧
      ((l.map (fun r => (r - a) ^ 2 / (a * r))).sum = 0 → ∀ r ∈ l, r = a) := by
  induction l with
  | nil => simp
  | cons r l ih =>
    have hr : 0 < r := hl r (by simp)
    obtain ⟨h1, h2⟩ := ih (fun r hr => hl r (by simp [hr]))
    simp only [List.map_cons, List.sum_cons]
    have h3 : 0 ≤ (r - a) ^ 2 / (a * r) := by positivity
    refine ⟨by linarith, ?_⟩
    intro h x hx
    rcases List.mem_cons.1 hx with rfl | hx
    · have h4 : (x - a) ^ 2 / (a * x) = 0 := by linarith
      rw [div_eq_zero_iff] at h4
      rcases h4 with h4 | h4
      · have := pow_eq_zero_iff (two_ne_zero) |>.1 h4
        linarith
      · have : 0 < a * x := by positivity
        linarith
    · exact h2 (by linarith) x hx

/-- The inequality between the arithmetic and the harmonic mean, with its equality case. -/
theorem amhm (l : List ℚ) (hl : ∀ r ∈ l, 0 < r) :
    (l.length : ℚ) ^ 2 ≤ l.sum * (l.map (fun r => 1 / r)).sum ∧
      (l.sum * (l.map (fun r => 1 / r)).sum = (l.length : ℚ) ^ 2 → ∀ r ∈ l, ∀ r' ∈ l, r = r') := by
  induction l with
  | nil => simp
  | cons a l ih =>
    have ha : 0 < a := hl a (by simp)
    obtain ⟨h1, _⟩ := ih (fun r hr => hl r (by simp [hr]))
    have h2 := amhm_dev a ha l (fun r hr => hl r (by simp [hr]))
    obtain ⟨h3, h4⟩ := amhm_dev_nonneg a ha l (fun r hr => hl r (by simp [hr]))
    rw [← h2] at h3 h4
    simp only [List.map_cons, List.sum_cons, List.length_cons]
    have e : (a + l.sum) * (1 / a + (l.map (fun r => 1 / r)).sum) =
        1 + (l.sum / a + a * (l.map (fun r => 1 / r)).sum) + l.sum * (l.map (fun r => 1 / r)).sum := by
      field_simp
      ring
    rw [e]
    push_cast
    refine ⟨by nlinarith, ?_⟩
    intro h
    have h0 := h4 (by nlinarith)
    intro r hr r' hr'
    have hall : ∀ r ∈ a :: l, r = a := by
      intro r hr
      rcases List.mem_cons.1 hr with rfl | hr
      · rfl
      · exact h0 r hr
    rw [hall r hr, hall r' hr']

theorem ccrShare_sum (n : Nat) (radii l : List ℚ) :
    (l.map (ccrShare n radii)).sum = (n : ℚ) / (radii.length : ℚ) ^ 2 * (radii.sum * (l.map (fun r => 1 / r)).sum) := by
  induction l with
  | nil => simp
  | cons a l ih =>
    simp only [List.map_cons, List.sum_cons]
    rw [ih]
    unfold ccrShare
    rw [div_div_eq_mul_div]
    ring

/-- The shares of all minority rows add up to at least the requested number. -/
theorem C37_budget (n : Nat) (radii : List ℚ) (hne : radii ≠ []) (hpos : ∀ r ∈ radii, 0 < r) :
    (n : ℚ) ≤ (radii.map (ccrShare n radii)).sum ∧
      (0 < n → ((radii.map (ccrShare n radii)).sum = n ↔ ∀ r ∈ radii, ∀ r' ∈ radii, r = r')) := by
  obtain ⟨h1, h2⟩ := amhm radii hpos
  have hlen : (0:ℚ) < radii.length := by exact_mod_cast List.length_pos_iff.2 hne
  have hl2 : (0:ℚ) < (radii.length : ℚ) ^ 2 := by positivity
  rw [ccrShare_sum]
  refine ⟨?_, ?_⟩
  · rw [div_mul_eq_mul_div, le_div_iff₀ hl2]
    exact mul_le_mul_of_nonneg_left h1 (by positivity)
  · intro hn
    have hnq : (0:ℚ) < n := by exact_mod_cast hn
    rw [div_mul_eq_mul_div, div_eq_iff hl2.ne']
    constructor
    · intro h
      exact h2 (mul_left_cancel₀ hnq.ne' h)
    · intro h
      congr 1
      obtain ⟨a, l, rfl⟩ := List.exists_cons_of_ne_nil hne
      have hall : ∀ r ∈ a :: l, r = a := fun r hr => h r hr a (by simp)
      have hrep : a :: l = List.replicate (a :: l).length a := List.eq_replicate_iff.2 ⟨rfl, hall⟩
      have ha : 0 < a := hpos a (by simp)
      generalize (a :: l).length = k at *
      rw [hrep]
      simp
      field_simp

/-- With unequal radii more is allotted than requested. -/
example : ([1, 3].map (ccrShare 6 [1, 3])).sum = 8 := by decide +kernel

/-! ## Positions -/

theorem taxicab_coord (radius : ℚ) (us : List ℚ) (hu : ∀ u ∈ us, 0 ≤ u ∧ u ≤ 1) : ∀ prev, |prev| ≤ radius →
    ∀ x ∈ taxicabEntries radius prev us, |x| ≤ radius := by
  induction us with
  | nil => intro prev _ x hx; simp [taxicabEntries] at hx
  | cons u us ih =>
    intro prev hp x hx
    have hb : |(radius - |prev|) * (2 * u - 1)| ≤ radius := by
      have h0 := abs_nonneg prev
      rw [abs_mul, abs_of_nonneg (by linarith)]
      have h1 : |2 * u - 1| ≤ 1 := by
        obtain ⟨a, b⟩ := hu u (by simp)
        rw [abs_le]; constructor <;> linarith
      have h2 := abs_nonneg (2 * u - 1)
      nlinarith
    rw [taxicabEntries] at hx
    rcases List.mem_cons.1 hx with rfl | hx
    · exact hb
    · exact ih (fun u hu' => hu u (by simp [hu'])) _ hb x hx

theorem taxicab_length (radius prev : ℚ) (us : List ℚ) : (taxicabEntries radius prev us).length = us.length := by
  induction us generalizing prev with
  | nil => rfl
  | cons u us ih => rw [taxicabEntries, List.length_cons, List.length_cons, ih]

/-- In one or two dimensions an offset lies in the L1 ball of the radius. -/
theorem C37_l1_two_dim (radius : ℚ) (hr : 0 ≤ radius) (us : List ℚ) (hd : us.length ≤ 2) (hu : ∀ u ∈ us, 0 ≤ u ∧ u ≤ 1) :
    ((taxicabEntries radius 0 us).map (fun t => |t|)).sum ≤ radius := by
  have hfac : ∀ u ∈ us, |2 * u - 1| ≤ 1 := by
    intro u h
    obtain ⟨a, b⟩ := hu u h
    rw [abs_le]; constructor <;> linarith
  match us, hd, hfac with
  | [], _, _ => simpa [taxicabEntries] using hr
  | [u], _, hfac =>
    simp only [taxicabEntries, List.map_cons, List.map_nil, List.sum_cons, List.sum_nil, abs_zero, sub_zero, add_zero]
    rw [abs_mul, abs_of_nonneg hr]
    exact mul_le_of_le_one_right hr (hfac u (by simp))
  | [u, v], _, hfac =>
    have h1 := taxicab_coord radius [u] (fun w hw => hu w (by simp at hw ⊢; exact Or.inl hw)) 0 (by simpa using hr)
      (radius * (2 * u - 1)) (by simp [taxicabEntries])
    simp only [taxicabEntries, List.map_cons, List.map_nil, List.sum_cons, List.sum_nil, abs_zero, sub_zero, add_zero]
    rw [abs_mul (radius - _), abs_of_nonneg (by linarith : 0 ≤ radius - |radius * (2 * u - 1)|)]
    have h2 := hfac v (by simp)
    have h3 := abs_nonneg (2 * v - 1)
    nlinarith

/-- In three dimensions it need not. -/
theorem C37_l1_three_dim_fails :
    ∃ us : List ℚ, us.length = 3 ∧ (∀ u ∈ us, 0 ≤ u ∧ u < 1) ∧
      1 < ((taxicabEntries 1 0 us).map (fun t => |t|)).sum := by
  exact ⟨[3/4, 1/2, 9/10], rfl, by decide +kernel, by decide +kernel⟩

/-! ## The sampler -/

theorem npRound_bounds (q : ℚ) : q - 1/2 ≤ (npRoundHalfEven q : ℚ) ∧ (npRoundHalfEven q : ℚ) ≤ q + 1/2 := by
  have h1 := Int.floor_le q
  have h2 := Int.lt_floor_add_one q
  unfold npRoundHalfEven
  split
  · constructor <;> linarith
  · split
    · push_cast; constructor <;> linarith
    · split
      · constructor <;> linarith
      · push_cast; constructor <;> linarith

/-- Draws: one number between zero and one per coordinate, permutations are permutations. -/
structure CcrDraws.OK (d : Nat) (dr : CcrDraws) : Prop where
  u : ∀ i j, (dr.u i j).length = d ∧ ∀ x ∈ dr.u i j, 0 ≤ x ∧ x ≤ 1
  perm : ∀ i j l, (dr.perm i j l).Perm l

/-- `CCR` always returns. Every new row is labelled minority and lies in the box of the radius of a minority row around that
row. When it samples at all, the number of new rows is at least the requested number minus half a sample per minority row, and
it is at most half a sample per minority row above the sum of the shares. -/
theorem C37_sample {d : Nat} {X : List Row} {y : List Int} {a b : Int} {proportion E : ℚ} {dr : CcrDraws} (hwf : WF d X y)
    (hmin : IsMinority y a b) (hE : 0 < E) (hdr : dr.OK d) :
    ∃ new : List Row,
      sample defaultChecks d (ccrAlg proportion E dr) X y = .ok (X ++ new, y ++ List.replicate new.length a) ∧
      (∀ x ∈ new, ∃ p ∈ classRows X y a, x.length = d ∧
        ∀ k, k < d → |x.getD k 0 - p.getD k 0| ≤ ccrRadius E (sortedL1 p (classRows X y b))) ∧
      (if y.count a ≤ 2 ∨ requested proportion (y.count b) (y.count a) = 0 then new = []
       else (requested proportion (y.count b) (y.count a) : ℚ) - y.count a / 2 ≤ new.length ∧
        (new.length : ℚ) ≤ (((classRows X y a).map (fun p => ccrRadius E (sortedL1 p (classRows X y b)))).map
          (ccrShare (requested proportion (y.count b) (y.count a))
            ((classRows X y a).map (fun p => ccrRadius E (sortedL1 p (classRows X y b)))))).sum + y.count a / 2) := by
  have hcab : y.count a ≤ y.count b := by rcases hmin.2.2.2 with h | h <;> omega
  obtain ⟨s, hs, rfl, rfl⟩ := stats_of_isMinority hmin
  obtain ⟨hm, hM, _⟩ := stats_min_mem hs
  rw [sample_default hs]
  by_cases h2 : y.count s.minLabel ≤ 2
  · rw [if_pos h2]
    refine ⟨[], by simp, by simp, ?_⟩
    rw [if_pos (Or.inl h2)]
  rw [if_neg h2]
  unfold ccrAlg
  rw [stats_count hs hm, stats_count hs hM, detN_eq_requested, ok_bind]
  by_cases h0 : requested proportion (y.count s.majLabel) (y.count s.minLabel) = 0
  · rw [if_pos h0]
    refine ⟨[], by simp [pure, Except.pure], by simp, ?_⟩
    rw [if_pos (Or.inr h0)]
  rw [if_neg h0]
  dsimp only
  generalize requested proportion (y.count s.majLabel) (y.count s.minLabel) = n at h0
  have hXl : (selectLabel X y s.minLabel).length = y.count s.minLabel := selectLabel_length hwf.1 _
  have hYl : (selectLabel X y s.majLabel).length = y.count s.majLabel := selectLabel_length hwf.1 _
  have hXd : ∀ r ∈ selectLabel X y s.minLabel, r.length = d := fun r hr => mem_selectLabel_length hwf hr
  rw [← selectLabel_eq_classRows, ← selectLabel_eq_classRows]
  generalize hXm : selectLabel X y s.minLabel = Xmin at *
  generalize hXM : selectLabel X y s.majLabel = Xmaj at *
  have hrpos : ∀ p, 0 < ccrRadius E (sortedL1 p Xmaj) := by
    intro p
    apply C37_radius_pos E hE _ _ sortedL1_nonneg
    unfold sortedL1
    rw [List.length_insertionSort, List.length_map, hYl]
    omega
  set radii := Xmin.map (fun p => ccrRadius E (sortedL1 p Xmaj)) with hradii
  have hrl : radii.length = Xmin.length := by simp [hradii]
  have hrp : ∀ r ∈ radii, 0 < r := by
    intro r hr
    rw [hradii, List.mem_map] at hr
    obtain ⟨p, _, rfl⟩ := hr
    exact hrpos p
  have hne : radii ≠ [] := by intro h; rw [h] at hrl; simp at hrl; omega
  have hsp : radii.sum ≠ 0 := by
    obtain ⟨r, l, hrl'⟩ := List.exists_cons_of_ne_nil hne
    rw [hrl', List.sum_cons]
    have h1 := hrp r (by rw [hrl']; simp)
    have h2 : 0 ≤ l.sum := List.sum_nonneg (fun x hx => (hrp x (by rw [hrl']; simp [hx])).le)
    linarith
  have hrow : ∀ i (hi : i < Xmin.length), ccrRow dr n radii Xmin i =
      .ok ((List.range (npRoundHalfEven (ccrShare n radii (radii[i]'(by omega)))).toNat).map (fun j =>
        Row.add Xmin[i] (dr.perm i j (taxicabEntries (radii[i]'(by omega)) 0 (dr.u i j))))) := by
    intro i hi
    unfold ccrRow
    rw [getRow_lt hi, ok_bind, getRow_lt (by omega), ok_bind, if_neg]
    push Not
    exact ⟨(hrp _ (List.getElem_mem _)).ne', hsp⟩
  obtain ⟨parts, hparts⟩ := mapM_exists_ok (l := List.range Xmin.length) (f := ccrRow dr n radii Xmin)
    (fun i hi => ⟨_, hrow i (List.mem_range.1 hi)⟩)
  rw [hparts, ok_bind]
  refine ⟨parts.flatten, rfl, ?_, ?_⟩
  · intro x hx
    obtain ⟨part, hpart, hx⟩ := List.mem_flatten.1 hx
    obtain ⟨i, hi, e⟩ := mapM_ok_mem hparts hpart
    have hi' := List.mem_range.1 hi
    rw [hrow i hi'] at e
    injection e with e
    subst e
    rw [List.mem_map] at hx
    obtain ⟨j, _, rfl⟩ := hx
    have hri : radii[i]'(by omega) = ccrRadius E (sortedL1 Xmin[i] Xmaj) := by simp [hradii]
    refine ⟨Xmin[i], List.getElem_mem hi', ?_⟩
    rw [hri]
    set o := dr.perm i j (taxicabEntries (ccrRadius E (sortedL1 Xmin[i] Xmaj)) 0 (dr.u i j)) with ho
    have hperm := hdr.perm i j (taxicabEntries (ccrRadius E (sortedL1 Xmin[i] Xmaj)) 0 (dr.u i j))
    have hol : o.length = d := by rw [ho, hperm.length_eq, taxicab_length, (hdr.u i j).1]
    have hpl : Xmin[i].length = d := hXd _ (List.getElem_mem hi')
    refine ⟨by unfold Row.add; simp [hol, hpl], ?_⟩
    intro k hk
    have hmem : o.getD k 0 ∈ o := by
      rw [List.getD_eq_getElem?_getD, List.getElem?_eq_getElem (by omega)]; exact List.getElem_mem _
    have := taxicab_coord _ (dr.u i j) (hdr.u i j).2 0 (by simpa using (hrpos Xmin[i]).le) _ (hperm.mem_iff.1 hmem)
    have e : (Row.add Xmin[i] o).getD k 0 - Xmin[i].getD k 0 = o.getD k 0 := by
      unfold Row.add
      simp [List.getD_eq_getElem?_getD, hol, hpl, hk]
    rw [e]
    exact this
  · rw [if_neg (by push Not; exact ⟨by omega, h0⟩)]
    have hb := sum_bounds (lo := fun i => ccrShare n radii (radii.getD i 0) - 1/2)
      (hi := fun i => ccrShare n radii (radii.getD i 0) + 1/2) hparts (by
        intro i hi b hb
        have hi' := List.mem_range.1 hi
        rw [hrow i hi'] at hb
        injection hb with hb
        subst hb
        have hg : radii.getD i 0 = radii[i]'(by omega) := by
          rw [List.getD_eq_getElem?_getD, List.getElem?_eq_getElem (by omega)]; rfl
        rw [List.length_map, List.length_range, hg]
        obtain ⟨h1, h2⟩ := npRound_bounds (ccrShare n radii (radii[i]'(by omega)))
        have hsn : 0 ≤ ccrShare n radii (radii[i]'(by omega)) := by
          unfold ccrShare
          have h3 := hrp (radii[i]'(by omega)) (List.getElem_mem _)
          have h4 : 0 ≤ radii.sum := List.sum_nonneg (fun x hx => (hrp x hx).le)
          positivity
        generalize npRoundHalfEven (ccrShare n radii (radii[i]'(by omega))) = z at *
        have hz : (0:ℤ) ≤ z := by
          by_contra h
          have : z ≤ -1 := by omega
          have : (z:ℚ) ≤ -1 := by exact_mod_cast this
          linarith
        have : ((z.toNat : ℕ) : ℚ) = (z : ℚ) := by exact_mod_cast (Int.toNat_of_nonneg hz)
        rw [this]
        exact ⟨h1, h2⟩)
    have hcs : ((List.range Xmin.length).map (fun i => ccrShare n radii (radii.getD i 0))).sum =
        (radii.map (ccrShare n radii)).sum := by
      rw [← hrl]
      congr 1
      apply List.ext_getElem (by simp)
      intro i h1 h2
      simp [List.getD_eq_getElem?_getD, List.getElem?_eq_getElem (l := radii) (i := i) (by simpa using h1)]
    rw [sum_map_sub_const, sum_map_add_const, hcs, List.length_range, hXl] at hb
    have := (C37_budget n radii hne hrp).1
    constructor <;> linarith [hb.1, hb.2]

/-! Non-vacuity -/

def ccrDr : CcrDraws := { u := fun _ _ => [3/4], perm := fun _ _ l => l }

example : ((sample defaultChecks 1 (ccrAlg 1 2 ccrDr) sdX sdY).toOption.map (fun r => r.1.drop sdX.length)) =
    some [[1], [2], [4]] := by decide +kernel

example : ccrDr.OK 1 where
  u := by intro i j; simp only [ccrDr]; norm_num
  perm := by intro i j l; exact List.Perm.refl _

end Verif

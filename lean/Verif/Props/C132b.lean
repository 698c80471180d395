import Verif.Props.C132
import Verif.Lemmas.SamplerLength

/-!
# C132: points on edges with the rounding of the machine
-/

namespace Verif

theorem forall₂_append' {α β : Type} {P : α → β → Prop} {a a' : List α} {b b' : List β} (h : List.Forall₂ P a b) (h' : List.Forall₂ P a' b') :
    List.Forall₂ P (a ++ a') (b ++ b') := by
  induction h with
  | nil => exact h'
  | cons x _ ih => exact .cons x ih

theorem forall₂_flatMap' {ι α β : Type} {P : α → β → Prop} {l : List ι} {f : ι → List α} {g : ι → List β}
    (h : ∀ i ∈ l, List.Forall₂ P (f i) (g i)) : List.Forall₂ P (l.flatMap f) (l.flatMap g) := by
  induction l with
  | nil => exact .nil
  | cons i l ih =>
    rw [List.flatMap_cons, List.flatMap_cons]
    exact forall₂_append' (h i List.mem_cons_self) (ih fun j hj => h j (List.mem_cons_of_mem _ hj))

theorem forall₂_flatten' {α β : Type} {P : α → β → Prop} {l : List (List α)} {m : List (List β)} (h : List.Forall₂ (List.Forall₂ P) l m) :
    List.Forall₂ P l.flatten m.flatten := by
  induction h with
  | nil => exact .nil
  | cons x _ ih =>
    rw [List.flatten_cons, List.flatten_cons]
    exact forall₂_append' x ih

/-- A splitting point, rounded, is at most the largest number below one. -/
theorem flSplit_le {fl : ℚ → ℚ} {ε U : ℚ} (hn : RoundsToNearest fl) (h : RoundsWithin fl ε) (h0 : 0 ≤ ε) (h1 : ε < 1) (hU : fl U = U)
    (hU1 : 1 - ε ≤ U) {count j : Nat} (hj : j ≤ count) (hc : ε * (2 * count + 1) ≤ 1) : 0 ≤ flSplit fl count j ∧ flSplit fl count j ≤ U := by
  have hp : (0 : ℚ) < (count : ℚ) + 1 := by positivity
  have hq : 0 ≤ fl (1 / ((count : ℚ) + 1)) := fl_nonneg h h1 (by positivity)
  have hj' : (j : ℚ) ≤ count := by exact_mod_cast hj
  unfold flSplit
  refine ⟨fl_nonneg h h1 (mul_nonneg hq (Nat.cast_nonneg j)), ?_⟩
  rw [← hU]
  refine fl_mono hn (le_trans ?_ hU1)
  have hb : fl (1 / ((count : ℚ) + 1)) ≤ (1 + ε) * (1 / ((count : ℚ) + 1)) := by
    have := (abs_le.1 (h (1 / ((count : ℚ) + 1)))).2
    rw [abs_of_nonneg (by positivity : (0 : ℚ) ≤ 1 / ((count : ℚ) + 1))] at this
    linarith
  calc fl (1 / ((count : ℚ) + 1)) * j ≤ (1 + ε) * (1 / ((count : ℚ) + 1)) * count :=
        mul_le_mul hb hj' (Nat.cast_nonneg j) (by positivity)
    _ = (1 + ε) * count / ((count : ℚ) + 1) := by ring
    _ ≤ 1 - ε := by
        rw [div_le_iff₀ hp]
        nlinarith

theorem id_mixRow (a b : Row) (s : ℚ) : Row.add a (Row.smul s (Row.smul 1 (Row.sub b a))) = flMixRow id a b (fun _ => s) := by
  apply List.ext_getElem
  · simp [Row.add, Row.smul, Row.sub, flMixRow, min_comm]
  · intro i h1 h2
    simp [Row.add, Row.smul, Row.sub, flMixRow, mul_comm]

/-- A new row `x` with rounding, and the same row `x'` without: point `j` of `count` between two rows. -/
def EdgePoint (fl : ℚ → ℚ) (X : List Row) (i k count : Nat) (x x' : Row) : Prop :=
  ∃ base nb j, X[i]? = some base ∧ X[k]? = some nb ∧ 1 ≤ j ∧ j ≤ count ∧
    x = flMixRow fl base nb (fun _ => flSplit fl count j) ∧ x' = flMixRow id base nb (fun _ => (j : ℚ) / (count + 1))

theorem flAddSamples_same (fl : ℚ → ℚ) (pairs : List ((Nat × Nat) × Nat)) (count : Nat) (X : List Row) :
    SameOutcome (List.Forall₂ (fun x x' => ∃ pc ∈ pairs, pc.2 = count ∧ EdgePoint fl X pc.1.1 pc.1.2 count x x'))
      (flAddSamples fl pairs count X X) (addSamples pairs count X X none) := by
  unfold flAddSamples addSamples
  dsimp only
  refine SameOutcome.bind (P := List.Forall₂ (fun (r r' : Row × Row) => ∃ pc ∈ pairs, pc.2 = count ∧ X[pc.1.1]? = some r.1 ∧
    X[pc.1.2]? = some r.2 ∧ r' = (r.1, Row.smul 1 (Row.sub r.2 r.1)))) ?_ ?_
  · refine SameOutcome.mapM fun p hp => ?_
    obtain ⟨pc, hpc, rfl⟩ := List.mem_map.1 hp
    rw [List.mem_filter, beq_iff_eq] at hpc
    refine SameOutcome.bind (P := fun a b => a = b) (SameOutcome.refl _ (fun _ _ => rfl)) ?_
    rintro base _ h1 - rfl
    refine SameOutcome.bind (P := fun a b => a = b) (SameOutcome.refl _ (fun _ _ => rfl)) ?_
    rintro nb _ h2 - rfl
    exact .ok ⟨pc, hpc.1, hpc.2, getRow_ok.1 h1, getRow_ok.1 h2, rfl⟩
  · intro rows rows' _ _ hrows
    refine .ok (forall₂_flatMap' fun j hj => ?_)
    rw [List.mem_range'_1] at hj
    rw [List.forall₂_map_left_iff, List.forall₂_map_right_iff]
    refine hrows.imp ?_
    rintro r r' ⟨pc, hpc, hc, h1, h2, rfl⟩
    refine ⟨pc, hpc, hc, r.1, r.2, j, h1, h2, hj.1, by omega, rfl, ?_⟩
    dsimp only
    rw [id_mixRow]
    congr 1
    funext _
    ring

theorem uniqueCounts_pairs {pairs : List (Nat × Nat)} {pc : (Nat × Nat) × Nat}
    (h : pc ∈ (npUniqueCounts (pairs.map (fun p => toLex p))).map (fun vc => (ofLex vc.1, vc.2))) : pc.1 ∈ pairs ∧ pc.2 ≤ pairs.length := by
  rw [List.mem_map] at h
  obtain ⟨vc, hvc, rfl⟩ := h
  unfold npUniqueCounts at hvc
  rw [List.mem_map] at hvc
  obtain ⟨v, hv, rfl⟩ := hvc
  rw [mem_npUnique, List.mem_map] at hv
  obtain ⟨p, hp, rfl⟩ := hv
  refine ⟨hp, ?_⟩
  have : ∀ l : List (Nat ×ₗ Nat), ∀ f, l.countP f ≤ l.length := fun l f => List.countP_le_length
  exact le_trans (this _ _) (by simp)

theorem flDeterministicDim2_same (fl : ℚ → ℚ) (X : List Row) (sel : List (List Nat)) :
    SameOutcome (List.Forall₂ (fun x x' => ∃ s ∈ sel, ∃ i k rest count, s = i :: k :: rest ∧ count ≤ sel.length ∧
        (EdgePoint fl X i k count x x' ∨ EdgePoint fl X k i count x x')))
      (flDeterministicDim2 fl X sel) (deterministicSamplesDim2 X sel none false none) := by
  unfold flDeterministicDim2 deterministicSamplesDim2
  simp only [Option.isNone_none, Bool.or_false, if_true]
  refine SameOutcome.bind (P := fun a b => a = b) (SameOutcome.refl _ (fun _ _ => rfl)) ?_
  rintro pairs _ hp - rfl
  have hlen := mapM_ok_length hp
  refine SameOutcome.bind (P := List.Forall₂ (List.Forall₂ _)) (SameOutcome.mapM fun c _ => flAddSamples_same fl _ c X |>.mono ?_)
    (fun parts parts' _ _ h => .ok (forall₂_flatten' h))
  intro xs xs' h
  refine h.imp ?_
  rintro x x' ⟨pc, hpc, rfl, hx⟩
  obtain ⟨h1, h2⟩ := uniqueCounts_pairs hpc
  obtain ⟨q, hq, hqp⟩ := List.mem_map.1 h1
  rw [List.length_map, hlen] at h2
  obtain ⟨s, hs, hsq⟩ := mapM_ok_mem hp hq
  match s, hsq with
  | i :: k :: rest, hsq =>
    simp only [edgeOf] at hsq
    injection hsq with hsq
    subst hsq
    refine ⟨_, hs, i, k, rest, pc.2, rfl, h2, ?_⟩
    rw [← hqp] at hx
    dsimp only at hx
    rcases le_total i k with hle | hle
    · rw [min_eq_left hle, max_eq_right hle] at hx
      exact Or.inl hx
    · rw [min_eq_right hle, max_eq_left hle] at hx
      exact Or.inr hx

theorem between_swap {d : Nat} {a b x : Row} (h : Between d a b x) : Between d b a x :=
  ⟨h.1, fun k hk => by rw [min_comm, max_comm]; exact h.2 k hk⟩

/-- The new rows of a call of SMOTE with points on edges, with rounding and without. -/
theorem flSmoteDet_same (fl : ℚ → ℚ) {par : SmoteParams} {vol : List Row → ℚ} {dr : Draws} {d : Nat} {knn : Nat → List Row → List (List Nat)}
    {X : List Row} {y : List Int} {s : Stats} (hl : X.length = y.length) (hw : par.ss.within = .deterministic) (hg : par.ss.gaussian = .none)
    (hd : min par.ss.nDim (min (y.count s.minLabel) (par.nNeighbors + 1)) = 2) {n : Nat}
    (hn : flDetN fl par.proportion (s.count s.majLabel) (s.count s.minLabel) = .ok n)
    (hn' : detNToSample (.num par.proportion) (s.count s.majLabel) (s.count s.minLabel) = .ok n) :
    SameOutcome (fun r r' => r.2 = r'.2 ∧ ∃ new new', r.1 = X ++ new ∧ r'.1 = X ++ new' ∧ r'.2 = y ++ List.replicate new'.length s.minLabel ∧
        (new'.length = 0 ∨ new'.length = n) ∧
        List.Forall₂ (fun x x' => ∃ i row k count, (knn (min (y.count s.minLabel) (par.nNeighbors + 1)) (selectLabel X y s.minLabel))[i]? = some row ∧
          k ∈ row ∧ count ≤ n ∧ (EdgePoint fl (selectLabel X y s.minLabel) i k count x x' ∨
            EdgePoint fl (selectLabel X y s.minLabel) k i count x x')) new new')
      (flSmoteDetAlg fl par vol dr knn s X y) (smoteAlg par vol dr d knn s X y) := by
  unfold flSmoteDetAlg smoteAlg
  rw [hn, hn', ok_bind, ok_bind]
  split
  · exact .ok ⟨rfl, [], [], by simp, by simp, by simp, Or.inl rfl, .nil⟩
  · rename_i hn0
    dsimp only
    unfold sampleSimplex
    rw [if_neg hn0]
    dsimp only
    rw [hw, hg]
    simp only [bind_assoc]
    refine SameOutcome.bind (P := fun a b => a = b) (SameOutcome.refl _ (fun _ _ => rfl)) ?_
    rintro sel _ hsel - rfl
    obtain ⟨hsl, _, hshape⟩ := simplicesSel_sound hsel
    rw [selectLabel_length hl] at hshape ⊢
    rw [hd] at hshape ⊢
    rw [if_pos rfl]
    unfold deterministicSamples
    rw [if_pos rfl]
    refine SameOutcome.bind (flDeterministicDim2_same fl _ sel) ?_
    intro new new' _ h' hnew
    have hlen := deterministicSamplesDim2_length h'
    refine .ok ⟨rfl, new, new', rfl, rfl, ?_, Or.inr (hlen.trans hsl), hnew.imp ?_⟩
    · dsimp only; rw [hlen, hsl]
    · rintro x x' ⟨t, ht, i, k, rest, count, rfl, hc, hx⟩
      obtain ⟨b, vs, row, e, hrow, hin, _⟩ := hshape _ ht
      injection e with e1 e2
      subst e1 e2
      exact ⟨i, row, k, count, hrow, hin k (by simp), hsl ▸ hc, hx⟩

/-- **Points on edges with rounding** (`within_simplex_sampling = 'deterministic'`). Rounding is to nearest with a relative error of at most `ε`,
and `U` is a number of the machine not below `1 - ε`. If at most `(1 / ε - 1) / 2` rows are requested, a new row is exactly between a minority row and one of its neighbours, in every coordinate. -/
theorem C132_deterministic {fl : ℚ → ℚ} {ε U : ℚ} (hA : RoundsToNearest fl) (hW : RoundsWithin fl ε) (h0 : 0 ≤ ε) (h1 : ε < 1)
    (hU : Shrinks fl U) (hU1 : U ≤ 1) (hfU : fl U = U) (hUε : 1 - ε ≤ U)
    {par : SmoteParams} {vol : List Row → ℚ} {dr : Draws} {d : Nat} {knn : Nat → List Row → List (List Nat)} {X X' : List Row} {y y' : List Int}
    {a b : Int} (hwf : WF d X y) (hmin : IsMinority y a b) (hd : min par.ss.nDim (min (y.count a) (par.nNeighbors + 1)) = 2) (hX : Representable fl X)
    (hn : ε * (2 * flRequested fl par.proportion (y.count b) (y.count a) + 1) ≤ 1)
    (h : sample defaultChecks d (flSmoteDetAlg fl par vol dr knn) X y = .ok (X', y')) :
    Oversampled X y a (flRequested fl par.proportion (y.count b) (y.count a)) (fun x =>
      ∃ (i : Nat) (row : List Nat) (k : Nat) (base nb : Row), (knn (min (y.count a) (par.nNeighbors + 1)) (classRows X y a))[i]? = some row ∧ k ∈ row ∧
        (classRows X y a)[i]? = some base ∧ (classRows X y a)[k]? = some nb ∧ Between d base nb x) X' y' := by
  obtain ⟨s, hs, rfl, rfl⟩ := stats_of_isMinority hmin
  obtain ⟨hm, hM, _⟩ := stats_min_mem hs
  rcases sample_default_ok hs h with h | h
  · exact Or.inl h
  · unfold flSmoteDetAlg at h
    rw [stats_count hs hm, stats_count hs hM, flDetN_eq, ok_bind] at h
    split at h
    · injection h with h
      obtain ⟨rfl, rfl⟩ := Prod.mk.inj h
      exact Or.inl ⟨rfl, rfl⟩
    · right
      dsimp only at h
      obtain ⟨sel, hsel, h⟩ := bind_ok.1 h
      obtain ⟨hsl, _, hshape⟩ := simplicesSel_sound hsel
      rw [selectLabel_length hwf.1] at hshape h
      rw [hd] at hshape h
      rw [if_pos rfl] at h
      obtain ⟨new, hnew, h⟩ := bind_ok.1 h
      injection h with h
      obtain ⟨rfl, rfl⟩ := Prod.mk.inj h
      have hsame := flDeterministicDim2_same fl (selectLabel X y s.minLabel) sel
      rw [hnew] at hsame
      generalize hr' : deterministicSamplesDim2 (selectLabel X y s.minLabel) sel none false none = r' at hsame
      cases hsame with
      | @ok _ new' hn' =>
        have hlen := hn'.length_eq.trans ((deterministicSamplesDim2_length hr').trans hsl)
        refine ⟨new, rfl, rfl, hlen, fun x hx => ?_⟩
        obtain ⟨x', _, t, ht, i, k, rest, count, rfl, hc, hx⟩ := forall₂_mem_left hn' hx
        obtain ⟨b, vs, row, e, hrow, hin, _⟩ := hshape _ ht
        injection e with e1 e2
        subst e1 e2
        have hk : k ∈ row := hin k (by simp)
        rw [hsl] at hc
        have hbt : ∀ {i k : Nat}, EdgePoint fl (selectLabel X y s.minLabel) i k count x x' →
            ∃ base nb, (selectLabel X y s.minLabel)[i]? = some base ∧ (selectLabel X y s.minLabel)[k]? = some nb ∧ Between d base nb x := by
          rintro i k ⟨base, nb, j, hb, hnb, _, hj, rfl, -⟩
          have mb := List.mem_of_getElem? hb
          have mn := List.mem_of_getElem? hnb
          refine ⟨base, nb, hb, hnb, flMixRow_between hA (fl_zero hW) hU hU1 (mem_selectLabel_length hwf mb) (mem_selectLabel_length hwf mn)
            (hX _ (mem_of_mem_selectLabel mb)) (hX _ (mem_of_mem_selectLabel mn)) (fun _ => flSplit_le hA hW h0 h1 hfU hUε hj ?_)⟩
          have hc' : (count : ℚ) ≤ flRequested fl par.proportion (y.count s.majLabel) (y.count s.minLabel) := by exact_mod_cast hc
          nlinarith
        rw [← selectLabel_eq_classRows]
        rcases hx with hx | hx
        · obtain ⟨base, nb, e5, e6, e7⟩ := hbt hx
          exact ⟨i, row, k, base, nb, hrow, hk, e5, e6, e7⟩
        · obtain ⟨nb, base, e5, e6, e7⟩ := hbt hx
          exact ⟨i, row, k, base, nb, hrow, hk, e6, e5, between_swap e7⟩

/-- Without rounding this is the exact model. -/
theorem C132_deterministic_exact {par : SmoteParams} {vol : List Row → ℚ} {dr : Draws} {d : Nat} {knn : Nat → List Row → List (List Nat)}
    {X : List Row} {y : List Int} {a b : Int} (hl : X.length = y.length) (hmin : IsMinority y a b) (hw : par.ss.within = .deterministic)
    (hg : par.ss.gaussian = .none) (hd : min par.ss.nDim (min (y.count a) (par.nNeighbors + 1)) = 2) :
    sample defaultChecks d (flSmoteDetAlg id par vol dr knn) X y = smoteSample par vol dr d knn X y := by
  obtain ⟨s, hs, rfl, rfl⟩ := stats_of_isMinority hmin
  obtain ⟨hm, hM, _⟩ := stats_min_mem hs
  have hreq : detNToSample (.num par.proportion) (s.count s.majLabel) (s.count s.minLabel) =
      .ok (requested par.proportion (y.count s.majLabel) (y.count s.minLabel)) := by
    rw [stats_count hs hm, stats_count hs hM, detN_eq_requested]
  have hreq' : flDetN id par.proportion (s.count s.majLabel) (s.count s.minLabel) =
      .ok (requested par.proportion (y.count s.majLabel) (y.count s.minLabel)) := by
    rw [stats_count hs hm, stats_count hs hM, flDetN_eq]
    rfl
  have key : flSmoteDetAlg id par vol dr knn s X y = smoteAlg par vol dr d knn s X y := by
    have h := flSmoteDet_same id (vol := vol) (dr := dr) (d := d) (knn := knn) (X := X) (s := s) hl hw hg hd hreq' hreq
    generalize flSmoteDetAlg id par vol dr knn s X y = r at h
    generalize smoteAlg par vol dr d knn s X y = r' at h
    cases h with
    | error e => rfl
    | @ok p q h =>
      obtain ⟨h2, new, new', e1, e2, _, _, hn⟩ := h
      have : new = new' := by
        refine List.forall₂_eq_eq_eq ▸ hn.imp ?_
        have key : ∀ {i k count : Nat} {x x' : Row}, EdgePoint id (selectLabel X y s.minLabel) i k count x x' → x = x' := by
          rintro i k count x x' ⟨base, nb, j, _, _, _, _, rfl, rfl⟩
          congr 1
          funext _
          simp only [flSplit, id]
          ring
        rintro x x' ⟨i, row, k, count, _, _, _, h | h⟩
        · exact key h
        · exact key h
      subst this
      have e : p = q := Prod.ext (by rw [e1, e2]) h2
      rw [e]
  unfold smoteSample sample
  rw [hs, ok_bind, ok_bind]
  split
  · rfl
  · exact key

/-- The largest number of `p` digits below one is a number of the machine. -/
theorem C132_largest {p : Nat} (hp : 1 ≤ p) : binaryFl p (1 - 1 / 2 ^ p) = 1 - 1 / 2 ^ p := by
  refine binaryFl_of_isBinary hp (Or.inr ⟨-1, 2 ^ p - 1, ?_, ?_, ?_⟩)
  · have : (2 : ℚ) ^ ((-1 : ℤ) - p + 1) = 1 / 2 ^ p := by
      rw [show (-1 : ℤ) - p + 1 = -(p : ℤ) by ring, zpow_neg, zpow_natCast, one_div]
    rw [this]
    push_cast
    field_simp
  all_goals
    have h2 : (2 : ℚ) ≤ 2 ^ p := by
      calc (2 : ℚ) = 2 ^ 1 := by norm_num
        _ ≤ 2 ^ p := pow_le_pow_right₀ (by norm_num) hp
    have h3 : (1 : ℚ) / 2 ^ p ≤ 1 / 2 := one_div_le_one_div_of_le (by norm_num) h2
    have h4 : (0 : ℚ) ≤ 1 / 2 ^ p := by positivity
    rw [abs_of_nonneg (by linarith)]
    norm_num
    try (norm_num at h3 h4; linarith)

/-- The settings of the example with points on edges. -/
def detPar : SmoteParams := { exPar with ss := { exPar.ss with within := .deterministic } }

/-- Non-vacuity: a call with the numbers of Python meets the assumptions; the second column is constant and kept. -/
example : detPar.ss.within = .deterministic ∧ detPar.ss.gaussian = .none ∧
    min detPar.ss.nDim (min (([1, 1, 1, 0, 0, 0, 0, 0] : List Int).count 1) (detPar.nNeighbors + 1)) = 2 ∧
    Representable (binaryFl 53) [[0, 3], [1, 3], [4, 3], [0, 0], [1, 1], [2, 2], [5, 5], [6, 5]] ∧
    sample defaultChecks 2 (flSmoteDetAlg (binaryFl 53) detPar (fun _ => 1) roundDraws exKnn)
      [[0, 3], [1, 3], [4, 3], [0, 0], [1, 1], [2, 2], [5, 5], [6, 5]] [1, 1, 1, 0, 0, 0, 0, 0] =
    .ok ([[0, 3], [1, 3], [4, 3], [0, 0], [1, 1], [2, 2], [5, 5], [6, 5], [6004799503160661 / 2 ^ 54, 3], [6004799503160661 / 2 ^ 53, 3]],
      [1, 1, 1, 0, 0, 0, 0, 0, 1, 1]) := by
  unfold Representable
  decide +kernel
example : (1 / 2 ^ 53 : ℚ) * (2 * flRequested (binaryFl 53) detPar.proportion 5 3 + 1) ≤ 1 := by
  have : flRequested (binaryFl 53) detPar.proportion 5 3 = 2 := by decide +kernel
  rw [this]
  norm_num
example : Shrinks (binaryFl 53) (1 - 1 / 2 ^ 53) ∧ binaryFl 53 (1 - 1 / 2 ^ 53) = 1 - 1 / 2 ^ 53 :=
  ⟨binaryFl_shrinks (by norm_num), C132_largest (by norm_num)⟩

end Verif

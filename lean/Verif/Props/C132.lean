import Verif.Model.Rounded
import Verif.Lemmas.BinaryRounding
import Verif.Lemmas.RoundedSmote
import Verif.Props.C03
import Verif.Props.C31

/-!
# C132: new rows with the rounding of the machine
-/

namespace Verif

/-- The numbers of Python and numpy (53 binary digits): rounding is to nearest with a relative error of at most `2 ^ -53`, and the largest random
number below one, `1 - 2 ^ -53`, makes products smaller. The same for every other number of digits. -/
theorem C132_binary {p : Nat} (hp : 1 ≤ p) : RoundsToNearest (binaryFl p) ∧ binaryFl p 0 = 0 ∧ RoundsWithin (binaryFl p) (1 / 2 ^ p) ∧
    Shrinks (binaryFl p) (1 - 1 / 2 ^ p) :=
  ⟨binaryFl_nearest hp, binaryFl_zero p, binaryFl_within p, binaryFl_shrinks hp⟩

/-! ## Rows between two rows -/

theorem flMixRow_length {fl : ℚ → ℚ} {d : Nat} {a b : Row} {u : Nat → ℚ} (ha : a.length = d) (hb : b.length = d) :
    (flMixRow fl a b u).length = d := by
  unfold flMixRow; simp [ha, hb]

theorem flMixRow_getD {fl : ℚ → ℚ} {d : Nat} {a b : Row} {u : Nat → ℚ} (ha : a.length = d) (hb : b.length = d) {k : Nat} (hk : k < d) :
    (flMixRow fl a b u).getD k 0 = fl (a.getD k 0 + fl (fl (b.getD k 0 - a.getD k 0) * u k)) := by
  unfold flMixRow
  simp [List.getD_eq_getElem?_getD, ha, hb, hk]

theorem getD_representable {fl : ℚ → ℚ} {d : Nat} {a : Row} (ha : a.length = d) (h : ∀ x ∈ a, fl x = x) {k : Nat} (hk : k < d) :
    fl (a.getD k 0) = a.getD k 0 := by
  rw [List.getD_eq_getElem?_getD, List.getElem?_eq_getElem (by omega)]
  exact h _ (List.getElem_mem _)

theorem flMixRow_between {fl : ℚ → ℚ} {U : ℚ} (hA : RoundsToNearest fl) (h0 : fl 0 = 0) (hU : Shrinks fl U) (hU1 : U ≤ 1) {d : Nat} {a b : Row}
    {u : Nat → ℚ} (ha : a.length = d) (hb : b.length = d) (ra : ∀ x ∈ a, fl x = x) (rb : ∀ x ∈ b, fl x = x)
    (hu : ∀ k, 0 ≤ u k ∧ u k ≤ U) : Between d a b (flMixRow fl a b u) := by
  refine ⟨flMixRow_length ha hb, fun k hk => ?_⟩
  rw [flMixRow_getD ha hb hk]
  exact fl_between hA h0 hU hU1 (getD_representable ha ra hk) (getD_representable hb rb hk) (hu k)

theorem flMixRow_representable {fl : ℚ → ℚ} (hA : RoundsToNearest fl) (a b : Row) (u : Nat → ℚ) : ∀ x ∈ flMixRow fl a b u, fl x = x := by
  intro x hx
  unfold flMixRow at hx
  obtain ⟨p, _, rfl⟩ := List.mem_map.1 hx
  exact fl_idem hA _

theorem mem_of_mem_selectLabel {X : List Row} {y : List Int} {l : Int} {r : Row} (h : r ∈ selectLabel X y l) : r ∈ X := by
  obtain ⟨i, hi, _⟩ := C03_class_rows.1 h
  exact List.mem_of_getElem? hi

/-- **A row between two rows.** `a + (b - a) * u`, computed with rounding to nearest, is between `a` and `b` in every coordinate, exactly, for
every random number up to the largest one. If `a` and `b` agree in a coordinate, so does the result. -/
theorem C132_between {fl : ℚ → ℚ} {U : ℚ} (hA : RoundsToNearest fl) (h0 : fl 0 = 0) (hU : Shrinks fl U) (hU1 : U ≤ 1) {d : Nat} {a b : Row}
    {u : Nat → ℚ} (ha : a.length = d) (hb : b.length = d) (hr : Representable fl [a, b]) (hu : ∀ k, 0 ≤ u k ∧ u k ≤ U) :
    Between d a b (flMixRow fl a b u) ∧ ∀ k, k < d → a.getD k 0 = b.getD k 0 → (flMixRow fl a b u).getD k 0 = a.getD k 0 := by
  have h := flMixRow_between hA h0 hU hU1 ha hb (hr a (by simp)) (hr b (by simp)) hu
  refine ⟨h, fun k hk he => ?_⟩
  have := h.2 k hk
  rw [← he, min_self, max_self] at this
  exact le_antisymm this.2 this.1

/-- **Random_SMOTE with rounding**: the claim of C31 holds exactly, also with rounding. -/
theorem C132_random_smote {prop : ℚ} {k d : Nat} {dr : RsDraws} {knn : Nat → List Row → List (List Nat)}
    {X X' : List Row} {y y' : List Int} {a b : Int} (hwf : WF d X y) (hmin : IsMinority y a b)
    {fl : ℚ → ℚ} {U : ℚ} (hA : RoundsToNearest fl) (h0 : fl 0 = 0) (hU : Shrinks fl U) (hU1 : U ≤ 1) (hX : Representable fl X)
    (hu1 : ∀ i j, 0 ≤ dr.u1 i j ∧ dr.u1 i j ≤ U) (hu2 : ∀ i j, 0 ≤ dr.u2 i j ∧ dr.u2 i j ≤ U)
    (h : sample defaultChecks d (flRandomSmoteAlg fl prop k dr knn) X y = .ok (X', y')) :
    Oversampled X y a (flRequested fl prop (y.count b) (y.count a)) (fun x =>
      FromTriangleBox d (classRows X y a)
        (knn (min (y.count a) (k + 1)) (classRows X y a)) x ∧ InBox d (classRows X y a) x) X' y' := by
  obtain ⟨s, hs, rfl, rfl⟩ := stats_of_isMinority hmin
  obtain ⟨hm, hM, _⟩ := stats_min_mem hs
  rcases sample_default_ok hs h with h | h
  · exact Or.inl h
  · unfold flRandomSmoteAlg at h
    rw [stats_count hs hm, stats_count hs hM, flDetN_eq, ok_bind] at h
    split at h
    · injection h with h
      obtain ⟨rfl, rfl⟩ := Prod.mk.inj h
      exact Or.inl ⟨rfl, rfl⟩
    · right
      dsimp only at h
      obtain ⟨_, _, h⟩ := bind_ok.1 h
      obtain ⟨_, _, h⟩ := bind_ok.1 h
      obtain ⟨samples, hsam, h⟩ := bind_ok.1 h
      injection h with h
      unfold withSamples at h
      obtain ⟨rfl, rfl⟩ := Prod.mk.inj h
      have hlen := mapM_ok_length hsam
      rw [List.length_range] at hlen
      refine ⟨samples, rfl, by rw [hlen], hlen, ?_⟩
      intro x hx
      obtain ⟨i, -, hi⟩ := forall₂_mem_right (mapM_ok_iff.1 hsam) hx
      rw [selectLabel_length hwf.1, selectLabel_eq_classRows] at hi
      unfold flRandomSmoteRow at hi
      obtain ⟨base, hbase, hi⟩ := bind_ok.1 hi
      obtain ⟨nbs, hnbs, hi⟩ := bind_ok.1 hi
      obtain ⟨j1, hj1, hi⟩ := bind_ok.1 hi
      obtain ⟨j2, hj2, hi⟩ := bind_ok.1 hi
      obtain ⟨p, hp, hi⟩ := bind_ok.1 hi
      obtain ⟨q, hq, hi⟩ := bind_ok.1 hi
      injection hi with hi
      subst hi
      have hl : ∀ r ∈ classRows X y s.minLabel, r.length = d := by
        intro r hr
        rw [← selectLabel_eq_classRows] at hr
        exact mem_selectLabel_length hwf hr
      have lb := hl _ (getRow_mem hbase)
      have lp := hl _ (getRow_mem hp)
      have lq := hl _ (getRow_mem hq)
      have hrep : ∀ r ∈ classRows X y s.minLabel, ∀ x ∈ r, fl x = x := by
        intro r hr
        rw [← selectLabel_eq_classRows] at hr
        exact hX r (mem_of_mem_selectLabel hr)
      have hmid := flMixRow_between hA h0 hU hU1 (u := dr.u1 i) lp lq (hrep _ (getRow_mem hp)) (hrep _ (getRow_mem hq)) (hu1 i)
      have hx' := flMixRow_between hA h0 hU hU1 (u := dr.u2 i) lb hmid.1 (hrep _ (getRow_mem hbase))
        (flMixRow_representable hA p q (dr.u1 i)) (hu2 i)
      refine ⟨⟨dr.base i, base, nbs, j1, j2, p, q, _, getRow_ok.1 hbase, getRow_ok.1 hnbs, getRow_mem hj1, getRow_mem hj2,
        getRow_ok.1 hp, getRow_ok.1 hq, hmid, hx'⟩, ?_⟩
      exact hx'.inBox (inBox_self (getRow_mem hbase) lb)
        (hmid.inBox (inBox_self (getRow_mem hp) lp) (inBox_self (getRow_mem hq) lq))

/-- **MSMOTE with rounding**: the claim of C31 holds exactly, also with rounding. -/
theorem C132_msmote {prop : ℚ} {k d : Nat} {dr : MsDraws} {knn : Nat → List Row → List Row → List (List Nat)}
    {X X' : List Row} {y y' : List Int} {a b : Int} (hwf : WF d X y) (hmin : IsMinority y a b)
    (hnb : ∀ i, 1 ≤ dr.nb i)
    {fl : ℚ → ℚ} {U : ℚ} (hA : RoundsToNearest fl) (h0 : fl 0 = 0) (hU : Shrinks fl U) (hU1 : U ≤ 1) (hX : Representable fl X)
    (hu : ∀ i j, 0 ≤ dr.u i j ∧ dr.u i j ≤ U)
    (h : sample defaultChecks d (flMsmoteAlg fl prop k dr knn) X y = .ok (X', y')) :
    Oversampled X y a (flRequested fl prop (y.count b) (y.count a))
      (MsmoteRow d X y a (min X.length (k + 1)) (knn (min X.length (k + 1)) X (classRows X y a))) X' y' := by
  obtain ⟨s, hs, rfl, rfl⟩ := stats_of_isMinority hmin
  obtain ⟨hm, hM, _⟩ := stats_min_mem hs
  rcases sample_default_ok hs h with h | h
  · exact Or.inl h
  · unfold flMsmoteAlg at h
    rw [stats_count hs hm, stats_count hs hM, flDetN_eq, ok_bind] at h
    split at h
    · injection h with h
      obtain ⟨rfl, rfl⟩ := Prod.mk.inj h
      exact Or.inl ⟨rfl, rfl⟩
    · dsimp only at h
      obtain ⟨types, htypes, h⟩ := bind_ok.1 h
      split at h
      · injection h with h
        obtain ⟨rfl, rfl⟩ := Prod.mk.inj h
        exact Or.inl ⟨rfl, rfl⟩
      · right
        obtain ⟨_, _, h⟩ := bind_ok.1 h
        obtain ⟨samples, hsam, h⟩ := bind_ok.1 h
        injection h with h
        unfold withSamples at h
        obtain ⟨rfl, rfl⟩ := Prod.mk.inj h
        have hlen := mapM_ok_length hsam
        rw [List.length_range] at hlen
        refine ⟨samples, rfl, by rw [hlen], hlen, ?_⟩
        intro x hx
        obtain ⟨i, -, hi⟩ := forall₂_mem_right (mapM_ok_iff.1 hsam) hx
        unfold flMsmoteRow at hi
        obtain ⟨it, hit, hi⟩ := bind_ok.1 hi
        obtain ⟨j, hj, hi⟩ := bind_ok.1 hi
        obtain ⟨nb, hnbr, hi⟩ := bind_ok.1 hi
        injection hi with hi
        subst hi
        have hmem := getRow_mem hit
        rw [List.mem_filter, List.mem_map] at hmem
        obtain ⟨⟨p, hp, rfl⟩, hne⟩ := hmem
        obtain ⟨m, hmlt, hpm⟩ := List.getElem_of_mem hp
        have hpm' : (List.zip (selectLabel X y s.minLabel) (List.zip
          (knn (min X.length (k + 1)) X (selectLabel X y s.minLabel)) types))[m]? = some p := by
          rw [List.getElem?_eq_getElem hmlt, hpm]
        rw [List.getElem?_zip_eq_some, List.getElem?_zip_eq_some, selectLabel_eq_classRows] at hpm'
        obtain ⟨h1, h2, h3⟩ := hpm'
        rw [selectLabel_eq_classRows] at htypes
        have ht := mapM_ok_get htypes h2
        obtain ⟨t, ht1, ht2⟩ := ht
        rw [h3] at ht1
        injection ht1 with ht1
        unfold msTypeOf at ht2
        obtain ⟨labels, hlab, ht2⟩ := bind_ok.1 ht2
        injection ht2 with ht2
        have hlev : labels.count s.minLabel = levelOf y s.minLabel p.2.1 := count_takeRows hlab
        rw [← ht1] at ht2
        unfold msType at ht2
        rw [hlev] at ht2
        have hne' : p.2.2 ≠ .noi := of_decide_eq_true hne
        have hpos : 1 ≤ levelOf y s.minLabel p.2.1 := by
          by_contra hc
          rw [if_pos (by omega)] at ht2
          exact hne' ht2.symm
        have hbl : p.1.length = d := by
          have := List.mem_of_getElem? h1
          rw [← selectLabel_eq_classRows] at this
          exact mem_selectLabel_length hwf this
        have hrep : ∀ r ∈ classRows X y s.minLabel, ∀ x ∈ r, fl x = x := by
          intro r hr
          rw [← selectLabel_eq_classRows] at hr
          exact hX r (mem_of_mem_selectLabel hr)
        refine ⟨m, p.1, p.2.1, msPosition p.2.2 (dr.nb i), j, nb, h1, h2, hpos, ?_, getRow_ok.1 hj, getRow_ok.1 hnbr, ?_,
          flMixRow_between hA h0 hU hU1 hbl (hwf.2 _ (getRow_mem hnbr)) (hrep _ (List.mem_of_getElem? h1)) (hX _ (getRow_mem hnbr)) (hu i)⟩
        · unfold msPosition
          split
          · exact hnb i
          · exact le_refl 1
        · intro hk
          rw [if_neg (by omega), if_neg hk] at ht2
          unfold msPosition
          rw [if_neg (by rw [← ht2]; decide)]

/-! ## SMOTE -/

/-- **SMOTE with rounding stays close.** Each operation rounds with a relative error of at most `ε`, `np.sum` adds up in any order. If rounding does not change
the number of requested rows (C133), SMOTE has the same outcome as with exact arithmetic: the same exception, or as many new rows with the same labels, and a new row differs in coordinate
`c` by at most `simplexError ε m * M c` from its exact value; `M c` bounds the minority values of the coordinate, `m` is the number of vertices. -/
theorem C132_smote_close {A : MachineArith} {ε : ℚ} (hA : RoundsWithin A.fl ε) (h0 : 0 ≤ ε) (h1 : ε < 1) (hsum : ∀ l, SumsUp A.fl l (A.sum l))
    {par : SmoteParams} {vol : List Row → ℚ} {dr : Draws} {d : Nat} {knn : Nat → List Row → List (List Nat)} {X : List Row} {y : List Int}
    {a b : Int} {M : Nat → ℚ} (hwf : WF d X y) (hdr : dr.OK) (hmin : IsMinority y a b)
    (hw : par.ss.within = .random) (hg : par.ss.gaussian = .none)
    (hn : flRequested A.fl par.proportion (y.count b) (y.count a) = requested par.proportion (y.count b) (y.count a))
    (hM : ∀ r ∈ selectLabel X y a, ∀ c, c < d → |r.getD c 0| ≤ M c) :
    SameOutcome (fun r r' => r.2 = r'.2 ∧ ∃ new new', r.1 = X ++ new ∧ r'.1 = X ++ new' ∧
        List.Forall₂ (RowsWithin d (fun c => simplexError ε (min par.ss.nDim (min (y.count a) (par.nNeighbors + 1))) * M c)) new new')
      (sample defaultChecks d (flSmoteAlg A par vol dr d knn) X y) (smoteSample par vol dr d knn X y) := by
  obtain ⟨s, hs, rfl, rfl⟩ := stats_of_isMinority hmin
  obtain ⟨hsm, hsM, _⟩ := stats_min_mem hs
  unfold smoteSample sample
  rw [hs, ok_bind, ok_bind]
  split
  · exact .ok ⟨rfl, [], [], by simp, by simp, .nil⟩
  · unfold flSmoteAlg smoteAlg
    rw [stats_count hs hsm, stats_count hs hsM, flDetN_eq, detN_eq_requested, hn]
    refine SameOutcome.bind (P := fun a b => a = b) (SameOutcome.refl _ (fun _ _ => rfl)) ?_
    rintro n _ - - rfl
    split
    · exact .ok ⟨rfl, [], [], by simp, by simp, .nil⟩
    · rename_i hn0
      dsimp only
      unfold sampleSimplex
      rw [if_neg hn0]
      dsimp only
      rw [hw, hg]
      simp only [bind_assoc]
      refine SameOutcome.bind (P := fun a b => a = b) (SameOutcome.refl _ (fun _ _ => rfl)) ?_
      rintro sel _ hsel - rfl
      obtain ⟨_, _, hshape⟩ := simplicesSel_sound hsel
      have hl := selectLabel_length hwf.1 s.minLabel
      rw [hl] at hshape
      refine SameOutcome.bind (flRandomSamples_near (m := min par.ss.nDim (min (y.count s.minLabel) (par.nNeighbors + 1))) (M := M)
        hA h0 h1 hsum (fun i j => (hdr.simplex i j).1) ?_ (fun r hr => mem_selectLabel_length hwf hr) hM) ?_
      · intro t ht
        obtain ⟨b, vs, row, rfl, _, _, e⟩ := hshape t ht
        simpa using e
      · intro new new' _ _ hnew
        exact .ok ⟨rfl, new, new', rfl, rfl, hnew⟩

/-- Without rounding this is the exact model. -/
theorem C132_exact {par : SmoteParams} {vol : List Row → ℚ} {dr : Draws} {d : Nat} {knn : Nat → List Row → List (List Nat)} {X : List Row}
    {y : List Int} {a b : Int} (hwf : WF d X y) (hdr : dr.OK) (hmin : IsMinority y a b) (hw : par.ss.within = .random)
    (hg : par.ss.gaussian = .none) :
    sample defaultChecks d (flSmoteAlg MachineArith.exact par vol dr d knn) X y = smoteSample par vol dr d knn X y := by
  have hM : ∀ r ∈ selectLabel X y a, ∀ c, c < d → |r.getD c 0| ≤ ((selectLabel X y a).map (fun r => |r.getD c 0|)).sum := by
    intro r hr c _
    exact List.single_le_sum (fun x hx => by obtain ⟨r, _, rfl⟩ := List.mem_map.1 hx; exact abs_nonneg _) _ (List.mem_map.2 ⟨r, hr, rfl⟩)
  have h := C132_smote_close (A := MachineArith.exact) (ε := 0) (fun x => by simp [MachineArith.exact]) le_rfl one_pos sumsUp_sum
    (vol := vol) (knn := knn) hwf hdr hmin hw hg rfl hM
  generalize sample defaultChecks d (flSmoteAlg MachineArith.exact par vol dr d knn) X y = r at h
  generalize smoteSample par vol dr d knn X y = r' at h
  cases h with
  | error e => rfl
  | @ok p q h =>
    obtain ⟨h2, new, new', e1, e2, hn⟩ := h
    have : new = new' := by
      refine List.forall₂_eq_eq_eq ▸ hn.imp ?_
      rintro r r' ⟨l1, l2, hc⟩
      apply List.ext_getElem (by rw [l1, l2])
      intro c c1 c2
      have := hc c (by omega)
      dsimp only at this
      rw [simplexError_zero, zero_mul, List.getD_eq_getElem?_getD, List.getD_eq_getElem?_getD, List.getElem?_eq_getElem c1,
        List.getElem?_eq_getElem c2] at this
      exact sub_eq_zero.1 (abs_nonpos_iff.1 this)
    subst this
    have e : p = q := Prod.ext (by rw [e1, e2]) h2
    rw [e]

/-- **The box with rounding.** A new row of SMOTE leaves the bounds of the minority class in coordinate `c` by at most
`simplexError ε m * M c`. -/
theorem C132_smote_box {A : MachineArith} {ε : ℚ} (hA : RoundsWithin A.fl ε) (h0 : 0 ≤ ε) (h1 : ε < 1) (hsum : ∀ l, SumsUp A.fl l (A.sum l))
    {par : SmoteParams} {vol : List Row → ℚ} {dr : Draws} {d : Nat} {knn : Nat → List Row → List (List Nat)} {X X' : List Row} {y y' : List Int}
    {a b : Int} {M : Nat → ℚ} (hwf : WF d X y) (hk : KnnOK knn) (hdr : dr.OK) (hmin : IsMinority y a b)
    (hw : par.ss.within = .random) (hg : par.ss.gaussian = .none)
    (hn : flRequested A.fl par.proportion (y.count b) (y.count a) = requested par.proportion (y.count b) (y.count a))
    (hM : ∀ r ∈ selectLabel X y a, ∀ c, c < d → |r.getD c 0| ≤ M c)
    (h : sample defaultChecks d (flSmoteAlg A par vol dr d knn) X y = .ok (X', y')) {c : Nat} (hc : c < d) {lo hi : ℚ}
    (hb : ∀ r ∈ selectLabel X y a, lo ≤ r.getD c 0 ∧ r.getD c 0 ≤ hi) :
    ∀ x ∈ X'.drop X.length,
      lo - simplexError ε (min par.ss.nDim (min (y.count a) (par.nNeighbors + 1))) * M c ≤ x.getD c 0 ∧
      x.getD c 0 ≤ hi + simplexError ε (min par.ss.nDim (min (y.count a) (par.nNeighbors + 1))) * M c := by
  have hcl := C132_smote_close hA h0 h1 hsum (vol := vol) (knn := knn) hwf hdr hmin hw hg hn hM
  rw [h] at hcl
  generalize hr' : smoteSample par vol dr d knn X y = r' at hcl
  cases hcl with
  | @ok _ q hq =>
    obtain ⟨e2, new, new', e1, e3, hn⟩ := hq
    dsimp only at e1 e2
    have hbox := C03_smote_convex (X' := q.1) (y' := q.2) hwf hk hdr hmin hg hr'
    rw [e3, List.drop_left] at hbox
    rw [e1, List.drop_left]
    intro x hx
    obtain ⟨x', hx', hxx⟩ := forall₂_mem_left hn hx
    obtain ⟨_, _, _, hin⟩ := hbox x' hx'
    obtain ⟨⟨r1, m1, b1⟩, ⟨r2, m2, b2⟩⟩ := hin c hc
    have := abs_le.1 (hxx.2.2 c hc)
    have := (hb r1 m1).1
    have := (hb r2 m2).2
    constructor <;> linarith

/-- **Signs with rounding.** If no minority value of a coordinate is below (above) zero, no new value is; in particular a coordinate which is
zero in the whole class is zero in the new rows. -/
theorem C132_smote_sign {A : MachineArith} {ε : ℚ} (hA : RoundsWithin A.fl ε) (h1 : ε < 1) (hsum : ∀ l, SumsUp A.fl l (A.sum l))
    {par : SmoteParams} {vol : List Row → ℚ} {dr : Draws} {d : Nat} {knn : Nat → List Row → List (List Nat)} {X X' : List Row} {y y' : List Int}
    {a b : Int} (hdr : dr.OK) (hmin : IsMinority y a b)
    (h : sample defaultChecks d (flSmoteAlg A par vol dr d knn) X y = .ok (X', y')) {c : Nat} (hc : c < d) :
    ((∀ r ∈ selectLabel X y a, 0 ≤ r.getD c 0) → ∀ x ∈ X'.drop X.length, 0 ≤ x.getD c 0) ∧
    ((∀ r ∈ selectLabel X y a, r.getD c 0 ≤ 0) → ∀ x ∈ X'.drop X.length, x.getD c 0 ≤ 0) := by
  obtain ⟨s, hs, rfl, rfl⟩ := stats_of_isMinority hmin
  have key : ∀ x ∈ X'.drop X.length, ∃ w vs, (∀ t ∈ w, 0 ≤ t) ∧ (∀ r ∈ vs, r ∈ selectLabel X y s.minLabel) ∧ x = flPoint A d w vs := by
    rcases sample_default_ok hs h with ⟨rfl, _⟩ | h
    · simp
    · unfold flSmoteAlg at h
      obtain ⟨n, _, h⟩ := bind_ok.1 h
      split at h
      · injection h with h
        obtain ⟨rfl, rfl⟩ := Prod.mk.inj h
        simp
      · obtain ⟨sel, _, h⟩ := bind_ok.1 h
        obtain ⟨out, hout, h⟩ := bind_ok.1 h
        injection h with h
        obtain ⟨rfl, rfl⟩ := Prod.mk.inj h
        rw [List.drop_left]
        intro x hx
        exact flRandomSamples_mem hA h1 hsum (fun i j => (hdr.simplex i j).1) hout hx
  constructor
  · intro hp x hx
    obtain ⟨w, vs, hw, hvs, rfl⟩ := key x hx
    exact (flPoint_sign hA h1 hsum hc hw).1 (fun r hr => hp r (hvs r hr))
  · intro hp x hx
    obtain ⟨w, vs, hw, hvs, rfl⟩ := key x hx
    exact (flPoint_sign hA h1 hsum hc hw).2 (fun r hr => hp r (hvs r hr))

/-! ## The numbers of Python -/

/-- Summation from left to right. -/
def seqSum (fl : ℚ → ℚ) : List ℚ → ℚ
  | [] => 0
  | x :: l => l.foldl (fun a b => fl (a + b)) x

theorem seqSum_sumsUp (fl : ℚ → ℚ) (l : List ℚ) : SumsUp fl l (seqSum fl l) := by
  cases l with
  | nil => exact .nil
  | cons x l =>
    have : ∀ (l pre : List ℚ) (a : ℚ), pre ≠ [] → SumsUp fl pre a → SumsUp fl (pre ++ l) (l.foldl (fun a b => fl (a + b)) a) := by
      intro l
      induction l with
      | nil => intro pre a _ h; simpa using h
      | cons z l ih =>
        intro pre a hp h
        have := ih (pre ++ [z]) (fl (a + z)) (by simp) (.add hp (by simp) h (.single z))
        simpa using this
    exact this l [x] x (by simp) (.single x)

/-- Numbers with 53 binary digits, added up from left to right. -/
def doubles : MachineArith := ⟨binaryFl 53, seqSum (binaryFl 53)⟩

/-- Random numbers `1/16` and `4/16` for the two vertices. -/
def roundDraws : Draws := { choiceU := fun _ => 1 / 2, simplexU := fun _ j => if j = 0 then 1 / 16 else 4 / 16, normalU := fun _ _ => 0 }

theorem roundDraws_ok : roundDraws.OK := by
  constructor
  · intro i; norm_num [roundDraws]
  · intro i j
    simp only [roundDraws]
    split <;> norm_num

/-- **SMOTE does not keep a constant column.** With the numbers of Python there are data with a column which is 3 in all minority rows, and random
numbers, such that the new row has a value above 3: the weights do not add up to one after rounding. -/
theorem C132_constant_lost : ∃ (X X' : List Row) (y y' : List Int) (knn : Nat → List Row → List (List Nat)) (dr : Draws),
    WF 1 X y ∧ IsMinority y 1 0 ∧ KnnOK knn ∧ dr.OK ∧ Representable (binaryFl 53) X ∧ (∀ r ∈ selectLabel X y 1, r = [3]) ∧
    sample defaultChecks 1 (flSmoteAlg doubles exPar (fun _ => 1) dr 1 knn) X y = .ok (X', y') ∧
    ∃ x ∈ X'.drop X.length, 3 < x.getD 0 0 := by
  refine ⟨[[3], [3], [3], [0], [1], [2], [5]], [[3], [3], [3], [0], [1], [2], [5], [3 + 1 / 2 ^ 51]], [1, 1, 1, 0, 0, 0, 0],
    [1, 1, 1, 0, 0, 0, 0, 1], exKnn, roundDraws, ?_, ?_, exKnn_ok, roundDraws_ok, ?_, ?_, ?_, ?_⟩
  · unfold WF; decide
  · exact ⟨by decide, by decide, by decide, Or.inl (by decide)⟩
  · unfold Representable; decide +kernel
  · decide +kernel
  · decide +kernel
  · exact ⟨[3 + 1 / 2 ^ 51], by simp, by norm_num⟩

/-- Non-vacuity: the numbers of Python meet the assumptions, and for simplices of two vertices the bound is below `10 ^ -15`. -/
example : RoundsWithin doubles.fl (1 / 2 ^ 53) ∧ (∀ l, SumsUp doubles.fl l (doubles.sum l)) ∧ simplexError (1 / 2 ^ 53) 2 < 1 / 10 ^ 15 :=
  ⟨binaryFl_within 53, seqSum_sumsUp _, by norm_num [simplexError]⟩
/-- Non-vacuity: the call of the last theorem also meets the assumptions of the other theorems; its exact result is 3. -/
example : exPar.ss.within = .random ∧ exPar.ss.gaussian = .none ∧
    smoteSample exPar (fun _ => 1) roundDraws 1 exKnn [[3], [3], [3], [0], [1], [2], [5]] [1, 1, 1, 0, 0, 0, 0] =
      .ok ([[3], [3], [3], [0], [1], [2], [5], [3]], [1, 1, 1, 0, 0, 0, 0, 1]) := by decide +kernel
/-- Non-vacuity: a row between two rows, with a result which is rounded. -/
example : Representable (binaryFl 53) [[1, 7], [4, 7]] ∧ flMixRow (binaryFl 53) [1, 7] [4, 7] (fun _ => binaryFl 53 (1 / 5)) =
      [3602879701896397 / 2 ^ 51, 7] ∧
    0 ≤ binaryFl 53 (1 / 5) ∧ binaryFl 53 (1 / 5) ≤ 1 - 1 / 2 ^ 53 := by
  unfold Representable
  decide +kernel

end Verif

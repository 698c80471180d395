import Verif.Model.Amsr
import Verif.Props.C45
import Verif.Props.C63
import Verif.Spec.Interp
import Verif.Lemmas.Interp
import Verif.Lemmas.Clusters
import Verif.Lemmas.SmoteExample
import Mathlib.Tactic.Linarith
import Mathlib.Tactic.Ring

/-!
# C100: SMOTE_AMSR
-/

namespace Verif

/-! ## Specification -/

/-- What is assumed of the environment; nothing is assumed of the scores. -/
structure AmsrEnv.OK (env : AmsrEnv) : Prop where
  base : ∀ t m, 0 < m → env.base t m < m
  other : ∀ t m, 0 < m → env.other t m < m
  u : ∀ t k, 0 ≤ env.u t k ∧ env.u t k < 1

/-- `r` is the difference of the largest and the smallest entry of `l`. -/
def IsSpan (l : List ℚ) (r : ℚ) : Prop := ∃ M ∈ l, ∃ m ∈ l, (∀ x ∈ l, m ≤ x ∧ x ≤ M) ∧ r = M - m

/-- Which rows a new row is between: a minority row and the mean of the minority, neighbours in the order of the data, or any two minority rows. -/
def AmsrEnds (d : Nat) (A : List Row) : AmsrTopology → Row → Row → Prop
  | .star, p, q => p ∈ A ∧ IsMean d A q
  | .bus, p, q => ∃ i : Nat, A[i]? = some q ∧ A[i + 1]? = some p
  | .mesh, p, q => p ∈ A ∧ q ∈ A

/-- Every coordinate of `x` is between those of `p` and `q`: at least the share `g` of the way to `q` if `g ≥ 0`, and at most the share `1 + g` of it if
`g < 0`. -/
def Pulled (d : Nat) (g : ℚ) (p q x : Row) : Prop :=
  x.length = d ∧ ∀ k, k < d → ∃ t : ℚ, x.getD k 0 = p.getD k 0 + t * (q.getD k 0 - p.getD k 0) ∧
    (0 ≤ g → g ≤ t ∧ t ≤ 1) ∧ (g < 0 → 0 ≤ t ∧ t ≤ 1 + g)

/-! ## One row -/

theorem amsrPull_spec {d : Nat} {r sp sq : ℚ} {p q : Row} {u : Nat → ℚ} (hp : p.length = d) (hu : ∀ k, 0 ≤ u k ∧ u k < 1)
    (h1 : sq - sp ≤ r) (h2 : sp - sq ≤ r) : Pulled d ((sq - sp) / r) p q (amsrPull r sp sq p q u) := by
  have hr : 0 ≤ r := by linarith
  have hdiv : (if 0 < r then (sq - sp) / r else sq - sp) = (sq - sp) / r := by
    split
    · rfl
    · rename_i h
      have h0 : r = 0 := le_antisymm (not_lt.1 h) hr
      rw [h0, div_zero]
      linarith
  have hdiv' : (if 0 < r then -(sq - sp) / r else -(sq - sp)) = -((sq - sp) / r) := by
    split
    · rw [neg_div]
    · rename_i h
      have h0 : r = 0 := le_antisymm (not_lt.1 h) hr
      rw [h0, div_zero]
      linarith
  have hg1 : (sq - sp) / r ≤ 1 := div_le_one_of_le₀ h1 hr
  have hg2 : -1 ≤ (sq - sp) / r := by
    have : (sp - sq) / r ≤ 1 := div_le_one_of_le₀ h2 hr
    have e : (sp - sq) / r = -((sq - sp) / r) := by rw [← neg_div]; congr 1; ring
    rw [e] at this
    linarith
  have hsign : 0 ≤ sq - sp → 0 ≤ (sq - sp) / r := fun h => div_nonneg h hr
  have hsign' : ¬ 0 ≤ sq - sp → (sq - sp) / r < 0 := by
    intro h
    have hr' : 0 < r := by
      have := not_le.1 h
      linarith
    exact div_neg_of_neg_of_pos (not_le.1 h) hr'
  unfold amsrPull
  simp only [hdiv, hdiv']
  obtain ⟨g, hg⟩ : ∃ g, g = (sq - sp) / r := ⟨_, rfl⟩
  rw [← hg] at hg1 hg2 hsign hsign' ⊢
  by_cases h : 0 ≤ sq - sp
  · rw [if_pos h]
    refine ⟨by simp [hp], ?_⟩
    intro k hk
    refine ⟨u k * (1 - g) + g, ?_, ?_, ?_⟩
    · rw [List.getD_eq_getElem?_getD, List.getElem?_map, List.getElem?_range (by omega)]
      rfl
    · intro _
      have := mul_nonneg (hu k).1 (sub_nonneg.2 hg1)
      have := mul_le_mul_of_nonneg_right (hu k).2.le (sub_nonneg.2 hg1)
      constructor <;> linarith
    · intro hn
      exact absurd (hsign h) (not_le.2 hn)
  · rw [if_neg h]
    refine ⟨by simp [hp], ?_⟩
    intro k hk
    refine ⟨u k * (1 - -g), ?_, ?_, ?_⟩
    · rw [List.getD_eq_getElem?_getD, List.getElem?_map, List.getElem?_range (by omega)]
      rfl
    · intro hn
      exact absurd (hsign' h) (not_lt.2 hn)
    · intro _
      have h5 : 0 ≤ 1 - -g := by linarith
      have := mul_nonneg (hu k).1 h5
      have := mul_le_mul_of_nonneg_right (hu k).2.le h5
      constructor <;> linarith

theorem span_bounds {l : List ℚ} {r x z : ℚ} (h : IsSpan l r) (hx : x ∈ l) (hz : z ∈ l) : x - z ≤ r := by
  obtain ⟨M, _, m, _, hb, rfl⟩ := h
  have := (hb x hx).2
  have := (hb z hz).1
  linarith

theorem span_maxL {l : List ℚ} (hl : l ≠ []) : IsSpan l (maxL l - minL l) :=
  ⟨maxL l, (maxL_spec hl).1, minL l, (minL_spec hl).1, fun x hx => ⟨(minL_spec hl).2 x hx, (maxL_spec hl).2 x hx⟩, rfl⟩

theorem span_maxL_cons {l : List ℚ} (hl : l ≠ []) (a : ℚ) : IsSpan (a :: l) (max (maxL l) a - min (minL l) a) := by
  refine ⟨max (maxL l) a, ?_, min (minL l) a, ?_, ?_, rfl⟩
  · rcases max_choice (maxL l) a with h | h <;> rw [h]
    · exact List.mem_cons_of_mem _ (maxL_spec hl).1
    · exact List.mem_cons_self
  · rcases min_choice (minL l) a with h | h <;> rw [h]
    · exact List.mem_cons_of_mem _ (minL_spec hl).1
    · exact List.mem_cons_self
  · intro x hx
    rcases List.mem_cons.1 hx with h | h
    · rw [h]
      exact ⟨min_le_right _ _, le_max_right _ _⟩
    · exact ⟨le_trans (min_le_left _ _) ((minL_spec hl).2 x h), le_trans ((maxL_spec hl).2 x h) (le_max_left _ _)⟩

/-! ## The property -/

/-- **SMOTE_AMSR.** The result is the input and exactly the requested number of rows. Each is between the two rows of its topology, the pull towards one of
them being given by the difference of their scores, in units of the span of all scores of minority rows (with the star: and of their mean). -/
theorem C100_amsr {env : AmsrEnv} (henv : env.OK) {proportion : ℚ} {top : AmsrTopology} {d : Nat} {X : List Row} {y : List Int} {a b : Int}
    (hwf : WF d X y) (hmin : IsMinority y a b) (h3 : 2 < y.count a) (hreq : requested proportion (y.count b) (y.count a) ≠ 0) :
    ∃ (S : List Row) (mean : Row) (r : ℚ), IsMean d (classRows X y a) mean ∧
      IsSpan (match top with
        | .star => (mean :: classRows X y a).map (env.score X)
        | _ => (classRows X y a).map (env.score X)) r ∧
      S.length = requested proportion (y.count b) (y.count a) ∧
      (∀ x ∈ S, ∃ p q, AmsrEnds d (classRows X y a) top p q ∧ (top matches .star → q = mean) ∧
        Pulled d ((env.score X q - env.score X p) / r) p q x) ∧
      sample defaultChecks d (amsrAlg env proportion top d) X y =
        .ok (X ++ S, y ++ List.replicate (requested proportion (y.count b) (y.count a)) a) := by
  obtain ⟨s, hs, rfl, rfl⟩ := stats_of_isMinority hmin
  obtain ⟨hm, hM, hab⟩ := stats_min_mem hs
  have hA := classRows_length hwf.1 s.minLabel
  obtain ⟨out, hout⟩ : ∃ out, out = sample defaultChecks d (amsrAlg env proportion top d) X y := ⟨_, rfl⟩
  rw [← hout]
  rw [sample_default hs, if_neg (by omega)] at hout
  unfold amsrAlg at hout
  rw [stats_count hs hm, stats_count hs hM, detN_eq_requested] at hout
  simp only [ok_bind] at hout
  rw [if_neg hreq] at hout
  simp only [selectLabel_eq_classRows] at hout
  have hdim : ∀ r ∈ classRows X y s.minLabel, r.length = d := fun r hr => hwf.2 r (mem_of_mem_classRows hr)
  obtain ⟨A, hAd⟩ : ∃ A, A = classRows X y s.minLabel := ⟨_, rfl⟩
  rw [← hAd] at hout hA hdim ⊢
  obtain ⟨n, hn⟩ : ∃ n, n = requested proportion (y.count s.majLabel) (y.count s.minLabel) := ⟨_, rfl⟩
  rw [← hn] at hout ⊢
  obtain ⟨sc, hsc⟩ : ∃ sc, sc = env.score X := ⟨_, rfl⟩
  rw [← hsc] at hout ⊢
  have hne : A ≠ [] := List.length_pos_iff.1 (by omega)
  have hmean := meanRow_isMean hne hdim
  obtain ⟨mean, hme⟩ : ∃ mean, mean = meanRow d A := ⟨_, rfl⟩
  rw [← hme] at hmean
  have hsne : A.map sc ≠ [] := by simpa using hne
  have finish : ∀ (f : Nat → Res Row) (P : Row → Prop), (∀ t, ∃ x, f t = .ok x ∧ P x) →
      out = ((List.range n).mapM f >>= fun new => (pure (X ++ new, y ++ List.replicate new.length s.minLabel) : Res (List Row × List Int))) →
      ∃ S : List Row, S.length = n ∧ (∀ x ∈ S, P x) ∧ out = .ok (X ++ S, y ++ List.replicate n s.minLabel) := by
    intro f P hf ho
    obtain ⟨S, hS⟩ := mapM_exists_ok (f := f) (l := List.range n) (fun t _ => let ⟨x, hx, _⟩ := hf t; ⟨x, hx⟩)
    have hSl : S.length = n := by rw [mapM_ok_length hS, List.length_range]
    refine ⟨S, hSl, ?_, ?_⟩
    · intro x hx
      obtain ⟨t, _, ht⟩ := mapM_ok_mem hS hx
      obtain ⟨x', e1, e2⟩ := hf t
      rw [ht] at e1
      injection e1 with e1
      rw [e1]
      exact e2
    · rw [ho, hS, ok_bind, hSl]
      rfl
  have hget : ∀ i, i < A.length → ∃ p, A[i]? = some p ∧ p ∈ A ∧ (A.map sc)[i]? = some (sc p) := by
    intro i hi
    refine ⟨A[i], List.getElem?_eq_getElem hi, List.getElem_mem _, ?_⟩
    rw [List.getElem?_map, List.getElem?_eq_getElem hi]
    rfl
  cases top with
  | star =>
    simp only [amsrStar] at hout
    rw [← hme] at hout
    have hspan := span_maxL_cons hsne (sc mean)
    obtain ⟨r, hr⟩ : ∃ r, r = max (maxL (A.map sc)) (sc mean) - min (minL (A.map sc)) (sc mean) := ⟨_, rfl⟩
    rw [← hr] at hout hspan
    obtain ⟨S, h1, h2, h4⟩ := finish _ (fun x => ∃ p q, AmsrEnds d A .star p q ∧ (AmsrTopology.star matches .star → q = mean) ∧
      Pulled d ((sc q - sc p) / r) p q x) (by
        intro t
        obtain ⟨p, e1, e2, e3⟩ := hget (env.base t A.length) (henv.base t _ (by omega))
        refine ⟨amsrPull r (sc p) (sc mean) p mean (env.u t), ?_, p, mean, ⟨e2, hmean⟩, fun _ => rfl, amsrPull_spec (hdim p e2) (henv.u t) ?_ ?_⟩
        · show (getRow A (env.base t A.length) >>= fun p => getRow (A.map sc) (env.base t A.length) >>= fun sp =>
            (pure (amsrPull r sp (sc mean) p mean (env.u t)) : Res Row)) = _
          rw [getRow_ok.2 e1, ok_bind, getRow_ok.2 e3, ok_bind]
          rfl
        · exact span_bounds hspan List.mem_cons_self (List.mem_cons_of_mem _ (List.mem_map_of_mem e2))
        · exact span_bounds hspan (List.mem_cons_of_mem _ (List.mem_map_of_mem e2)) List.mem_cons_self) hout
    exact ⟨S, mean, r, hmean, hspan, h1, h2, h4⟩
  | bus =>
    simp only [amsrBus] at hout
    have hspan := span_maxL hsne
    obtain ⟨r, hr⟩ : ∃ r, r = maxL (A.map sc) - minL (A.map sc) := ⟨_, rfl⟩
    rw [← hr] at hout hspan
    obtain ⟨S, h1, h2, h4⟩ := finish _ (fun x => ∃ p q, AmsrEnds d A .bus p q ∧ (AmsrTopology.bus matches .star → q = mean) ∧
      Pulled d ((sc q - sc p) / r) p q x) (by
        intro t
        have hi := henv.base t (A.length - 1) (by omega)
        obtain ⟨q, e1, e2, e3⟩ := hget (env.base t (A.length - 1)) (by omega)
        obtain ⟨p, g1, g2, g3⟩ := hget (env.base t (A.length - 1) + 1) (by omega)
        have t1 : ∀ {α : Type} (l : List α) (i : Nat), l.tail[i]? = l[i + 1]? := fun l i => by rw [List.getElem?_tail]
        have t2 : ∀ {α : Type} (l : List α) (i : Nat), i < l.length - 1 → l.dropLast[i]? = l[i]? := fun l i h => by
          rw [List.getElem?_dropLast, if_pos h]
        refine ⟨amsrPull r (sc p) (sc q) p q (env.u t), ?_, p, q, ⟨_, e1, g1⟩, by simp, amsrPull_spec (hdim p g2) (henv.u t) ?_ ?_⟩
        · show (getRow A.tail (env.base t (A.length - 1)) >>= fun p => getRow A.dropLast (env.base t (A.length - 1)) >>= fun q =>
            getRow (A.map sc).tail (env.base t (A.length - 1)) >>= fun sp => getRow (A.map sc).dropLast (env.base t (A.length - 1)) >>= fun sq =>
            (pure (amsrPull r sp sq p q (env.u t)) : Res Row)) = _
          rw [getRow_ok.2 ((t1 _ _).trans g1), ok_bind, getRow_ok.2 ((t2 _ _ hi).trans e1), ok_bind, getRow_ok.2 ((t1 _ _).trans g3), ok_bind,
            getRow_ok.2 ((t2 _ _ (by rw [List.length_map]; exact hi)).trans e3), ok_bind]
          rfl
        · exact span_bounds hspan (List.mem_map_of_mem e2) (List.mem_map_of_mem g2)
        · exact span_bounds hspan (List.mem_map_of_mem g2) (List.mem_map_of_mem e2)) hout
    exact ⟨S, mean, r, hmean, hspan, h1, h2, h4⟩
  | mesh =>
    simp only [amsrMesh] at hout
    have hspan := span_maxL hsne
    obtain ⟨r, hr⟩ : ∃ r, r = maxL (A.map sc) - minL (A.map sc) := ⟨_, rfl⟩
    rw [← hr] at hout hspan
    obtain ⟨S, h1, h2, h4⟩ := finish _ (fun x => ∃ p q, AmsrEnds d A .mesh p q ∧ (AmsrTopology.mesh matches .star → q = mean) ∧
      Pulled d ((sc q - sc p) / r) p q x) (by
        intro t
        obtain ⟨q, e1, e2, e3⟩ := hget (env.base t A.length) (henv.base t _ (by omega))
        obtain ⟨p, g1, g2, g3⟩ := hget (env.other t A.length) (henv.other t _ (by omega))
        refine ⟨amsrPull r (sc p) (sc q) p q (env.u t), ?_, p, q, ⟨g2, e2⟩, by simp, amsrPull_spec (hdim p g2) (henv.u t) ?_ ?_⟩
        · show (getRow A (env.base t A.length) >>= fun q => getRow A (env.other t A.length) >>= fun p =>
            getRow (A.map sc) (env.base t A.length) >>= fun sq => getRow (A.map sc) (env.other t A.length) >>= fun sp =>
            (pure (amsrPull r sp sq p q (env.u t)) : Res Row)) = _
          rw [getRow_ok.2 e1, ok_bind, getRow_ok.2 g1, ok_bind, getRow_ok.2 e3, ok_bind, getRow_ok.2 g3, ok_bind]
          rfl
        · exact span_bounds hspan (List.mem_map_of_mem e2) (List.mem_map_of_mem g2)
        · exact span_bounds hspan (List.mem_map_of_mem g2) (List.mem_map_of_mem e2)) hout
    exact ⟨S, mean, r, hmean, hspan, h1, h2, h4⟩

/-- A pulled row is between its two rows, whatever the pull, which is between -1 and 1. -/
theorem C100_between {d : Nat} {g : ℚ} {p q x : Row} (h : Pulled d g p q x) : Between d p q x := by
  refine ⟨h.1, ?_⟩
  intro k hk
  obtain ⟨t, e, h1, h2⟩ := h.2 k hk
  have ht : 0 ≤ t ∧ t ≤ 1 := by
    rcases lt_or_ge g 0 with hg | hg
    · have := h2 hg
      exact ⟨this.1, by linarith⟩
    · have := h1 hg
      exact ⟨by linarith, this.2⟩
  rw [e]
  obtain ⟨a, ha⟩ : ∃ a, a = p.getD k 0 := ⟨_, rfl⟩
  obtain ⟨b, hb⟩ : ∃ b, b = q.getD k 0 := ⟨_, rfl⟩
  rw [← ha, ← hb]
  rcases le_total a b with hab | hab
  · rw [min_eq_left hab, max_eq_right hab]
    have := mul_nonneg ht.1 (sub_nonneg.2 hab)
    have := mul_le_mul_of_nonneg_right ht.2 (sub_nonneg.2 hab)
    constructor <;> linarith
  · rw [min_eq_right hab, max_eq_left hab]
    have := mul_nonneg ht.1 (sub_nonneg.2 hab)
    have := mul_le_mul_of_nonneg_right ht.2 (sub_nonneg.2 hab)
    constructor <;> linarith

/-- **No pull, full pull.** From a row of the smallest score towards one of the largest the new row is a copy of the latter; in the other direction it is a copy
of the row it starts from. -/
theorem C100_copies {d : Nat} {p q x : Row} (hp : p.length = d) (hq : q.length = d) : (Pulled d 1 p q x → x = q) ∧ (Pulled d (-1) p q x → x = p) := by
  constructor
  · intro h
    apply row_ext h.1 hq
    intro k hk
    obtain ⟨t, e, h1, _⟩ := h.2 k hk
    have := h1 (by norm_num)
    have ht : t = 1 := le_antisymm this.2 this.1
    rw [e, ht]
    ring
  · intro h
    apply row_ext h.1 hp
    intro k hk
    obtain ⟨t, e, _, h2⟩ := h.2 k hk
    have := h2 (by norm_num)
    have ht : t = 0 := le_antisymm (by linarith [this.2]) this.1
    rw [e, ht]
    ring

/-! ## Examples -/

/-- The score of a row is its first entry. -/
def amsrEnv0 : AmsrEnv where
  score _ r := r.getD 0 0
  base t m := t % m
  other t m := (t + 1) % m
  u _ _ := 1 / 2

theorem amsrEnv0_ok : amsrEnv0.OK where
  base _ _ h := Nat.mod_lt _ h
  other _ _ h := Nat.mod_lt _ h
  u _ _ := by simp only [amsrEnv0]; norm_num

/-- The hypotheses are met, with rows pulled towards the mean and a copy of a row of the largest score. -/
example : amsrEnv0.OK ∧ WF 2 exX exY ∧ IsMinority exY 1 0 ∧ 2 < exY.count 1 ∧ requested 1 (exY.count 0) (exY.count 1) = 2 ∧
    sample defaultChecks 2 (amsrAlg amsrEnv0 1 .star 2) exX exY = .ok (exX ++ [[2 / 9, 2 / 9], [8 / 9, 1 / 18]], exY ++ [1, 1]) ∧
    sample defaultChecks 2 (amsrAlg amsrEnv0 1 .mesh 2) exX exY = .ok (exX ++ [[1, 0], [1, 0]], exY ++ [1, 1]) ∧
    sample defaultChecks 2 (amsrAlg amsrEnv0 1 .bus 2) exX exY = .ok (exX ++ [[1, 0], [1, 0]], exY ++ [1, 1]) :=
  ⟨amsrEnv0_ok, ⟨by decide, by decide +kernel⟩, exY_min, by decide, by decide +kernel, by decide +kernel, by decide +kernel, by decide +kernel⟩

end Verif

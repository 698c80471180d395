import Verif.Model.Adg
import Verif.Lemmas.Clusters
import Verif.Lemmas.Smote
import Verif.Lemmas.SmoteExample
import Verif.Props.C38

/-!
# C109: ADG adds up to twice the requested rows, and works for the labels 0 and 1 only
-/

namespace Verif

/-! ## Specification -/

/-- `c` is the number of clusters or components, from one to nine and smaller than `n`, with the lowest score, the first one of several. -/
def LowestScore (score : Nat → XF) (n c : Nat) : Prop :=
  1 ≤ c ∧ c < min 10 n ∧ (∀ c', 1 ≤ c' → c' < min 10 n → (score c').lt (score c) = false) ∧
    ∀ c', 1 ≤ c' → c' < c → (score c).lt (score c') = true

/-- `z` are the rows which are kept of `q` rows drawn in round `t` from the best mixture fitted to `rows`: those on the positive side of the
solution of a system of equations. -/
def AdgKept (env : AdgEnv) (d t q : Nat) (rows X z : List Row) : Prop :=
  ∃ c score A b al, (∀ c, env.gmm d c rows = .ok (score c)) ∧ LowestScore score rows.length c ∧ env.solve A b = some al ∧
    z = (env.draw d t c rows q).filter (fun r => decide (0 < dotRow (X.map (env.kernel r)) al))

/-- Why the loop ends. -/
inductive AdgWhy
  | halved
  | singular
  | nothing
  | few
  deriving DecidableEq

/-- The batches which are added from round `t` on, when the number of rows to draw is half of `q`, `total` rows were added and the data
are `X`; `rows` are the rows the mixture is fitted to. -/
inductive AdgBatches (env : AdgEnv) (d : Nat) (rows : List Row) : Nat → Nat → Nat → List Row → List (List Row) → AdgWhy → Prop
  | halved (t q total : Nat) (X : List Row) : q ≤ 1 → AdgBatches env d rows t q total X [] .halved
  | singular (t q total : Nat) (X : List Row) : 1 < q → (∃ A b, env.solve A b = none) → AdgBatches env d rows t q total X [] .singular
  | nothing (t q total : Nat) (X : List Row) : 1 < q → AdgKept env d t (q / 2) rows X [] → AdgBatches env d rows t q total X [] .nothing
  | few (t q total : Nat) (X z : List Row) : 1 < q → AdgKept env d t (q / 2) rows X z → z ≠ [] →
      (z.length : ℚ) / ((total + z.length : Nat) : ℚ) < 1 / 100 → AdgBatches env d rows t q total X [z] .few
  | more (t q total : Nat) (X z : List Row) (zs : List (List Row)) (w : AdgWhy) : 1 < q → AdgKept env d t (q / 2) rows X z → z ≠ [] →
      1 / 100 ≤ (z.length : ℚ) / ((total + z.length : Nat) : ℚ) →
      AdgBatches env d rows (t + 1) (q / 2) (total + z.length) (X ++ z) zs w → AdgBatches env d rows t q total X (z :: zs) w

/-! ## The choice of a model -/

theorem adgPick_ok (f : Nat → XF) (n : Nat) : adgPick (fun c => .ok (f c)) n =
    .ok ((List.range' 1 (min 10 n - 1)).foldl (fun best c => if (f c).lt best.1 then (f c, some c) else best) (XF.posInf, (none : Option Nat))).2 := by
  unfold adgPick
  have : ∀ (l : List Nat) (acc : XF × Option Nat), l.foldlM (m := Res) (fun best c => do
      let v ← (.ok (f c) : Res XF)
      return if v.lt best.1 then (v, some c) else best) acc =
      .ok (l.foldl (fun best c => if (f c).lt best.1 then (f c, some c) else best) acc) := by
    intro l
    induction l with
    | nil => intro acc; rfl
    | cons c l ih => intro acc; rw [List.foldlM_cons, List.foldl_cons]; exact ih _
  rw [this]
  rfl

theorem pick_fold {f : Nat → XF} {g : Nat → ℚ} (hf : ∀ c, f c = .fin (g c)) : ∀ (l : List Nat) (c0 : Nat), (c0 :: l).Pairwise (· < ·) →
    ∃ c, (l.foldl (fun best c => if (f c).lt best.1 then (f c, some c) else best) (f c0, some c0)) = (f c, some c) ∧
      c ∈ c0 :: l ∧ (∀ c' ∈ c0 :: l, g c ≤ g c') ∧ ∀ c' ∈ c0 :: l, c' < c → g c < g c' := by
  intro l
  induction l with
  | nil =>
    intro c0 _
    refine ⟨c0, rfl, by simp, ?_, ?_⟩
    · intro c' hc'; rw [List.mem_singleton.1 hc']
    · intro c' hc' h; rw [List.mem_singleton.1 hc'] at h; omega
  | cons x l ih =>
    intro c0 hp
    rw [List.pairwise_cons] at hp
    rw [List.foldl_cons]
    have hx0 : c0 < x := hp.1 x (by simp)
    by_cases h : g x < g c0
    · rw [if_pos (by rw [hf, hf]; simpa [XF.lt] using h)]
      obtain ⟨c, e, hm, hlow, hfirst⟩ := ih x hp.2
      have hc0 : g c < g c0 := lt_of_le_of_lt (hlow x (by simp)) h
      refine ⟨c, e, List.mem_cons_of_mem _ hm, ?_, ?_⟩
      · intro c' hc'
        rcases List.mem_cons.1 hc' with rfl | hc'
        · exact hc0.le
        · exact hlow c' hc'
      · intro c' hc' hlt
        rcases List.mem_cons.1 hc' with rfl | hc'
        · exact hc0
        · exact hfirst c' hc' hlt
    · rw [if_neg (by rw [hf, hf]; simpa [XF.lt] using h)]
      have hp' : (c0 :: l).Pairwise (· < ·) :=
        List.pairwise_cons.2 ⟨fun y hy => hp.1 y (List.mem_cons_of_mem _ hy), (List.pairwise_cons.1 hp.2).2⟩
      obtain ⟨c, e, hm, hlow, hfirst⟩ := ih c0 hp'
      have hc0 : g c ≤ g c0 := hlow c0 (by simp)
      have hxl : ∀ y ∈ l, x < y := (List.pairwise_cons.1 hp.2).1
      refine ⟨c, e, ?_, ?_, ?_⟩
      · rcases List.mem_cons.1 hm with h | h
        · rw [h]; simp
        · exact List.mem_cons_of_mem _ (List.mem_cons_of_mem _ h)
      · intro c' hc'
        rcases List.mem_cons.1 hc' with rfl | hc'
        · exact hc0
        · rcases List.mem_cons.1 hc' with rfl | hc'
          · linarith
          · exact hlow c' (List.mem_cons_of_mem _ hc')
      · intro c' hc' hlt
        rcases List.mem_cons.1 hc' with rfl | hc'
        · exact hfirst _ (by simp) hlt
        · rcases List.mem_cons.1 hc' with rfl | hc'
          · have := hfirst c0 (by simp) (by omega)
            linarith
          · exact hfirst c' (List.mem_cons_of_mem _ hc') hlt

/-- With scores that are numbers and at least two rows, the first number with the lowest score is chosen. -/
theorem adgPick_some {f : Nat → XF} {n : Nat} (hf : ∀ c, ∃ v, f c = .fin v) (hn : 2 ≤ n) :
    ∃ c, adgPick (fun c => .ok (f c)) n = .ok (some c) ∧ LowestScore f n c := by
  choose g hg using hf
  rw [adgPick_ok]
  have hr : List.range' 1 (min 10 n - 1) = 1 :: List.range' 2 (min 10 n - 2) := by
    have : min 10 n - 1 = (min 10 n - 2) + 1 := by omega
    rw [this, List.range'_succ]
  have hp : (1 :: List.range' 2 (min 10 n - 2)).Pairwise (· < ·) := by
    rw [← hr]; exact List.pairwise_lt_range'
  obtain ⟨c, e, hm, hlow, hfirst⟩ := pick_fold hg _ _ hp
  have hfirst1 : (f 1).lt XF.posInf = true := by rw [hg]; rfl
  refine ⟨c, ?_, ?_⟩
  · rw [hr, List.foldl_cons, if_pos hfirst1, e]
  · have hmem : ∀ c', c' ∈ 1 :: List.range' 2 (min 10 n - 2) ↔ 1 ≤ c' ∧ c' < min 10 n := by
      intro c'
      rw [← hr, List.mem_range'_1]
      omega
    obtain ⟨h1, h2⟩ := (hmem c).1 hm
    refine ⟨h1, h2, ?_, ?_⟩
    · intro c' h3 h4
      rw [hg, hg]
      have := hlow c' ((hmem c').2 ⟨h3, h4⟩)
      simpa [XF.lt] using this
    · intro c' h3 h4
      rw [hg, hg]
      have := hfirst c' ((hmem c').2 ⟨h3, by omega⟩) h4
      simpa [XF.lt] using this

/-- Without a score below infinity nothing is chosen. -/
theorem adgPick_none {f : Nat → XF} {n : Nat} (hf : ∀ c, 1 ≤ c → c < n → f c = .posInf) :
    adgPick (fun c => .ok (f c)) n = .ok none := by
  rw [adgPick_ok]
  have : ∀ l : List Nat, (∀ c ∈ l, f c = .posInf) →
      l.foldl (fun best c => if (f c).lt best.1 then (f c, some c) else best) (XF.posInf, (none : Option Nat)) = (XF.posInf, none) := by
    intro l
    induction l with
    | nil => intro _; rfl
    | cons c l ih =>
      intro h
      rw [List.foldl_cons, h c (by simp)]
      exact ih (fun x hx => h x (by simp [hx]))
  rw [this]
  intro c hc
  rw [List.mem_range'_1] at hc
  exact hf c (by omega) (by omega)

/-! ## The rounds -/

/-- The clusterings can be compared and give every cluster a row; the mixtures can be fitted and compared; as many rows are drawn as
asked for. -/
structure AdgOK (env : AdgEnv) (rows : List Row) : Prop where
  kbic : ∀ d c zs, ∃ v, env.kbic d c (rows ++ zs) = .fin v
  kmeans : ∀ d c zs i, c < (rows ++ zs).length → i < c → i ∈ env.kmeans d c (rows ++ zs)
  gmm : ∀ d c, ∃ v, env.gmm d c rows = .ok (.fin v)
  draw : ∀ d t c q, (env.draw d t c rows q).length = q

theorem adgSystem_some {par : AdgParams} {st : AdgState} {c : Nat} {labels : List Nat} (hm : st.minus ≠ [])
    (hl : ∀ i, i < c → i ∈ labels) : ∃ A b, adgSystem par st c labels = some (A, b) := by
  unfold adgSystem
  simp only
  rw [if_neg]
  · exact ⟨_, _, rfl⟩
  · rintro (h | h)
    · exact hm h
    · obtain ⟨i, hi, h0⟩ := List.mem_map.1 h
      have := List.count_pos_iff.2 (hl i (List.mem_range.1 hi))
      have h0' : labels.count i = 0 := by exact_mod_cast h0
      omega

/-- What one round does. -/
theorem adgTurn_spec {env : AdgEnv} {par : AdgParams} {a : Int} {d t q : Nat} {st : AdgState} (henv : AdgOK env st.plus)
    (h2 : 2 ≤ st.plus.length) (hm : st.minus ≠ []) {zs : List Row} (hhat : st.hat = st.plus ++ zs) :
    (adgTurn env par a d t q st = .ok .singular ∧ ∃ A b, env.solve A b = none) ∨
    ∃ z, AdgKept env d t q st.plus st.X z ∧
      adgTurn env par a d t q st = .ok (if z = [] then .stop else
        if (z.length : ℚ) / ((st.total + z.length : Nat) : ℚ) < 1 / 100 then .early (adgExtend env.kernel a st z)
        else .next (adgUpdate (adgExtend env.kernel a st z) z.length)) := by
  have hb : ∀ c, ∃ v, env.kbic d c st.hat = .fin v := by intro c; rw [hhat]; exact henv.kbic d c zs
  obtain ⟨c, hc, hlow⟩ := adgPick_some (n := st.hat.length) hb (by rw [hhat, List.length_append]; omega)
  obtain ⟨A, b, hsys⟩ := adgSystem_some (par := par) (st := st) (c := c) (labels := env.kmeans d c st.hat) hm
    (by
      have := hlow.2.1
      rw [hhat] at this ⊢
      exact fun i hi => henv.kmeans d c zs i (by omega) hi)
  unfold adgTurn
  rw [hc]
  simp only
  unfold adgAlpha
  rw [hsys]
  simp only
  cases hsol : env.solve A b with
  | none => exact Or.inl ⟨rfl, A, b, hsol⟩
  | some al =>
    right
    have hg : ∃ score : Nat → XF, (∀ c, env.gmm d c st.plus = .ok (score c)) ∧ ∀ c, ∃ v, score c = .fin v := by
      choose v hv using henv.gmm d
      exact ⟨fun c => .fin (v c), hv, fun c => ⟨v c, rfl⟩⟩
    obtain ⟨score, hs1, hs2⟩ := hg
    obtain ⟨e, he, hlow'⟩ := adgPick_some (n := st.plus.length) hs2 h2
    have hfun : (fun c => env.gmm d c st.plus) = fun c => .ok (score c) := funext hs1
    refine ⟨adgKeep env.kernel st.X (some al) (env.draw d t e st.plus q), ⟨e, score, A, b, al, hs1, hlow', hsol, rfl⟩, ?_⟩
    simp only [Option.map_some]
    unfold adgFinish
    rw [hfun, he]
    simp only
    generalize adgKeep env.kernel st.X (some al) (env.draw d t e st.plus q) = z
    have ht : (adgExtend env.kernel a st z).total = st.total + z.length := rfl
    rw [ht]
    by_cases h0 : z = []
    · rw [if_pos h0, if_pos h0]
    · rw [if_neg h0, if_neg h0]
      split <;> rfl

theorem adgLoop_spec {env : AdgEnv} {par : AdgParams} {a : Int} {d : Nat} {rows : List Row} (henv : AdgOK env rows) (h2 : 2 ≤ rows.length) :
    ∀ (f t q : Nat) (st : AdgState) (zs : List Row), st.plus = rows → st.minus ≠ [] → st.hat = rows ++ zs → q ≤ f →
      ∃ bs w st', adgLoop env par a d f t q st = .ok (st', decide (w = .singular)) ∧ AdgBatches env d rows t q st.total st.X bs w ∧
        st'.X = st.X ++ bs.flatten ∧ st'.y = st.y ++ List.replicate bs.flatten.length a := by
  intro f
  induction f with
  | zero =>
    intro t q st zs _ _ _ hq
    exact ⟨[], .halved, st, by simp [adgLoop], .halved _ _ _ _ (by omega), by simp, by simp⟩
  | succ f ih =>
    intro t q st zs hpl hm hhat hq
    unfold adgLoop
    by_cases hq1 : q ≤ 1
    · rw [if_pos hq1]
      exact ⟨[], .halved, st, by simp, .halved _ _ _ _ hq1, by simp, by simp⟩
    rw [if_neg hq1]
    rcases adgTurn_spec (par := par) (a := a) (d := d) (t := t) (q := q / 2) (by rw [hpl]; exact henv) (by rw [hpl]; exact h2) hm
      (by rw [hpl]; exact hhat) with ⟨h, hs⟩ | ⟨z, hz, h⟩
    · rw [h]
      exact ⟨[], .singular, st, by simp, .singular _ _ _ _ (by omega) hs, by simp, by simp⟩
    · rw [h]
      rw [hpl] at hz
      by_cases h0 : z = []
      · rw [if_pos h0]
        subst h0
        exact ⟨[], .nothing, st, by simp, .nothing _ _ _ _ (by omega) hz, by simp, by simp⟩
      rw [if_neg h0]
      have hX : (adgExtend env.kernel a st z).X = st.X ++ z := by simp [AdgState.X, adgExtend]
      by_cases hf : (z.length : ℚ) / ((st.total + z.length : Nat) : ℚ) < 1 / 100
      · rw [if_pos hf]
        refine ⟨[z], .few, _, by simp; rfl, .few _ _ _ _ _ (by omega) hz h0 hf, ?_, ?_⟩
        · rw [hX]; simp
        · simp [adgExtend]
      · rw [if_neg hf]
        obtain ⟨bs, w, st', e1, e2, e3, e4⟩ := ih (t + 1) (q / 2) (adgUpdate (adgExtend env.kernel a st z) z.length) (zs ++ z)
          (by simp only [adgUpdate, adgExtend]; exact hpl) (by simp only [adgUpdate, adgExtend]; exact hm)
          (by simp only [adgUpdate, adgExtend]; rw [hhat, List.append_assoc]) (by omega)
        have hX' : (adgUpdate (adgExtend env.kernel a st z) z.length).X = st.X ++ z := hX
        refine ⟨z :: bs, w, st', e1, ?_, ?_, ?_⟩
        · refine .more _ _ _ _ _ _ _ (by omega) hz h0 (not_lt.1 hf) ?_
          rw [hX'] at e2
          exact e2
        · rw [e3, hX']; simp
        · rw [e4]
          simp only [adgUpdate, adgExtend, List.flatten_cons, List.length_append, ← List.replicate_append_replicate, List.append_assoc]

/-- At most one less than `q` rows are added. -/
theorem batches_total {env : AdgEnv} {d : Nat} {rows : List Row} (hd : ∀ t c q, (env.draw d t c rows q).length = q) {t q total : Nat}
    {X : List Row} {bs : List (List Row)} {w : AdgWhy} (h : AdgBatches env d rows t q total X bs w) : bs.flatten.length ≤ q - 1 := by
  have hlen : ∀ {t q X z}, AdgKept env d t q rows X z → z.length ≤ q := by
    rintro t q X z ⟨c, _, _, _, _, _, _, _, rfl⟩
    exact (List.length_filter_le _ _).trans (hd t c q).le
  induction h with
  | halved => simp
  | singular => simp
  | nothing => simp
  | few t q total X z hq hz _ _ =>
    have := hlen hz
    simp only [List.flatten_cons, List.flatten_nil, List.append_nil]
    omega
  | more t q total X z zs w hq hz _ _ _ ih =>
    have := hlen hz
    simp only [List.flatten_cons, List.length_append]
    omega

theorem batches_drawn {env : AdgEnv} {d : Nat} {rows : List Row} {t q total : Nat} {X : List Row} {bs : List (List Row)} {w : AdgWhy}
    (h : AdgBatches env d rows t q total X bs w) : ∀ x ∈ bs.flatten, ∃ t c q, x ∈ env.draw d t c rows q := by
  have hz' : ∀ {t q X z}, AdgKept env d t q rows X z → ∀ x ∈ z, ∃ t c q, x ∈ env.draw d t c rows q := by
    rintro t q X z ⟨c, _, _, _, _, _, _, _, rfl⟩ x hx
    exact ⟨t, c, q, (List.mem_filter.1 hx).1⟩
  induction h with
  | halved => simp
  | singular => simp
  | nothing => simp
  | few t q total X z hq hz _ _ => intro x hx; exact hz' hz x (by simpa using hx)
  | more t q total X z zs w hq hz _ _ _ ih =>
    intro x hx
    rw [List.flatten_cons, List.mem_append] at hx
    rcases hx with hx | hx
    · exact hz' hz x hx
    · exact ih x hx

theorem batches_singular {env : AdgEnv} {d : Nat} {rows : List Row} {t q total : Nat} {X : List Row} {bs : List (List Row)} {w : AdgWhy}
    (h : AdgBatches env d rows t q total X bs w) (hw : w = .singular) : ∃ A b, env.solve A b = none := by
  induction h with
  | halved => simp at hw
  | singular _ _ _ _ _ h => exact h
  | nothing => simp at hw
  | few => simp at hw
  | more _ _ _ _ _ _ _ _ _ _ _ _ ih => exact ih hw

theorem adgRun_succ {env : AdgEnv} {par : AdgParams} {f d : Nat} {X : List Row} {y : List Int} :
    adgRun env par (f + 1) d X y = sample defaultChecks d (adgAlg env par (adgRun env par f) d) X y := rfl

/-! ## The properties -/

/-- **ADG.** The rows labelled 0 come first, then those labelled 1, then the new rows, labelled as the minority: batch by batch the kept
rows of half as many rows as before, drawn from a mixture fitted to the rows labelled 1. At most one less than twice the requested number of
rows is added. After a singular matrix everything is done again with half of the dimensions, and the answer is brought back. -/
theorem C109_adg {env : AdgEnv} {par : AdgParams} {f d : Nat} {X : List Row} {y : List Int} {a b : Int} (hwf : WF d X y)
    (hmin : IsMinority y a b) (h2 : 2 < y.count a) (hreq : requested par.proportion (y.count b) (y.count a) ≠ 0) (h0 : 0 ∈ y)
    (h1 : 2 ≤ y.count 1) (henv : AdgOK env (classRows X y 1)) :
    ∃ bs w, AdgBatches env d (classRows X y 1) 0 (2 * requested par.proportion (y.count b) (y.count a)) 0
        (classRows X y 0 ++ classRows X y 1) bs w ∧
      bs.flatten.length ≤ 2 * requested par.proportion (y.count b) (y.count a) - 1 ∧
      (w ≠ .singular ∨ d ≤ 1 → adgRun env par (f + 1) d X y = .ok (classRows X y 0 ++ classRows X y 1 ++ bs.flatten,
        List.replicate (y.count 0) 0 ++ List.replicate (y.count 1) 1 ++ List.replicate bs.flatten.length a)) ∧
      (w = .singular → 2 ≤ d → adgRun env par (f + 1) d X y =
        let now := classRows X y 0 ++ classRows X y 1 ++ bs.flatten
        (adgRun env par f (d / 2) (now.map (env.pca (d / 2) now).1)
          (List.replicate (y.count 0) 0 ++ List.replicate (y.count 1) 1 ++ List.replicate bs.flatten.length a)).map
            (fun o => (o.1.map (env.pca (d / 2) now).2, o.2))) := by
  obtain ⟨s, hs, rfl, rfl⟩ := stats_of_isMinority hmin
  obtain ⟨hm, hM, hab⟩ := stats_min_mem hs
  have hl0 := classRows_length hwf.1 0
  have hl1 := classRows_length hwf.1 1
  have h0' := List.count_pos_iff.2 h0
  set n := requested par.proportion (y.count s.majLabel) (y.count s.minLabel) with hn
  have hst : (adgStart env.kernel X y).X = classRows X y 0 ++ classRows X y 1 := by
    simp only [adgStart, AdgState.X, selectLabel_eq_classRows]
  have hsty : (adgStart env.kernel X y).y = List.replicate (y.count 0) 0 ++ List.replicate (y.count 1) 1 := by
    simp only [adgStart, selectLabel_eq_classRows, hl0, hl1]
  obtain ⟨bs, w, st', e1, e2, e3, e4⟩ := adgLoop_spec (par := par) (a := s.minLabel) (d := d) henv (by rw [hl1]; exact h1) (2 * n) 0 (2 * n)
    (adgStart env.kernel X y) [] (by simp only [adgStart, selectLabel_eq_classRows])
    (by
      simp only [adgStart, selectLabel_eq_classRows]
      intro h
      rw [h] at hl0
      simp only [List.length_nil] at hl0
      omega)
    (by simp only [adgStart, selectLabel_eq_classRows, List.append_nil]) le_rfl
  rw [hst] at e2 e3
  rw [hsty] at e4
  have htot : (adgStart env.kernel X y).total = 0 := rfl
  rw [htot] at e2
  have hrun : adgRun env par (f + 1) d X y = (if decide (w = .singular) = true ∧ 0 < d / 2 then do
      let o ← adgRun env par f (d / 2) (st'.X.map (env.pca (d / 2) st'.X).1) st'.y
      return (o.1.map (env.pca (d / 2) st'.X).2, o.2)
    else return (st'.X, st'.y)) := by
    rw [adgRun_succ, sample_default hs, if_neg (by omega)]
    unfold adgAlg
    rw [stats_count hs hm, stats_count hs hM, detN_eq_requested, ok_bind, if_neg hreq]
    simp only
    rw [hst, if_neg]
    · rw [← hn, e1]
      rfl
    · intro h
      have := congrArg List.length h
      rw [List.length_append, hl0, hl1, List.length_nil] at this
      omega
  refine ⟨bs, w, e2, batches_total (fun t c q => henv.draw d t c q) e2, ?_, ?_⟩
  · intro h
    rw [hrun, if_neg, e3, e4]
    · rfl
    · rintro ⟨h3, h4⟩
      rcases h with h | h
      · exact h (of_decide_eq_true h3)
      · omega
  · intro h hd
    rw [hrun, if_pos ⟨decide_eq_true h, by omega⟩, e3, e4]
    simp only
    cases adgRun env par f (d / 2) _ _ <;> rfl

/-- **Labels 1 and 0 swapped.** When 0 is the minority label, the new rows are labelled 0 but drawn from a mixture fitted to the rows of
the majority. -/
theorem C109_swapped {env : AdgEnv} {par : AdgParams} {f d : Nat} {X : List Row} {y : List Int} (hwf : WF d X y)
    (hmin : IsMinority y 0 1) (h2 : 2 < y.count 0) (hreq : requested par.proportion (y.count 1) (y.count 0) ≠ 0)
    (henv : AdgOK env (classRows X y 1)) (hsol : ∀ A b, env.solve A b ≠ none) :
    ∃ new, adgRun env par (f + 1) d X y = .ok (classRows X y 0 ++ classRows X y 1 ++ new,
        List.replicate (y.count 0) 0 ++ List.replicate (y.count 1) 1 ++ List.replicate new.length 0) ∧
      ∀ x ∈ new, ∃ t c q, x ∈ env.draw d t c (classRows X y 1) q := by
  have h1 : 2 ≤ y.count 1 := by have := hmin.2.2.2; omega
  obtain ⟨bs, w, hb, _, h3, _⟩ := C109_adg (f := f) hwf hmin h2 hreq hmin.1 h1 henv
  refine ⟨bs.flatten, h3 (Or.inl fun hw => ?_), batches_drawn hb⟩
  obtain ⟨A, b, h⟩ := batches_singular hb hw
  exact hsol A b h

/-- **Without the label 0 all other labels get lost**: only the rows labelled 1 come back, be they the majority or the minority. -/
theorem C109_lost {env : AdgEnv} {par : AdgParams} {f d : Nat} {X : List Row} {y : List Int} {a b : Int} (hwf : WF d X y)
    (hmin : IsMinority y a b) (h2 : 2 < y.count a) (hreq : requested par.proportion (y.count b) (y.count a) ≠ 0) (h0 : 0 ∉ y)
    (h1 : 2 ≤ y.count 1) (henv : AdgOK env (classRows X y 1)) :
    adgRun env par (f + 1) d X y = .ok (classRows X y 1, List.replicate (y.count 1) 1) := by
  obtain ⟨s, hs, rfl, rfl⟩ := stats_of_isMinority hmin
  obtain ⟨hm, hM, hab⟩ := stats_min_mem hs
  have hl0 := classRows_length hwf.1 0
  have hl1 := classRows_length hwf.1 1
  have hn0 : classRows X y 0 = [] := List.length_eq_zero_iff.1 (by rw [hl0]; exact List.count_eq_zero.2 h0)
  rw [adgRun_succ, sample_default hs, if_neg (by omega)]
  unfold adgAlg
  rw [stats_count hs hm, stats_count hs hM, detN_eq_requested, ok_bind, if_neg hreq]
  set n := requested par.proportion (y.count s.majLabel) (y.count s.minLabel) with hn
  have hst : (adgStart env.kernel X y).X = classRows X y 1 := by
    simp only [adgStart, AdgState.X, selectLabel_eq_classRows, hn0, List.nil_append]
  have hsty : (adgStart env.kernel X y).y = List.replicate (y.count 1) 1 := by
    simp only [adgStart, selectLabel_eq_classRows, hn0, hl1, List.length_nil, List.replicate_zero, List.nil_append]
  have hpl : (adgStart env.kernel X y).plus = classRows X y 1 := by simp only [adgStart, selectLabel_eq_classRows]
  have hha : (adgStart env.kernel X y).hat = classRows X y 1 := by simp only [adgStart, selectLabel_eq_classRows]
  have hmi : (adgStart env.kernel X y).minus = [] := by simp only [adgStart, selectLabel_eq_classRows, hn0]
  have hturn : adgTurn env par s.minLabel d 0 (2 * n / 2) (adgStart env.kernel X y) = .ok .stop := by
    have hb : ∀ c, ∃ v, env.kbic d c (classRows X y 1) = .fin v := by
      intro c
      have := henv.kbic d c []
      rwa [List.append_nil] at this
    obtain ⟨c, hc, _⟩ := adgPick_some (n := (classRows X y 1).length) hb (by omega)
    unfold adgTurn
    rw [hha, hc]
    simp only
    unfold adgAlpha adgSystem
    simp only
    rw [if_pos (Or.inl hmi)]
    simp only
    choose v hv using henv.gmm d
    obtain ⟨e, he, _⟩ := adgPick_some (f := fun c => .fin (v c)) (n := (classRows X y 1).length) (fun c => ⟨v c, rfl⟩) (by omega)
    have hfun : (fun c => env.gmm d c (classRows X y 1)) = fun c => .ok (.fin (v c)) := funext hv
    unfold adgFinish
    rw [hpl, hfun, he]
    rfl
  simp only
  rw [hst, if_neg (by intro h; rw [h] at hl1; simp only [List.length_nil] at hl1; omega)]
  have hloop : adgLoop env par s.minLabel d (2 * n) 0 (2 * n) (adgStart env.kernel X y) = .ok (adgStart env.kernel X y, false) := by
    obtain ⟨k, hk⟩ : ∃ k, 2 * n = k + 1 := ⟨2 * n - 1, by omega⟩
    conv_lhs => rw [hk]
    unfold adgLoop
    rw [if_neg (by omega), ← hk, hturn]
  rw [hloop, ok_bind, if_neg (by simp), hst, hsty]
  rfl

/-- **Without the label 1** ADG fails with an `AttributeError`, **without both labels** with a `ValueError`. -/
theorem C109_labels {env : AdgEnv} {par : AdgParams} {f d : Nat} {X : List Row} {y : List Int} {a b : Int} (hwf : WF d X y)
    (hmin : IsMinority y a b) (h2 : 2 < y.count a) (hreq : requested par.proportion (y.count b) (y.count a) ≠ 0) (h1 : 1 ∉ y) :
    (0 ∈ y → adgRun env par (f + 1) d X y = .error .attributeError) ∧ (0 ∉ y → adgRun env par (f + 1) d X y = .error .valueError) := by
  obtain ⟨s, hs, rfl, rfl⟩ := stats_of_isMinority hmin
  obtain ⟨hm, hM, hab⟩ := stats_min_mem hs
  have hl0 := classRows_length hwf.1 0
  have hl1 := classRows_length hwf.1 1
  have hn1 : classRows X y 1 = [] := List.length_eq_zero_iff.1 (by rw [hl1]; exact List.count_eq_zero.2 h1)
  have hst : (adgStart env.kernel X y).X = classRows X y 0 := by
    simp only [adgStart, AdgState.X, selectLabel_eq_classRows, hn1, List.append_nil]
  have hha : (adgStart env.kernel X y).hat = [] := by simp only [adgStart, selectLabel_eq_classRows, hn1]
  set n := requested par.proportion (y.count s.majLabel) (y.count s.minLabel) with hn
  have hrun : adgRun env par (f + 1) d X y = if classRows X y 0 = [] then .error .valueError else do
      let r ← adgLoop env par s.minLabel d (2 * n) 0 (2 * n) (adgStart env.kernel X y)
      if r.2 = true ∧ 0 < d / 2 then
        let p := env.pca (d / 2) r.1.X
        let o ← adgRun env par f (d / 2) (r.1.X.map p.1) r.1.y
        return (o.1.map p.2, o.2)
      else return (r.1.X, r.1.y) := by
    rw [adgRun_succ, sample_default hs, if_neg (by omega)]
    unfold adgAlg
    rw [stats_count hs hm, stats_count hs hM, detN_eq_requested, ok_bind, if_neg hreq]
    simp only
    rw [hst]
    split <;> rfl
  constructor
  · intro h0
    rw [hrun, if_neg (by intro h; rw [h] at hl0; have := List.count_pos_iff.2 h0; simp only [List.length_nil] at hl0; omega)]
    have hturn : adgTurn env par s.minLabel d 0 (2 * n / 2) (adgStart env.kernel X y) = .error .attributeError := by
      unfold adgTurn
      rw [hha, adgPick_none (n := ([] : List Row).length) (by intro c _ h; simp at h)]
    have hloop : adgLoop env par s.minLabel d (2 * n) 0 (2 * n) (adgStart env.kernel X y) = .error .attributeError := by
      obtain ⟨k, hk⟩ : ∃ k, 2 * n = k + 1 := ⟨2 * n - 1, by omega⟩
      conv_lhs => rw [hk]
      unfold adgLoop
      rw [if_neg (by omega), ← hk, hturn]
    rw [hloop]
    rfl
  · intro h0
    rw [hrun, if_pos (List.length_eq_zero_iff.1 (by rw [hl0]; exact List.count_eq_zero.2 h0))]

/-- **Repeated rows.** If no clustering of the rows labelled 1 has a score below infinity - so it is when they are all equal - ADG fails with
an `AttributeError`. -/
theorem C109_identical {env : AdgEnv} {par : AdgParams} {f d : Nat} {X : List Row} {y : List Int} {a b : Int} (hwf : WF d X y)
    (hmin : IsMinority y a b) (h2 : 2 < y.count a) (hreq : requested par.proportion (y.count b) (y.count a) ≠ 0) (h1 : 1 ∈ y)
    (hbic : ∀ c, env.kbic d c (classRows X y 1) = .posInf) : adgRun env par (f + 1) d X y = .error .attributeError := by
  obtain ⟨s, hs, rfl, rfl⟩ := stats_of_isMinority hmin
  obtain ⟨hm, hM, hab⟩ := stats_min_mem hs
  have hl1 := classRows_length hwf.1 1
  have h1' := List.count_pos_iff.2 h1
  set n := requested par.proportion (y.count s.majLabel) (y.count s.minLabel) with hn
  rw [adgRun_succ, sample_default hs, if_neg (by omega)]
  unfold adgAlg
  rw [stats_count hs hm, stats_count hs hM, detN_eq_requested, ok_bind, if_neg hreq]
  simp only
  rw [if_neg]
  · have hha : (adgStart env.kernel X y).hat = classRows X y 1 := by simp only [adgStart, selectLabel_eq_classRows]
    have hturn : adgTurn env par s.minLabel d 0 (2 * n / 2) (adgStart env.kernel X y) = .error .attributeError := by
      unfold adgTurn
      rw [hha, adgPick_none (fun c _ _ => hbic c)]
    have hloop : adgLoop env par s.minLabel d (2 * n) 0 (2 * n) (adgStart env.kernel X y) = .error .attributeError := by
      obtain ⟨k, hk⟩ : ∃ k, 2 * n = k + 1 := ⟨2 * n - 1, by omega⟩
      conv_lhs => rw [hk]
      unfold adgLoop
      rw [if_neg (by omega), ← hk, hturn]
    rw [← hn, hloop]
    rfl
  · intro h
    have := congrArg List.length h
    simp only [adgStart, AdgState.X, selectLabel_eq_classRows, List.length_append, List.length_nil] at this
    omega

/-! ## The matrices -/

theorem zipWith_map_same {α : Type} (f g : α → Row) (l : List α) :
    List.zipWith (· ++ ·) (l.map f) (l.map g) = l.map (fun x => f x ++ g x) := by
  induction l with
  | nil => rfl
  | cons x l ih => simp [ih]

theorem dotRow_swap (a b : Row) : dotRow a b = dotRow b a := by
  unfold dotRow
  rw [List.zipWith_comm]
  simp only [mul_comm]

theorem adgBlock_dot (P Q : List Row) : adgBlock (adgDot P P) (adgDot P Q) (adgDot Q Q) = adgDot (P ++ Q) (P ++ Q) := by
  have ht : (List.range (adgDot Q Q).length).map (fun j => (adgDot P Q).map (fun r => r.getD j 0)) =
      Q.map (fun s => P.map (fun r => dotRow s r)) := by
    apply List.ext_getElem
    · simp [adgDot]
    · intro i h1 h2
      have hi : i < Q.length := by simpa [adgDot] using h1
      simp only [adgDot, List.getElem_map, List.getElem_range, List.map_map]
      apply List.map_congr_left
      intro r _
      simp [List.getD_eq_getElem?_getD, hi, dotRow_swap]
  unfold adgBlock
  rw [ht]
  unfold adgDot
  rw [zipWith_map_same, zipWith_map_same, List.map_append]
  simp only [List.map_append]

theorem adgExtend_K {kernel : Row → Row → ℚ} (hsym : ∀ a b, kernel a b = kernel b a) {a : Int} {st : AdgState} {z : List Row}
    (hK : st.K = adgKernel kernel st.X st.X) :
    (adgExtend kernel a st z).K = adgKernel kernel (st.X ++ z) (st.X ++ z) := by
  simp only [adgExtend]
  unfold adgKernel
  rw [zipWith_map_same, List.map_append]
  simp only [List.map_append]
  congr 1
  apply List.ext_getElem
  · simp [hK, adgKernel]
  · intro i h1 h2
    have hi : i < st.X.length := by simpa using h2
    simp only [List.getElem_map, List.getElem_zip, List.getElem_range, List.map_map]
    congr 1
    · simp [hK, adgKernel]
    · apply List.map_congr_left
      intro r _
      simp [List.getD_eq_getElem?_getD, hi, hsym]

/-- The mean of the kernel values between `x` and the rows of `S`. -/
def kernelMean (kernel : Row → Row → ℚ) (S : List Row) (x : Row) : ℚ := (S.map (kernel x)).sum / S.length

/-- The matrices describe the current rows: all kernel values, and the products of the columns of the rows labelled 0. -/
def AdgMatrices (kernel : Row → Row → ℚ) (st : AdgState) : Prop :=
  st.K = adgKernel kernel st.X st.X ∧ st.kMinus2 = adgDot (adgKernel kernel st.X st.minus) (adgKernel kernel st.X st.minus) ∧
    st.mMinus = st.X.map (kernelMean kernel st.minus) ∧
    st.M = (st.X.map (fun x => (kernelMean kernel st.minus x - kernelMean kernel st.hat x) ^ 2)).sum

theorem adgMean_kernel (kernel : Row → Row → ℚ) (A S : List Row) : (adgKernel kernel A S).map adgMean = A.map (kernelMean kernel S) := by
  simp [adgKernel, Function.comp_def, adgMean, kernelMean]

theorem dotRow_diff {α : Type} (f g : α → ℚ) (A : List α) :
    dotRow (List.zipWith (· - ·) (A.map f) (A.map g)) (List.zipWith (· - ·) (A.map f) (A.map g)) = (A.map (fun x => (f x - g x) ^ 2)).sum := by
  induction A with
  | nil => rfl
  | cons x A ih => simp only [dotRow, List.map_cons, List.zipWith_cons_cons, List.sum_cons] at ih ⊢; rw [ih]; ring

theorem adgKernel_take (kernel : Row → Row → ℚ) (A U V : List Row) :
    (adgKernel kernel A (U ++ V)).map (fun r => r.take U.length) = adgKernel kernel A U := by
  simp [adgKernel, Function.comp_def, List.take_left']

theorem adgKernel_drop (kernel : Row → Row → ℚ) (A U V : List Row) :
    (adgKernel kernel A (U ++ V)).map (fun r => r.drop U.length) = adgKernel kernel A V := by
  simp [adgKernel, Function.comp_def, List.drop_left']

/-- **The bookkeeping of ADG.** The kernel matrix, the products for the rows labelled 0, their means and the distance of the class means
are right at the start and stay right when rows are added. -/
theorem C109_matrices {kernel : Row → Row → ℚ} (hsym : ∀ a b, kernel a b = kernel b a) :
    (∀ X y, AdgMatrices kernel (adgStart kernel X y)) ∧
    ∀ st z a, AdgMatrices kernel st → AdgMatrices kernel (adgUpdate (adgExtend kernel a st z) z.length) := by
  constructor
  · intro X y
    refine ⟨rfl, ?_, ?_, ?_⟩
    · simp only [adgStart, AdgState.X, adgKernel_take]
    · simp only [adgStart, AdgState.X, adgKernel_take, adgMean_kernel]
    · simp only [adgStart, AdgState.X, adgKernel_take, adgKernel_drop, adgMean_kernel, dotRow_diff]
  · rintro st z a ⟨hK, hM2, _, _⟩
    have hK' := adgExtend_K hsym (a := a) (z := z) hK
    have hXz : st.X ++ z = st.minus ++ (st.hat ++ z) := by simp [AdgState.X]
    have hX' : (adgUpdate (adgExtend kernel a st z) z.length).X = st.X ++ z := by simp [AdgState.X, adgUpdate, adgExtend]
    have hmin' : (adgUpdate (adgExtend kernel a st z) z.length).minus = st.minus := rfl
    have hhat' : (adgUpdate (adgExtend kernel a st z) z.length).hat = st.hat ++ z := rfl
    have htake : ((adgExtend kernel a st z).K.map (fun r => r.take st.minus.length)) = adgKernel kernel (st.X ++ z) st.minus := by
      rw [hK']; conv_lhs => rw [hXz]
      rw [adgKernel_take, ← hXz]
    have hdrop : ((adgExtend kernel a st z).K.map (fun r => r.drop st.minus.length)) = adgKernel kernel (st.X ++ z) (st.hat ++ z) := by
      rw [hK']; conv_lhs => rw [hXz]
      rw [adgKernel_drop, ← hXz]
    have hold : (adgExtend kernel a st z).K.length - z.length = st.X.length := by rw [hK']; simp [adgKernel]
    refine ⟨?_, ?_, ?_, ?_⟩
    · rw [hX']; exact hK'
    · rw [hX', hmin']
      show adgBlock st.kMinus2 (adgDot (((adgExtend kernel a st z).K.map (fun r => r.take st.minus.length)).take
        ((adgExtend kernel a st z).K.length - z.length)) (((adgExtend kernel a st z).K.map (fun r => r.take st.minus.length)).drop
        ((adgExtend kernel a st z).K.length - z.length))) (adgDot (((adgExtend kernel a st z).K.map (fun r => r.take st.minus.length)).drop
        ((adgExtend kernel a st z).K.length - z.length)) (((adgExtend kernel a st z).K.map (fun r => r.take st.minus.length)).drop
        ((adgExtend kernel a st z).K.length - z.length))) = _
      rw [htake, hold, hM2]
      have h1 : (adgKernel kernel (st.X ++ z) st.minus).take st.X.length = adgKernel kernel st.X st.minus := by simp [adgKernel]
      have h2 : (adgKernel kernel (st.X ++ z) st.minus).drop st.X.length = adgKernel kernel z st.minus := by simp [adgKernel]
      rw [h1, h2, adgBlock_dot]
      simp [adgKernel]
    · rw [hX', hmin']
      show ((adgExtend kernel a st z).K.map (fun r => r.take st.minus.length)).map adgMean = _
      rw [htake, adgMean_kernel]
    · rw [hX', hmin', hhat']
      show dotRow (List.zipWith (· - ·) (((adgExtend kernel a st z).K.map (fun r => r.take st.minus.length)).map adgMean)
        (((adgExtend kernel a st z).K.map (fun r => r.drop st.minus.length)).map adgMean)) (List.zipWith (· - ·)
        (((adgExtend kernel a st z).K.map (fun r => r.take st.minus.length)).map adgMean)
        (((adgExtend kernel a st z).K.map (fun r => r.drop st.minus.length)).map adgMean)) = _
      rw [htake, hdrop, adgMean_kernel, adgMean_kernel, dotRow_diff]

/-- How the kernel values of `a` and `b` with the rows of `S` vary together around their means. -/
def kernelScatter (kernel : Row → Row → ℚ) (S : List Row) (a b : Row) : ℚ :=
  (S.map (fun x => (kernel a x - kernelMean kernel S a) * (kernel b x - kernelMean kernel S b))).sum

theorem adgZip_map {f : ℚ → ℚ → ℚ} (g h : Row → Row → ℚ) (X : List Row) :
    adgZip f (X.map (fun a => X.map (g a))) (X.map (fun a => X.map (h a))) = X.map (fun a => X.map (fun b => f (g a b) (h a b))) := by
  simp [adgZip, List.zipWith_map, List.zipWith_self]

theorem sum_centred {α : Type} (f g : α → ℚ) (u v : ℚ) (S : List α) : (S.map (fun x => (f x - u) * (g x - v))).sum =
    dotRow (S.map f) (S.map g) - v * (S.map f).sum - u * (S.map g).sum + S.length * u * v := by
  induction S with
  | nil => simp [dotRow]
  | cons x S ih =>
    simp only [dotRow, List.map_cons, List.zipWith_cons_cons, List.sum_cons, List.length_cons] at ih ⊢
    rw [ih]; push_cast; ring

theorem kernelScatter_eq (kernel : Row → Row → ℚ) (S : List Row) (a b : Row) : kernelScatter kernel S a b =
    dotRow (S.map (kernel a)) (S.map (kernel b)) - (S.map (kernel a)).sum * (S.map (kernel b)).sum / S.length := by
  rw [kernelScatter, sum_centred, kernelMean, kernelMean]
  rcases S with _ | ⟨x, S⟩
  · simp [dotRow]
  · have : (((x :: S).length : Nat) : ℚ) ≠ 0 := by simp; positivity
    field_simp
    ring

/-- **The scatter within the classes** is right at the start: entry by entry it is the sum over both classes of the products of the
deviations from the class means. -/
theorem C109_within {kernel : Row → Row → ℚ} (X : List Row) (y : List Int) :
    (adgStart kernel X y).N = (classRows X y 0 ++ classRows X y 1).map (fun a => (classRows X y 0 ++ classRows X y 1).map (fun b =>
      kernelScatter kernel (classRows X y 1) a b + kernelScatter kernel (classRows X y 0) a b)) := by
  simp only [adgStart, adgKernel_take, adgKernel_drop, selectLabel_eq_classRows]
  generalize classRows X y 0 = U
  generalize classRows X y 1 = V
  generalize U ++ V = A
  have e1 : ∀ S, adgDot (adgKernel kernel A S) (adgKernel kernel A S) =
      A.map (fun a => A.map (fun b => dotRow (S.map (kernel a)) (S.map (kernel b)))) := by
    intro S; simp [adgDot, adgKernel, Function.comp_def]
  have e2 : ∀ S : List Row, (adgOuter ((adgKernel kernel A S).map List.sum) ((adgKernel kernel A S).map List.sum)).map
      (fun r => r.map (fun v => v / (S.length : ℚ))) =
      A.map (fun a => A.map (fun b => (S.map (kernel a)).sum * (S.map (kernel b)).sum / S.length)) := by
    intro S; simp [adgOuter, adgKernel, Function.comp_def]
  rw [e1, e1, e2, e2, adgZip_map, adgZip_map, adgZip_map]
  apply List.map_congr_left
  intro a _
  apply List.map_congr_left
  intro b _
  rw [kernelScatter_eq, kernelScatter_eq]
  ring

/-! ## Witnesses -/

/-- Four rows labelled 0, three labelled 1. -/
def adgX : List Row := [[1], [2], [3], [4], [5], [6], [7]]
def adgY : List Int := [1, 1, 1, 0, 0, 0, 0]

/-- **The products for the rows labelled 1 are wrong** after rows were added: the wrong columns are used. -/
theorem C109_scatter : (adgStart dotRow adgX adgY).kPlus2 = adgDot (adgKernel dotRow (adgStart dotRow adgX adgY).X [[1], [2], [3]])
      (adgKernel dotRow (adgStart dotRow adgX adgY).X [[1], [2], [3]]) ∧
    ∃ st : AdgState, st = adgUpdate (adgExtend dotRow 1 (adgStart dotRow adgX adgY) [[1]]) 1 ∧ st.hat = [[1], [2], [3], [1]] ∧
      st.kPlus2 ≠ adgDot (adgKernel dotRow st.X st.hat) (adgKernel dotRow st.X st.hat) :=
  ⟨by decide +kernel, _, rfl, by decide +kernel, by decide +kernel⟩

/-- **The scatter within the classes is wrong** after rows were added: the sums are the means times the number of all rows, not of the
rows of the class. Even for a constant kernel, where nothing varies, it is not zero. -/
theorem C109_within_not : ∃ st : AdgState, st = adgUpdate (adgExtend (fun _ _ => 1) 1 (adgStart (fun _ _ => 1) adgX adgY) [[1]]) 1 ∧
    (∀ a ∈ st.X, ∀ b ∈ st.X, kernelScatter (fun _ _ => 1) st.hat a b + kernelScatter (fun _ _ => 1) st.minus a b = 0) ∧
    ∃ row ∈ st.N, ∃ v ∈ row, v ≠ 0 :=
  ⟨_, rfl, by decide +kernel, by decide +kernel⟩

/-- Every row that is drawn is kept. -/
def adgEnv (solve : List Row → Row → Option Row) : AdgEnv :=
  { kernel := dotRow, kmeans := fun _ c rows => (List.range rows.length).map (fun i => i % c), kbic := fun _ c _ => .fin c,
    gmm := fun _ c _ => .ok (.fin (-c)), draw := fun _ _ _ _ q => List.replicate q [1, 1], solve := solve,
    pca := fun _ _ => (fun r => r.take 1, fun r => r ++ [0]) }

theorem adgEnv_ok (solve : List Row → Row → Option Row) (rows : List Row) : AdgOK (adgEnv solve) rows where
  kbic := fun _ c _ => ⟨c, rfl⟩
  kmeans := fun _ c zs i hc hi => List.mem_map.2 ⟨i, List.mem_range.2 (by omega), Nat.mod_eq_of_lt hi⟩
  gmm := fun _ c => ⟨-c, rfl⟩
  draw := fun _ _ _ q => by simp [adgEnv]

def adgPar : AdgParams := { proportion := 1, lam := 1, mu := 1, k := 12, gamma := 1 }

/-- **More rows than asked for.** Three minority and five majority rows, two new rows asked for: three are added, the minority is then the
larger class. -/
theorem C109_more : WF 2 exX exY ∧ IsMinority exY 1 0 ∧ requested adgPar.proportion (exY.count 0) (exY.count 1) = 2 ∧
    ∃ X' y', adgRun (adgEnv fun _ b => some (b.map fun _ => 1)) adgPar 3 2 exX exY = .ok (X', y') ∧ y'.count 1 = 6 ∧ y'.count 0 = 5 :=
  ⟨⟨rfl, by decide +kernel⟩, exY_min, by decide +kernel,
    [[5, 5], [6, 5], [5, 6], [6, 6], [7, 7], [0, 0], [1, 0], [0, 1], [1, 1], [1, 1], [1, 1]], [0, 0, 0, 0, 0, 1, 1, 1, 1, 1, 1],
    by decide +kernel, by decide, by decide⟩

/-- **The input rows may be changed.** After a singular matrix the rows are projected: not even the input rows come back. -/
theorem C109_projected : ∃ X', adgRun (adgEnv fun _ _ => none) adgPar 3 2 exX exY = .ok (X', [0, 0, 0, 0, 0, 1, 1, 1]) ∧
    [0, 1] ∈ exX ∧ [0, 1] ∉ X' ∧ X' = [[5, 0], [6, 0], [5, 0], [6, 0], [7, 0], [0, 0], [1, 0], [0, 0]] :=
  ⟨_, by decide +kernel, by decide +kernel, by decide +kernel, rfl⟩

/-! ## The hypotheses can be met -/

example : 0 ∈ exY ∧ 2 ≤ exY.count 1 ∧ 2 < exY.count 1 := by decide
example : AdgOK (adgEnv fun _ b => some (b.map fun _ => 1)) (classRows exX exY 1) := adgEnv_ok _ _
/-- The majority is labelled 1, the minority 2: no row of the minority comes back. -/
example : IsMinority [2, 2, 2, 1, 1, 1, 1, 1] 2 1 ∧
    adgRun (adgEnv fun _ b => some (b.map fun _ => 1)) adgPar 3 2 exX [2, 2, 2, 1, 1, 1, 1, 1] =
      .ok ([[5, 5], [6, 5], [5, 6], [6, 6], [7, 7]], [1, 1, 1, 1, 1]) :=
  ⟨⟨by decide, by decide, by decide, Or.inl (by decide)⟩, by decide +kernel⟩
/-- The minority is labelled 0. -/
example : IsMinority [0, 0, 0, 1, 1, 1, 1, 1] 0 1 := ⟨by decide, by decide, by decide, Or.inl (by decide)⟩
/-- The labels 0 (majority) and 2 (minority). -/
example : adgRun (adgEnv fun _ b => some (b.map fun _ => 1)) adgPar 3 2 exX [2, 2, 2, 0, 0, 0, 0, 0] = .error .attributeError := by
  decide +kernel
example : ∀ a b : Row, dotRow a b = dotRow b a := dotRow_swap

/-! ## The numbers of neighbours of the clusters -/

/-- **Shares of the neighbours.** The `k` neighbours are divided among the clusters in inverse proportion to their sizes, rounded down, but every
cluster gets at least one; a smaller cluster gets at least as many as a larger one. -/
theorem C109_shares {k : Nat} {lc : List ℚ} (hl : ∀ l ∈ lc, 0 < l) :
    (adgKc k lc).length = lc.length ∧
    ∀ i (hi : i < lc.length) v, (adgKc k lc)[i]? = some v →
      1 ≤ v ∧ (v = 1 ∨ v ≤ 1 / lc[i] / (lc.map (fun l => 1 / l)).sum * k) ∧ 1 / lc[i] / (lc.map (fun l => 1 / l)).sum * k < v + 1 ∧
      ∀ j (hj : j < lc.length) w, (adgKc k lc)[j]? = some w → lc[i] ≤ lc[j] → w ≤ v := by
  have hS : 0 ≤ (lc.map (fun l => 1 / l)).sum := List.sum_nonneg fun x hx => by
    obtain ⟨l, hm, rfl⟩ := List.mem_map.1 hx
    exact (one_div_pos.2 (hl l hm)).le
  have hq : ∀ i (hi : i < lc.length), 0 ≤ 1 / lc[i] / (lc.map (fun l => 1 / l)).sum * (k : ℚ) := fun i hi =>
    mul_nonneg (div_nonneg (one_div_pos.2 (hl _ (List.getElem_mem hi))).le hS) (Nat.cast_nonneg k)
  have hv : ∀ i (hi : i < lc.length) v, (adgKc k lc)[i]? = some v →
      v = max 1 (⌊1 / lc[i] / (lc.map (fun l => 1 / l)).sum * (k : ℚ)⌋ : ℚ) := by
    intro i hi v h
    unfold adgKc at h
    rw [List.getElem?_map, List.getElem?_eq_getElem hi] at h
    injection h with h
    subst h
    dsimp only
    have h0 : 0 ≤ ⌊1 / lc[i] / (lc.map (fun l => 1 / l)).sum * (k : ℚ)⌋ := Int.floor_nonneg.2 (hq i hi)
    split
    · rename_i hz
      rw [hz]
      simp
    · rename_i hz
      rw [max_eq_right]
      exact_mod_cast (by omega : 1 ≤ ⌊1 / lc[i] / (lc.map (fun l => 1 / l)).sum * (k : ℚ)⌋)
  refine ⟨by simp [adgKc], fun i hi v h => ?_⟩
  have e := hv i hi v h
  refine ⟨by rw [e]; exact le_max_left _ _, ?_, ?_, fun j hj w hw hij => ?_⟩
  · rcases max_choice (1 : ℚ) (⌊1 / lc[i] / (lc.map (fun l => 1 / l)).sum * (k : ℚ)⌋ : ℚ) with hm | hm
    · exact Or.inl (e.trans hm)
    · exact Or.inr (by rw [e, hm]; exact Int.floor_le _)
  · refine (Int.lt_floor_add_one _).trans_le ?_
    rw [e]
    linarith [le_max_right (1 : ℚ) (⌊1 / lc[i] / (lc.map (fun l => 1 / l)).sum * (k : ℚ)⌋ : ℚ)]
  · rw [e, hv j hj w hw]
    refine max_le_max le_rfl ?_
    have : 1 / lc[j] / (lc.map (fun l => 1 / l)).sum * (k : ℚ) ≤ 1 / lc[i] / (lc.map (fun l => 1 / l)).sum * (k : ℚ) :=
      mul_le_mul_of_nonneg_right (div_le_div_of_nonneg_right (one_div_le_one_div_of_le (hl _ (List.getElem_mem hi)) hij) hS) (Nat.cast_nonneg k)
    exact_mod_cast Int.floor_le_floor this

/-- Non-vacuity: twelve neighbours, clusters of 1, 2 and 30 rows. -/
example : adgKc 12 [1, 2, 30] = [7, 3, 1] := by decide +kernel

end Verif

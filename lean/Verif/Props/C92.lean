import Verif.Model.Pdfos
import Verif.Props.C88
import Mathlib.Tactic.Linarith
import Mathlib.Tactic.FieldSimp
import Mathlib.Tactic.Ring

/-!
# C92: PDFOS
-/

namespace Verif

/-! ## Specification -/

/-- `s` has the least error of the candidates; it is zero if no error is a number below infinity. -/
def BestSigma (err : ℚ → XF) (sigmas : List ℚ) (s : ℚ) : Prop :=
  (s ∈ sigmas ∧ XF.lt (err s) .posInf = true ∧ ∀ s' ∈ sigmas, XF.lt (err s') (err s) = false) ∨
  (s = 0 ∧ ∀ s' ∈ sigmas, XF.lt (err s') .posInf = false)

/-- The directions in which rows with the spectrum `e` are spread. -/
def spreadAxes (e : List (ℚ × Row)) : List Row := (e.filter (fun p => decide (1 / 50 < p.1))).map Prod.snd

/-- The coordinates of `r` along the axes. -/
def alongAxes (d : Nat) (m : Row) (vs : List Row) (r : Row) : Row := vs.map (fun v => coordAlong d m v r)

/-- The row `x` is made from `r`: `r`, scaled, is projected to the axes `vs` through `m`, moved by `z`, and scaled back. -/
def PdOrigin (d : Nat) (sc : Row × Row) (m : Row) (vs : List Row) (r z x : Row) : Prop :=
  x.length = d ∧ ∀ k, k < d → x.getD k 0 = sc.1.getD k 0 + sc.2.getD k 0 * (m.getD k 0 +
    ((List.range vs.length).map (fun j => ((alongAxes d m vs (scaleRow sc.1 sc.2 r)).getD j 0 + z.getD j 0) * (vs.getD j []).getD k 0)).sum)

/-- What is known of the external functions, for rows with `d` columns. -/
structure PdEnv.OK (env : PdEnv) (d : Nat) : Prop where
  fit : ∀ rows, (env.fit rows).1.length = d ∧ (env.fit rows).2.length = d
  eig : ∀ rows e, env.eig rows = some e → ∀ p ∈ e, p.2.length = d
  normal : ∀ c S i, (env.normal c S i).length = c
  base : ∀ m i, 0 < m → env.base m i < m

/-! ## Proofs -/

theorem pdSigmaLoop_spec (err : ℚ → XF) : ∀ (ss seen : List ℚ) (best : ℚ × XF),
    ((best.1 ∈ seen ∧ best.2 = err best.1 ∧ XF.lt (err best.1) .posInf = true ∧ ∀ s' ∈ seen, XF.lt (err s') (err best.1) = false) ∨
      (best = (0, .posInf) ∧ ∀ s' ∈ seen, XF.lt (err s') .posInf = false)) →
    BestSigma err (seen ++ ss) (pdSigmaLoop err ss best).1 := by
  intro ss
  induction ss with
  | nil =>
    intro seen best h
    rw [List.append_nil]
    rcases h with ⟨h1, _, h3, h4⟩ | ⟨h1, h2⟩
    · exact Or.inl ⟨h1, h3, h4⟩
    · exact Or.inr ⟨by rw [h1]; rfl, h2⟩
  | cons s ss ih =>
    intro seen best h
    unfold pdSigmaLoop
    rw [show seen ++ s :: ss = (seen ++ [s]) ++ ss by simp]
    apply ih
    by_cases hb : XF.lt (err s) best.2 = true
    · rw [if_pos hb]
      left
      refine ⟨by simp, rfl, ?_, ?_⟩
      · rcases h with ⟨_, h2, h3, _⟩ | ⟨h1, _⟩
        · rw [h2] at hb
          exact XF.lt_trans' hb h3
        · rw [h1] at hb
          exact hb
      · intro s' hs'
        rw [Bool.eq_false_iff]
        intro hlt
        rcases List.mem_append.1 hs' with hs' | hs'
        · have h5 := XF.lt_trans' hlt hb
          rcases h with ⟨_, h2, _, h4⟩ | ⟨h1, h2⟩
          · rw [h2, h4 s' hs'] at h5; cases h5
          · rw [h1, h2 s' hs'] at h5; cases h5
        · rw [List.mem_singleton.1 hs'] at hlt
          cases he : err s <;> rw [he] at hlt <;> simp [XF.lt] at hlt
    · rw [if_neg hb]
      rw [Bool.not_eq_true] at hb
      rcases h with ⟨h1, h2, h3, h4⟩ | ⟨h1, h2⟩
      · left
        refine ⟨by simp [h1], h2, h3, ?_⟩
        intro s' hs'
        rcases List.mem_append.1 hs' with hs' | hs'
        · exact h4 s' hs'
        · rw [List.mem_singleton.1 hs', ← h2]; exact hb
      · right
        refine ⟨h1, ?_⟩
        intro s' hs'
        rcases List.mem_append.1 hs' with hs' | hs'
        · exact h2 s' hs'
        · rw [List.mem_singleton.1 hs']
          rw [h1] at hb
          exact hb

theorem pdSigma_spec (env : PdEnv) (rows Sinv : List Row) :
    BestSigma (fun s => env.err s (env.reduce rows) Sinv) env.sigmas (pdSigma env rows Sinv) := by
  have := pdSigmaLoop_spec (fun s => env.err s (env.reduce rows) Sinv) env.sigmas [] (0, .posInf) (Or.inr ⟨rfl, by simp⟩)
  rwa [List.nil_append] at this

theorem sum_map_swap {α β : Type} (l : List α) (l' : List β) (f : α → β → ℚ) :
    (l.map (fun a => (l'.map (f a)).sum)).sum = (l'.map (fun b => (l.map (fun a => f a b)).sum)).sum := by
  induction l with
  | nil => simp
  | cons r l ih =>
    simp only [List.map_cons, List.sum_cons, ih]
    rw [← List.sum_map_add]

theorem zipWith_replicate_left' {α β γ : Type} (f : α → β → γ) (a : α) (l : List β) : List.zipWith f (List.replicate l.length a) l = l.map (f a) := by
  induction l with
  | nil => rfl
  | cons x l ih => simp [List.replicate_succ, ih]

theorem pdSampleLoop_spec {Xb raw : List Row} : ∀ (us : List (Nat × Nat)) (loc : Nat), (∀ p ∈ us, p.1 < Xb.length) →
    loc + (us.map Prod.snd).sum ≤ raw.length →
    pdSampleLoop Xb raw us loc = .ok (List.zipWith (fun b z => Row.add (Xb.getD b []) z) (us.flatMap (fun p => List.replicate p.2 p.1)) (raw.drop loc)) := by
  intro us
  induction us with
  | nil => intro loc _ _; simp [pdSampleLoop]
  | cons p us ih =>
    obtain ⟨b, c⟩ := p
    intro loc h1 h2
    simp only [List.map_cons, List.sum_cons] at h2
    have hb := h1 (b, c) (List.mem_cons_self ..)
    unfold pdSampleLoop
    rw [getRow_ok.2 (List.getElem?_eq_getElem hb), ok_bind, ih (loc + c) (fun p hp => h1 p (List.mem_cons_of_mem _ hp)) (by omega), ok_bind]
    rw [List.flatMap_cons]
    have hsplit : raw.drop loc = (raw.drop loc).take c ++ raw.drop (loc + c) := by
      rw [← List.drop_drop, List.take_append_drop]
    have hlen : ((raw.drop loc).take c).length = c := by simp; omega
    conv_rhs => rw [hsplit]
    rw [List.zipWith_append (by simp [hlen])]
    have hz := zipWith_replicate_left' (fun b z => Row.add (Xb.getD b []) z) b ((raw.drop loc).take c)
    rw [hlen] at hz
    rw [hz]
    have : Xb.getD b [] = Xb[b] := by simp [List.getD_eq_getElem?_getD, hb]
    simp only [this]
    rfl

theorem flatMap_count_perm {l u : List Nat} (hnd : u.Nodup) (hmem : ∀ a, a ∈ u ↔ a ∈ l) :
    (u.flatMap (fun v => List.replicate (l.count v) v)).Perm l := by
  have key : ∀ (w : List Nat) (a : Nat), w.Nodup → (w.flatMap (fun v => List.replicate (l.count v) v)).count a = if a ∈ w then l.count a else 0 := by
    intro w a
    induction w with
    | nil => simp
    | cons v w ih =>
      intro hw
      obtain ⟨h1, h2⟩ := List.nodup_cons.1 hw
      rw [List.flatMap_cons, List.count_append, ih h2, List.count_replicate]
      by_cases hav : v = a
      · subst hav
        simp [h1]
      · have : ¬ a = v := fun h => hav h.symm
        simp [hav, this]
  rw [List.perm_iff_count]
  intro a
  rw [key u a hnd]
  by_cases h : a ∈ u
  · rw [if_pos h]
  · rw [if_neg h, List.count_eq_zero_of_not_mem (fun hl => h ((hmem a).2 hl))]

theorem flatMap_replicate_sorted (l : List Nat) : ∀ u : List Nat, u.Pairwise (· < ·) →
    (u.flatMap (fun v => List.replicate (l.count v) v)).Pairwise (· ≤ ·) := by
  intro u
  induction u with
  | nil => simp
  | cons v u ih =>
    intro h
    obtain ⟨h1, h2⟩ := List.pairwise_cons.1 h
    rw [List.flatMap_cons, List.pairwise_append]
    refine ⟨List.pairwise_replicate.2 (Or.inr le_rfl), ih h2, ?_⟩
    intro a ha b hb
    rw [List.eq_of_mem_replicate ha]
    obtain ⟨w, hw, hb⟩ := List.mem_flatMap.1 hb
    rw [List.eq_of_mem_replicate hb]
    exact (h1 w hw).le

/-- The samples of the kernel estimate, as a list. -/
theorem pdSamples_spec {Xb : List Row} {z : Nat → Row} {base : Nat → Nat} {n : Nat} (hb : ∀ i, base i < Xb.length) :
    ∃ order : List Nat, order.Perm ((List.range n).map base) ∧ order.Pairwise (· ≤ ·) ∧
      pdSampleLoop Xb ((List.range n).map z) (npUniqueCounts ((List.range n).map base)) 0 =
        .ok (List.zipWith (fun b z => Row.add (Xb.getD b []) z) order ((List.range n).map z)) := by
  refine ⟨(npUnique ((List.range n).map base)).flatMap (fun v => List.replicate (((List.range n).map base).count v) v),
    flatMap_count_perm (npUnique_nodup _) (fun a => mem_npUnique), flatMap_replicate_sorted _ _ (npUnique_sorted _), ?_⟩
  rw [pdSampleLoop_spec]
  · unfold npUniqueCounts
    rw [List.flatMap_map, List.drop_zero]
  · intro p hp
    unfold npUniqueCounts at hp
    obtain ⟨v, hv, rfl⟩ := List.mem_map.1 hp
    rw [mem_npUnique] at hv
    obtain ⟨i, _, rfl⟩ := List.mem_map.1 hv
    exact hb i
  · unfold npUniqueCounts
    rw [List.map_map]
    have := sum_counts_eq_length (npUnique_nodup ((List.range n).map base)) (fun a => mem_npUnique)
    simp only [Function.comp_def] at this ⊢
    rw [this]
    simp

theorem pdTransform_eq {d : Nat} {m r : Row} {vs : List Row} (hm : m.length = d) (hr : r.length = d) (hv : ∀ v ∈ vs, v.length = d) :
    pdTransform m vs r = alongAxes d m vs r := by
  unfold pdTransform alongAxes
  apply List.map_congr_left
  intro v hv'
  exact coordAlong_eq hm (hv v hv') hr

/-- **PDFOS.** The input comes back if the covariance matrix of the scaled minority rows has no spectrum, if they are spread along a
single axis, or if the metric tensor, of the rows *labelled 1*, does not exist or has no inverse. If they are spread along no axis the
call raises. Otherwise exactly the requested number of rows is added: projections of minority rows to the axes, moved by normal vectors
whose covariance is `sigma` times the inverse of the metric tensor; they come in the order of the minority rows. -/
theorem C92_pdfos {env : PdEnv} {d : Nat} (henv : env.OK d) (hd : 2 ≤ d) {proportion : ℚ} {a b : Int} {X : List Row} {y : List Int}
    (hwf : WF d X y) (hmin : IsMinority y a b) (h3 : 2 < y.count a) (hn : 0 < requested proportion (y.count b) (y.count a)) :
    ∃ (As : List Row) (m : Row), As = (classRows X y a).map (scaleRow (env.fit X).1 (env.fit X).2) ∧ IsMean d As m ∧
      match env.eig As with
      | none => sample defaultChecks d (pdAlg env proportion d) X y = .ok (X, y)
      | some e =>
        if (spreadAxes e).length = 1 then sample defaultChecks d (pdAlg env proportion d) X y = .ok (X, y)
        else
          match env.tensor ((classRows X y 1).map (fun r => alongAxes d m (spreadAxes e) (scaleRow (env.fit X).1 (env.fit X).2 r))) with
          | none => sample defaultChecks d (pdAlg env proportion d) X y = .ok (X, y)
          | some Sinv =>
            match env.inv Sinv with
            | none => sample defaultChecks d (pdAlg env proportion d) X y = .ok (X, y)
            | some S =>
              if spreadAxes e = [] then sample defaultChecks d (pdAlg env proportion d) X y = .error .valueError
              else ∃ (sigma : ℚ) (order : List Nat) (new : List Row),
                BestSigma (fun s => env.err s (env.reduce (As.map (alongAxes d m (spreadAxes e)))) Sinv) env.sigmas sigma ∧
                order.Perm ((List.range (requested proportion (y.count b) (y.count a))).map (env.base (y.count a))) ∧ order.Pairwise (· ≤ ·) ∧
                new.length = requested proportion (y.count b) (y.count a) ∧
                sample defaultChecks d (pdAlg env proportion d) X y =
                  .ok (X ++ new, y ++ List.replicate (requested proportion (y.count b) (y.count a)) a) ∧
                ∀ i x, new[i]? = some x → ∃ c r, order[i]? = some c ∧ (classRows X y a)[c]? = some r ∧
                  PdOrigin d (env.fit X) m (spreadAxes e) r (env.normal (spreadAxes e).length (S.map (Row.smul sigma)) i) x := by
  obtain ⟨s, hs, rfl, rfl⟩ := stats_of_isMinority hmin
  obtain ⟨hm, hM, hab⟩ := stats_min_mem hs
  have hxy := hwf.1
  have hA := classRows_length hxy s.minLabel
  obtain ⟨out, hout⟩ : ∃ out, out = sample defaultChecks d (pdAlg env proportion d) X y := ⟨_, rfl⟩
  rw [← hout]
  rw [sample_default hs, if_neg (by omega)] at hout
  unfold pdAlg at hout
  rw [stats_count hs hm, stats_count hs hM, detN_eq_requested, ok_bind, if_neg (by omega)] at hout
  simp only [selectLabel_eq_classRows] at hout
  obtain ⟨n, hne⟩ : ∃ n, n = requested proportion (y.count s.majLabel) (y.count s.minLabel) := ⟨_, rfl⟩
  rw [← hne] at hout hn ⊢
  obtain ⟨f1, f2⟩ := henv.fit X
  obtain ⟨sc, hsc⟩ : ∃ sc, sc = env.fit X := ⟨_, rfl⟩
  rw [← hsc] at hout f1 f2 ⊢
  have hrow : ∀ l, ∀ r ∈ classRows X y l, r.length = d := fun l r hr => hwf.2 r (mem_of_mem_classRows hr)
  obtain ⟨A, hAe⟩ : ∃ A, A = classRows X y s.minLabel := ⟨_, rfl⟩
  have hAr : ∀ r ∈ A, r.length = d := by rw [hAe]; exact hrow _
  rw [classRows_map, ← hAe] at hout
  rw [← hAe] at hA ⊢
  obtain ⟨As, hAs⟩ : ∃ As, As = A.map (scaleRow sc.1 sc.2) := ⟨_, rfl⟩
  rw [← hAs] at hout ⊢
  have hAsr : ∀ r ∈ As, r.length = d := by
    rw [hAs]
    intro r hr
    obtain ⟨r', hr', rfl⟩ := List.mem_map.1 hr
    exact scaleRow_length f1 f2 (hAr r' hr')
  have hAsne : As ≠ [] := List.length_pos_iff.1 (by rw [hAs, List.length_map]; omega)
  have hmean := meanRow_isMean hAsne hAsr
  obtain ⟨m, hme⟩ : ∃ m, m = meanRow d As := ⟨_, rfl⟩
  rw [← hme] at hmean
  have hml := hmean.1
  refine ⟨As, m, rfl, hmean, ?_⟩
  unfold pdKde pdFit at hout
  rw [if_neg (by omega)] at hout
  cases he : env.eig As with
  | none =>
    rw [he] at hout
    exact hout
  | some e =>
    rw [he] at hout
    have hvs : ∀ v ∈ spreadAxes e, v.length = d := by
      intro v hv
      unfold spreadAxes at hv
      obtain ⟨p, hp, rfl⟩ := List.mem_map.1 hv
      exact henv.eig _ _ he p (List.mem_of_mem_filter hp)
    simp only [Option.map_some, Option.bind_eq_bind, Option.bind_some] at hout
    rw [show (e.filter (fun p => decide (1 / 50 < p.1))).map Prod.snd = spreadAxes e from rfl, ← hme] at hout
    dsimp only
    generalize spreadAxes e = vs at *
    by_cases h1 : vs.length = 1
    · rw [if_pos h1]
      rw [if_pos h1] at hout
      exact hout
    · rw [if_neg h1]
      rw [if_neg h1] at hout
      have ht : classRows ((X.map (scaleRow sc.1 sc.2)).map (pdTransform m vs)) y 1 =
          (classRows X y 1).map (fun r => alongAxes d m vs (scaleRow sc.1 sc.2 r)) := by
        rw [classRows_map, classRows_map, List.map_map]
        apply List.map_congr_left
        intro r hr
        exact pdTransform_eq hml (scaleRow_length f1 f2 (hrow 1 r hr)) hvs
      have hXb : As.map (pdTransform m vs) = As.map (alongAxes d m vs) := by
        apply List.map_congr_left
        intro r hr
        exact pdTransform_eq hml (hAsr r hr) hvs
      rw [selectLabel_eq_classRows, ht, hXb] at hout
      generalize ((classRows X y 1).map (fun r => alongAxes d m vs (scaleRow sc.1 sc.2 r))) = R1 at *
      cases hT : env.tensor R1 with
      | none =>
        rw [hT] at hout
        exact hout
      | some Sinv =>
        rw [hT] at hout
        simp only [Option.bind_some] at hout
        dsimp only
        cases hS : env.inv Sinv with
        | none =>
          rw [hS] at hout
          exact hout
        | some S =>
          rw [hS] at hout
          simp only [Option.bind_some] at hout
          dsimp only
          by_cases h0 : vs = []
          · rw [if_pos h0]
            rw [if_pos (by rw [h0]; rfl)] at hout
            exact hout
          · rw [if_neg h0]
            have h0l := List.length_pos_iff.2 h0
            rw [if_neg (by omega)] at hout
            have hsig := pdSigma_spec env (As.map (alongAxes d m vs)) Sinv
            generalize pdSigma env (As.map (alongAxes d m vs)) Sinv = sigma at *
            have hlen : (As.map (alongAxes d m vs)).length = y.count s.minLabel := by rw [List.length_map, hAs, List.length_map]; omega
            obtain ⟨order, ho1, ho2, ho3⟩ := pdSamples_spec (Xb := As.map (alongAxes d m vs)) (z := env.normal vs.length (S.map (Row.smul sigma)))
              (base := env.base (As.map (alongAxes d m vs)).length) (n := n) (fun i => henv.base _ _ (by omega))
            rw [ho3] at hout
            rw [hlen] at ho1
            have hol : order.length = n := by rw [ho1.length_eq]; simp
            obtain ⟨new, hnew⟩ : ∃ new, new = ((List.zipWith (fun b z => Row.add ((As.map (alongAxes d m vs)).getD b []) z) order
              ((List.range n).map (env.normal vs.length (S.map (Row.smul sigma))))).map (pdInverse d m vs)).map (unscaleRow sc.1 sc.2) := ⟨_, rfl⟩
            have hnl : new.length = n := by rw [hnew]; simp [hol]
            refine ⟨sigma, order, new, hsig, ho1, ho2, hnl, ?_, ?_⟩
            · have hw : withSamples X y s.minLabel new = (X ++ new, y ++ List.replicate n s.minLabel) := by unfold withSamples; rw [hnl]
              rw [hout, ← hw, hnew]
              rfl
            · intro i x hx
              rw [hnew, List.map_map, List.getElem?_map, Option.map_eq_some_iff] at hx
              obtain ⟨t, ht, rfl⟩ := hx
              rw [List.getElem?_zipWith] at ht
              have hi : i < n := by
                by_contra hc
                rw [List.getElem?_eq_none (l := order) (by omega)] at ht
                simp at ht
              have hio : i < order.length := by omega
              rw [List.getElem?_eq_getElem hio, List.getElem?_map, List.getElem?_range hi] at ht
              simp only [Option.map_some, Option.some.injEq] at ht
              have hc : order[i] < A.length := by
                have := ho1.subset (List.getElem_mem hio)
                obtain ⟨j, _, hj⟩ := List.mem_map.1 this
                rw [← hj, hA]
                exact henv.base _ _ (by omega)
              refine ⟨order[i], A[order[i]], List.getElem?_eq_getElem hio, List.getElem?_eq_getElem hc, ?_⟩
              have hr : (As.map (alongAxes d m vs)).getD order[i] [] = alongAxes d m vs (scaleRow sc.1 sc.2 A[order[i]]) := by
                rw [hAs, List.map_map, List.getD_eq_getElem?_getD, List.getElem?_map, List.getElem?_eq_getElem hc]
                rfl
              rw [hr] at ht
              have hil : (pdInverse d m vs t).length = d := by simp [pdInverse]
              refine ⟨unscaleRow_length f1 f2 hil, ?_⟩
              intro k hk
              simp only [Function.comp]
              rw [unscaleRow_getD f1 f2 hil hk]
              unfold pdInverse
              rw [getD_map_range hk]
              have : ((List.range vs.length).map (fun j => t.getD j 0 * (vs.getD j []).getD k 0)) =
                  (List.range vs.length).map (fun j => ((alongAxes d m vs (scaleRow sc.1 sc.2 A[order[i]])).getD j 0 +
                    (env.normal vs.length (S.map (Row.smul sigma)) i).getD j 0) * (vs.getD j []).getD k 0) := by
                apply List.map_congr_left
                intro j hj
                rw [List.mem_range] at hj
                congr 1
                rw [← ht]
                have l1 : j < (alongAxes d m vs (scaleRow sc.1 sc.2 A[order[i]])).length := by simp [alongAxes, hj]
                have l2 : j < (env.normal vs.length (S.map (Row.smul sigma)) i).length := by rw [henv.normal]; exact hj
                unfold Row.add
                simp only [List.getD_eq_getElem?_getD, List.getElem?_zipWith, List.getElem?_eq_getElem l1, List.getElem?_eq_getElem l2]
                rfl
              rw [this]
              ring

/-- **One column.** Data with one column always come back unchanged. -/
theorem C92_one_column {env : PdEnv} {proportion : ℚ} {a b : Int} {X : List Row} {y : List Int} (hmin : IsMinority y a b) :
    sample defaultChecks 1 (pdAlg env proportion 1) X y = .ok (X, y) := by
  obtain ⟨s, hs, rfl, rfl⟩ := stats_of_isMinority hmin
  obtain ⟨hm, hM, hab⟩ := stats_min_mem hs
  rw [sample_default hs]
  split
  · rfl
  · unfold pdAlg
    rw [stats_count hs hm, stats_count hs hM, detN_eq_requested, ok_bind]
    split
    · rfl
    · rfl

/-- **All axes.** If the axes are an orthonormal basis, the new row is the minority row moved along the axes. -/
theorem C92_moved {d : Nat} {sc : Row × Row} {m : Row} {vs : List Row} {r z x : Row} (hs1 : sc.1.length = d) (hs2 : sc.2.length = d)
    (hpos : ∀ q ∈ sc.2, 0 < q) (hr : r.length = d)
    (hon : ∀ k l, k < d → l < d → ((List.range vs.length).map (fun j => (vs.getD j []).getD l 0 * (vs.getD j []).getD k 0)).sum = if k = l then 1 else 0)
    (h : PdOrigin d sc m vs r z x) : ∀ k, k < d → x.getD k 0 = r.getD k 0 +
      sc.2.getD k 0 * ((List.range vs.length).map (fun j => z.getD j 0 * (vs.getD j []).getD k 0)).sum := by
  intro k hk
  rw [h.2 k hk]
  obtain ⟨q, hq⟩ : ∃ q, q = scaleRow sc.1 sc.2 r := ⟨_, rfl⟩
  rw [← hq]
  have hsplit : ((List.range vs.length).map (fun j => ((alongAxes d m vs q).getD j 0 + z.getD j 0) * (vs.getD j []).getD k 0)).sum =
      ((List.range vs.length).map (fun j => (alongAxes d m vs q).getD j 0 * (vs.getD j []).getD k 0)).sum +
      ((List.range vs.length).map (fun j => z.getD j 0 * (vs.getD j []).getD k 0)).sum := by
    rw [← List.sum_map_add]
    congr 1
    apply List.map_congr_left
    intro j _
    ring
  have hproj : ((List.range vs.length).map (fun j => (alongAxes d m vs q).getD j 0 * (vs.getD j []).getD k 0)).sum = q.getD k 0 - m.getD k 0 := by
    have h1 : ((List.range vs.length).map (fun j => (alongAxes d m vs q).getD j 0 * (vs.getD j []).getD k 0)) =
        (List.range vs.length).map (fun j => ((List.range d).map (fun l => (q.getD l 0 - m.getD l 0) *
          ((vs.getD j []).getD l 0 * (vs.getD j []).getD k 0))).sum) := by
      apply List.map_congr_left
      intro j hj
      rw [List.mem_range] at hj
      have : (alongAxes d m vs q).getD j 0 = coordAlong d m (vs.getD j []) q := by
        unfold alongAxes
        simp [List.getD_eq_getElem?_getD, hj]
      rw [this]
      unfold coordAlong
      rw [← List.sum_map_mul_right]
      congr 1
      apply List.map_congr_left
      intro l _
      ring
    rw [h1, sum_map_swap]
    have h2 : ((List.range d).map (fun l => ((List.range vs.length).map (fun j => (q.getD l 0 - m.getD l 0) *
        ((vs.getD j []).getD l 0 * (vs.getD j []).getD k 0))).sum)) = (List.range d).map (fun l => if l = k then q.getD k 0 - m.getD k 0 else 0) := by
      apply List.map_congr_left
      intro l hl
      rw [List.sum_map_mul_left, hon k l hk (List.mem_range.1 hl)]
      by_cases hkl : k = l
      · subst hkl; simp
      · rw [if_neg hkl, if_neg (fun h => hkl h.symm), mul_zero]
    rw [h2, List.sum_map_ite_eq]
    rw [List.count_eq_one_of_mem List.nodup_range (List.mem_range.2 hk)]
    simp
  rw [hsplit, hproj, hq, scaleRow_getD hs1 hs2 hr hk]
  have hp : 0 < sc.2.getD k 0 := by
    rw [List.getD_eq_getElem?_getD, List.getElem?_eq_getElem (show k < sc.2.length by omega)]
    exact hpos _ (List.getElem_mem _)
  field_simp
  ring

/-! ## The hypotheses are met -/

/-- No scaling, the coordinate axes with the variances 1 and `v`, the unit tensor. -/
def pdEnv (v : ℚ) : PdEnv where
  fit := fun _ => ([0, 0], [1, 1])
  eig := fun _ => some [(1, [1, 0]), (v, [0, 1])]
  tensor := fun _ => some [[1, 0], [0, 1]]
  inv := some
  sigmas := [1/100, 1/10, 1]
  err := fun s _ _ => if s = 1/100 then .nan else .fin s
  reduce := id
  normal := fun c S i => (List.range c).map (fun j => (i + 1 : ℚ) * (S.getD j []).getD j 0)
  base := fun m i => (i + 1) % m

theorem pdEnv_ok (v : ℚ) : (pdEnv v).OK 2 where
  fit := fun _ => ⟨rfl, rfl⟩
  eig := by
    intro rows e h p hp
    injection h with h
    rw [← h] at hp
    simp at hp
    rcases hp with rfl | rfl <;> rfl
  normal := by intro c S i; simp [pdEnv]
  base := by intro m i hm; exact Nat.mod_lt _ hm

def pdX : List Row := [[0, 0], [1, 1], [2, 3], [10, 0], [11, 1], [12, 2], [13, 5], [14, 6], [15, 7]]
def pdY : List Int := [1, 1, 1, 0, 0, 0, 0, 0, 0]

/-- The bases drawn are the rows 1, 2 and 0; the rows come in order. -/
example : sample defaultChecks 2 (pdAlg (pdEnv 1) 1 2) pdX pdY =
    .ok (pdX ++ [[1/10, 1/10], [1 + 2/10, 1 + 2/10], [2 + 3/10, 3 + 3/10]], pdY ++ [1, 1, 1]) ∧
    requested 1 (pdY.count 0) (pdY.count 1) = 3 ∧ WF 2 pdX pdY ∧ 2 < pdY.count 1 := by decide +kernel

example : IsMinority pdY 1 0 := ⟨by decide, by decide, by decide, Or.inl (by decide)⟩

/-- **A compact minority class.** If no variance of the scaled minority rows exceeds 0.02, the call raises. -/
theorem C92_compact {env : PdEnv} {d : Nat} (henv : env.OK d) (hd : 2 ≤ d) {proportion : ℚ} {a b : Int} {X : List Row} {y : List Int}
    (hwf : WF d X y) (hmin : IsMinority y a b) (h3 : 2 < y.count a) (hn : 0 < requested proportion (y.count b) (y.count a))
    (heig : ∃ e, env.eig ((classRows X y a).map (scaleRow (env.fit X).1 (env.fit X).2)) = some e ∧ ∀ p ∈ e, p.1 ≤ 1 / 50)
    (htensor : ∀ rows, (env.tensor rows).isSome) (hinv : ∀ M, (env.inv M).isSome) :
    sample defaultChecks d (pdAlg env proportion d) X y = .error .valueError := by
  obtain ⟨e, he, hsmall⟩ := heig
  have h0 : spreadAxes e = [] := by
    unfold spreadAxes
    rw [List.map_eq_nil_iff, List.filter_eq_nil_iff]
    intro p hp
    simpa using hsmall p hp
  obtain ⟨As, m, hAs, _, h⟩ := C92_pdfos henv hd hwf hmin h3 hn
  rw [hAs, he] at h
  dsimp only at h
  rw [h0, if_neg (by simp)] at h
  split at h
  · rename_i h1
    have := htensor ((classRows X y 1).map (fun r => alongAxes d m [] (scaleRow (env.fit X).1 (env.fit X).2 r)))
    rw [h1] at this
    cases this
  · split at h
    · rename_i Sinv _ _ h1
      have := hinv Sinv
      rw [h1] at this
      cases this
    · rw [if_pos rfl] at h
      exact h

example : ∃ e, ({ pdEnv 0 with eig := fun _ => some [(1/100, [1, 0]), (0, [0, 1])] } : PdEnv).eig
    ((classRows pdX pdY 1).map (scaleRow [0, 0] [1, 1])) = some e ∧ ∀ p ∈ e, p.1 ≤ 1 / 50 := ⟨_, rfl, by decide +kernel⟩

/-- **One wide axis.** If the minority rows are spread along a single axis, nothing is added. -/
example : sample defaultChecks 2 (pdAlg (pdEnv 0) 1 2) pdX pdY = .ok (pdX, pdY) := by decide +kernel

/-- **The rows labelled 1.** The metric tensor is made from the rows labelled 1 although these may be the majority: with the same rows and the
labels exchanged, the rows added differ. -/
theorem C92_label_one : ∃ (env : PdEnv) (X : List Row) (y y' : List Int) (new new' : List Row), env.OK 2 ∧ WF 2 X y ∧ IsMinority y 1 0 ∧ IsMinority y' 0 1 ∧
    y' = y.map (fun l => 1 - l) ∧ sample defaultChecks 2 (pdAlg env 1 2) X y = .ok (X ++ new, y ++ [1, 1, 1]) ∧
    sample defaultChecks 2 (pdAlg env 1 2) X y' = .ok (X ++ new', y' ++ [0, 0, 0]) ∧ new ≠ new' :=
  ⟨{ pdEnv 1 with tensor := fun rows => some [[rows.length, 0], [0, rows.length]] }, pdX, pdY, pdY.map (fun l => 1 - l),
    [[3/10, 3/10], [16/10, 16/10], [29/10, 39/10]], [[6/10, 6/10], [22/10, 22/10], [38/10, 48/10]],
    ⟨(pdEnv_ok 1).fit, (pdEnv_ok 1).eig, (pdEnv_ok 1).normal, (pdEnv_ok 1).base⟩, by decide +kernel,
    ⟨by decide, by decide, by decide, Or.inl (by decide)⟩, ⟨by decide, by decide, by decide, Or.inl (by decide)⟩, rfl,
    by decide +kernel, by decide +kernel, by decide +kernel⟩

end Verif

import Verif.Model.Dsrbf
import Verif.Lemmas.Clusters
import Verif.Lemmas.SmoteExample
import Verif.Props.C01
import Verif.Props.C33
import Verif.Props.C38
import Verif.Props.C55
import Verif.Props.C83

/-!
# C110: DSRBF returns one of several runs of SMOTE
-/

namespace Verif

variable {ν : Type}

/-! ## Sizes of the networks -/

/-- The generator answers within its range. -/
def RndOK (env : RbfEnv ν) : Prop := ∀ key m, 0 < m → env.rnd key m < m

theorem rbfClone_length (env : RbfEnv ν) (key : List Nat) (net : List ν) : (rbfClone env key net).length = net.length := by simp [rbfClone]

theorem rbfImprove_length (env : RbfEnv ν) (X : List Row) (net : List ν) : (rbfImprove env X net).length = net.length := by simp [rbfImprove]

theorem rbfMutation_length (env : RbfEnv ν) (key : List Nat) (net : List ν) : (rbfMutation env key net).length = net.length := by
  simp [rbfMutation, rbfClone]

/-- A network has two to `mMax` neurons. -/
def SizeOK (mMax : Nat) (net : List ν) : Prop := 2 ≤ net.length ∧ net.length ≤ mMax

theorem rbfInit_size {env : RbfEnv ν} (hr : RndOK env) {mMin mMax : Nat} (h2 : 2 ≤ mMin) (hm : mMin < mMax) (X : List Row) (i : Nat) :
    SizeOK mMax (rbfInit env mMin mMax X i) := by
  have := hr [i] (mMax - mMin) (by omega)
  unfold SizeOK rbfInit
  rw [List.length_map, List.length_range]
  omega

theorem rbfStructural_size {env : RbfEnv ν} (hr : RndOK env) {mMin mMax : Nat} (h2 : 2 ≤ mMin) (hm : mMin < mMax) {key : List Nat} {X : List Row}
    {net : List ν} (h : SizeOK mMax net) : SizeOK mMax (rbfStructural env mMin mMax key X net) := by
  have hl := rbfClone_length env key net
  unfold SizeOK at *
  unfold rbfStructural
  simp only
  split
  · split
    · rw [List.length_append, List.length_singleton]; omega
    · split
      · have := hr key (rbfClone env key net).length (by omega)
        rw [List.length_eraseIdx_of_lt this]
        omega
      · omega
  · rw [List.length_modify, List.length_modify]; omega

theorem rbfShrink_size {env : RbfEnv ν} (hr : RndOK env) {mMax : Nat} (h2 : 2 ≤ mMax) (key : List Nat) : ∀ (f : Nat) (net : List ν),
    2 ≤ net.length → net.length ≤ f + mMax → SizeOK mMax (rbfShrink env mMax key f net) := by
  intro f
  induction f with
  | zero => intro net h hf; exact ⟨h, by simpa [rbfShrink] using hf⟩
  | succ f ih =>
    intro net h hf
    unfold rbfShrink
    split
    · have := hr (f :: key) net.length (by omega)
      apply ih
      · rw [List.length_eraseIdx_of_lt this]; omega
      · rw [List.length_eraseIdx_of_lt this]; omega
    · exact ⟨h, by omega⟩

theorem rbfSome_ok {env : RbfEnv ν} (hr : RndOK env) {key : List Nat} {net : List ν} (h : 2 ≤ net.length) :
    ∃ l, rbfSome env key net = .ok l ∧ 1 ≤ l.length := by
  unfold rbfSome
  rw [if_neg (by omega)]
  refine ⟨_, rfl, ?_⟩
  have h0 := hr (0 :: key) net.length (by omega)
  have : net[env.rnd (0 :: key) net.length] ∈ (List.range (1 + env.rnd key (net.length - 1))).filterMap
      (fun j => net[env.rnd (j :: key) net.length]?) :=
    List.mem_filterMap.2 ⟨0, by simp, by simp [h0]⟩
  exact List.length_pos_of_mem this

theorem rbfRecombine_ok {env : RbfEnv ν} (hr : RndOK env) {mMax : Nat} (h2 : 2 ≤ mMax) {key : List Nat} {net other : List ν}
    (h : SizeOK mMax net) (ho : SizeOK mMax other) : ∃ l, rbfRecombine env mMax key net other = .ok l ∧ SizeOK mMax l := by
  have hl := rbfClone_length env key net
  unfold rbfRecombine
  simp only
  split
  · obtain ⟨n0, e0, h0⟩ := rbfSome_ok hr (key := 0 :: key) (net := rbfClone env key net) (by rw [hl]; exact h.1)
    obtain ⟨n1, e1, h1⟩ := rbfSome_ok hr (key := 1 :: key) (net := other) ho.1
    rw [e0, ok_bind, e1, ok_bind]
    refine ⟨_, rfl, rbfShrink_size hr h2 key _ _ ?_ (by omega)⟩
    rw [List.length_append, rbfClone_length, rbfClone_length]
    omega
  · refine ⟨_, rfl, ?_⟩
    unfold SizeOK at *
    rw [List.length_map, List.length_zipIdx, hl]
    exact h

/-! ## Sorting -/

theorem rbfSort_mem {pop : List (RbfPop ν)} {p : RbfPop ν} : p ∈ rbfSort pop ↔ p ∈ pop := (List.perm_insertionSort _ _).mem_iff

theorem rbfSort_length (pop : List (RbfPop ν)) : (rbfSort pop).length = pop.length := (List.perm_insertionSort _ _).length_eq

/-- With losses that are numbers the first one has the smallest loss. -/
theorem rbfSort_head : ∀ {pop : List (RbfPop ν)}, (∀ p ∈ pop, ∃ u, p.loss = .fin u) → pop ≠ [] →
    ∃ h t u, rbfSort pop = h :: t ∧ h.loss = .fin u ∧ ∀ p ∈ pop, ∀ v, p.loss = .fin v → u ≤ v := by
  intro pop
  induction pop with
  | nil => intro _ h; exact absurd rfl h
  | cons a l ih =>
    intro hf _
    obtain ⟨u, hu⟩ := hf a (by simp)
    by_cases hl : l = []
    · subst hl
      refine ⟨a, [], u, rfl, hu, ?_⟩
      intro p hp v hv
      rw [List.mem_singleton.1 hp, hu] at hv
      injection hv with hv
      exact hv.le
    · obtain ⟨h, t, w, e, hw, hmin⟩ := ih (fun p hp => hf p (by simp [hp])) hl
      have hs : rbfSort (a :: l) = List.orderedInsert (fun p q => q.loss.lt p.loss = false) a (rbfSort l) := rfl
      rw [hs, e, List.orderedInsert]
      by_cases hlt : w < u
      · rw [if_neg (by rw [hw, hu]; simpa [XF.lt] using hlt)]
        refine ⟨h, _, w, rfl, hw, ?_⟩
        intro p hp v hv
        rcases List.mem_cons.1 hp with rfl | hp
        · rw [hu] at hv; injection hv with hv; linarith
        · exact hmin p hp v hv
      · rw [if_pos (by rw [hw, hu]; simpa [XF.lt] using hlt)]
        refine ⟨a, _, u, rfl, hu, ?_⟩
        intro p hp v hv
        rcases List.mem_cons.1 hp with rfl | hp
        · rw [hu] at hv; injection hv with hv; linarith
        · have := hmin p hp v hv; linarith

/-- Losses without a number do not change the order. -/
theorem rbfSort_nan : ∀ {pop : List (RbfPop ν)}, (∀ p ∈ pop, p.loss = .nan) → rbfSort pop = pop := by
  intro pop
  induction pop with
  | nil => intro _; rfl
  | cons a l ih =>
    intro hf
    have hs : rbfSort (a :: l) = List.orderedInsert (fun p q => q.loss.lt p.loss = false) a (rbfSort l) := rfl
    rw [hs, ih (fun p hp => hf p (by simp [hp]))]
    cases l with
    | nil => rfl
    | cons b l =>
      rw [List.orderedInsert, if_pos]
      rw [hf b (by simp)]
      rfl

/-! ## The population -/

/-- A member: the size of its network is fine, its data are one of the first `r + 1` runs, and its loss, if known, that of some network on
these data. -/
def MemberOK (env : RbfEnv ν) (D : Nat → List Row × List Int) (mMax r : Nat) (p : RbfPop ν) : Prop :=
  SizeOK mMax p.net ∧ (∃ e, e ≤ r ∧ p.X = (D e).1 ∧ p.y = (D e).2) ∧ (p.loss = .posInf ∨ ∃ net, p.loss = env.eval net p.X p.y)

theorem MemberOK.mono {env : RbfEnv ν} {D : Nat → List Row × List Int} {mMax r r' : Nat} {p : RbfPop ν} (h : MemberOK env D mMax r p)
    (hr : r ≤ r') : MemberOK env D mMax r' p := by
  obtain ⟨h1, ⟨e, he, h2⟩, h3⟩ := h
  exact ⟨h1, ⟨e, by omega, h2⟩, h3⟩

theorem MemberOK.evaluate {env : RbfEnv ν} {D : Nat → List Row × List Int} {mMax r : Nat} {p : RbfPop ν} (h : MemberOK env D mMax r p) :
    MemberOK env D mMax r (rbfEvaluate env p) := by
  unfold rbfEvaluate
  split
  · exact ⟨h.1, h.2.1, Or.inr ⟨p.net, rfl⟩⟩
  · exact h

theorem MemberOK.child {env : RbfEnv ν} {D : Nat → List Row × List Int} {mMax r : Nat} {p : RbfPop ν} (h : MemberOK env D mMax r p)
    {net : List ν} (hn : SizeOK mMax net) : MemberOK env D mMax r { p with net := net, loss := .posInf } :=
  ⟨hn, h.2.1, Or.inl rfl⟩

theorem rbfBreed_ok {env : RbfEnv ν} {par : RbfParams} {D : Nat → List Row × List Int} {mMax r it : Nat} (hr : RndOK env) (h2 : 2 ≤ par.mMin)
    (hm : par.mMin < mMax) {pop : List (RbfPop ν)} (h : ∀ p ∈ pop, MemberOK env D mMax r p) :
    ∃ new, rbfBreed env par mMax it pop = .ok (pop ++ new) ∧ ∀ p ∈ new, MemberOK env D mMax r p ∧ p.loss = .posInf := by
  unfold rbfBreed
  simp only
  set m1 := (pop.take (par.nPop / 10)).zipIdx.map (fun q => ({ q.1 with net := rbfMutation env [q.2, it, 1] q.1.net, loss := .posInf } : RbfPop ν))
    with hm1
  set m2 := ((pop ++ m1).take ((9 * par.nPop - 10) / 10)).zipIdx.map (fun q =>
    ({ q.1 with net := rbfStructural env par.mMin mMax [q.2, it, 2] q.1.X q.1.net, loss := .posInf } : RbfPop ν)) with hm2
  have h1 : ∀ p ∈ m1, MemberOK env D mMax r p ∧ p.loss = .posInf := by
    intro p hp
    obtain ⟨q, hq, rfl⟩ := List.mem_map.1 hp
    have hq' := h q.1 (List.mem_of_mem_take (List.fst_mem_of_mem_zipIdx hq))
    exact ⟨hq'.child (by unfold SizeOK; rw [rbfMutation_length]; exact hq'.1), rfl⟩
  have hpm : ∀ p ∈ pop ++ m1, MemberOK env D mMax r p := by
    intro p hp
    rcases List.mem_append.1 hp with hp | hp
    · exact h p hp
    · exact (h1 p hp).1
  have h2' : ∀ p ∈ m2, MemberOK env D mMax r p ∧ p.loss = .posInf := by
    intro p hp
    obtain ⟨q, hq, rfl⟩ := List.mem_map.1 hp
    have hq' := hpm q.1 (List.mem_of_mem_take (List.fst_mem_of_mem_zipIdx hq))
    exact ⟨hq'.child (rbfStructural_size hr h2 hm hq'.1), rfl⟩
  have hpm2 : ∀ p ∈ pop ++ m1 ++ m2, MemberOK env D mMax r p := by
    intro p hp
    rcases List.mem_append.1 hp with hp | hp
    · exact hpm p hp
    · exact (h2' p hp).1
  set best := (pop ++ m1 ++ m2).take (par.nPop / 10) with hb
  have hbest : ∀ p ∈ best, MemberOK env D mMax r p := fun p hp => hpm2 p (List.mem_of_mem_take hp)
  have hoth : ∀ q : RbfPop ν × Nat, q ∈ best.zipIdx → SizeOK mMax ((best[env.rnd [q.2, it, 3] best.length]?).getD q.1).net := by
    intro q hq
    cases hg : best[env.rnd [q.2, it, 3] best.length]? with
    | none => exact (hbest q.1 (List.fst_mem_of_mem_zipIdx hq)).1
    | some p => exact (hbest p (List.mem_of_getElem? hg)).1
  obtain ⟨out, hout⟩ := mapM_exists_ok (l := best.zipIdx) (f := fun q => (do
    let net ← rbfRecombine env mMax [q.2, it, 3] q.1.net ((best[env.rnd [q.2, it, 3] best.length]?).getD q.1).net
    return { q.1 with net := net, loss := .posInf } : Res (RbfPop ν))) (by
      intro q hq
      obtain ⟨l, e, _⟩ := rbfRecombine_ok hr (by omega) (key := [q.2, it, 3]) (hbest q.1 (List.fst_mem_of_mem_zipIdx hq)).1 (hoth q hq)
      rw [e]
      exact ⟨_, rfl⟩)
  rw [hout, ok_bind]
  refine ⟨m1 ++ m2 ++ out, by simp, ?_⟩
  intro p hp
  rcases List.mem_append.1 hp with hp | hp
  · rcases List.mem_append.1 hp with hp | hp
    · exact h1 p hp
    · exact h2' p hp
  · obtain ⟨q, hq, e⟩ := mapM_ok_mem hout hp
    have hq' := hbest q.1 (List.fst_mem_of_mem_zipIdx hq)
    obtain ⟨l, e', hl⟩ := rbfRecombine_ok hr (by omega) (key := [q.2, it, 3]) hq'.1 (hoth q hq)
    rw [e', ok_bind] at e
    injection e with e
    rw [← e]
    exact ⟨hq'.child hl, rfl⟩

/-- Evaluated, sorted and cut to size. -/
theorem rbfFront_ok {env : RbfEnv ν} {D : Nat → List Row × List Int} {mMax r n : Nat} {pop : List (RbfPop ν)} (hn : 0 < n) (hne : pop ≠ [])
    (h : ∀ p ∈ pop, MemberOK env D mMax r p) :
    (rbfSort (pop.map (rbfEvaluate env))).take n ≠ [] ∧ ∀ p ∈ (rbfSort (pop.map (rbfEvaluate env))).take n, MemberOK env D mMax r p := by
  constructor
  · intro he
    rw [List.take_eq_nil_iff] at he
    rcases he with he | he
    · omega
    · have := rbfSort_length (pop.map (rbfEvaluate env))
      rw [he, List.length_map] at this
      exact hne (List.length_eq_zero_iff.1 this.symm)
  · intro p hp
    obtain ⟨q, hq, rfl⟩ := List.mem_map.1 (rbfSort_mem.1 (List.mem_of_mem_take hp))
    exact (h q hq).evaluate

/-- Some member's loss is at most `v`. -/
def Reached (v : ℚ) (pop : List (RbfPop ν)) : Prop := ∃ p ∈ pop, ∃ u, p.loss = .fin u ∧ u ≤ v

/-- All losses are numbers. -/
def FiniteLoss (env : RbfEnv ν) : Prop := ∀ net X y, ∃ u, env.eval net X y = .fin u

theorem rbfFront_best {env : RbfEnv ν} {D : Nat → List Row × List Int} {mMax r n : Nat} {pop : List (RbfPop ν)} (hn : 0 < n) (hne : pop ≠ [])
    (hf : FiniteLoss env) (h : ∀ p ∈ pop, MemberOK env D mMax r p) :
    ∃ p t u, (rbfSort (pop.map (rbfEvaluate env))).take n = p :: t ∧ p.loss = .fin u ∧ (∃ net, env.eval net p.X p.y = .fin u) ∧
      ∀ v, Reached v pop → u ≤ v := by
  have hfin : ∀ p ∈ pop.map (rbfEvaluate env), ∃ u, p.loss = .fin u ∧ ∃ net, env.eval net p.X p.y = .fin u := by
    intro p hp
    obtain ⟨q, hq, rfl⟩ := List.mem_map.1 hp
    unfold rbfEvaluate
    split
    · obtain ⟨u, hu⟩ := hf q.net q.X q.y
      exact ⟨u, hu, _, hu⟩
    · rename_i hi
      rcases (h q hq).2.2 with e | ⟨net, e⟩
      · exact absurd e hi
      · obtain ⟨u, hu⟩ := hf net q.X q.y
        exact ⟨u, e.trans hu, net, hu⟩
  obtain ⟨p, t, u, e, hu, hmin⟩ := rbfSort_head (fun p hp => (hfin p hp).imp fun _ h => h.1) (by simpa using hne)
  obtain ⟨n', rfl⟩ := Nat.exists_eq_succ_of_ne_zero hn.ne'
  refine ⟨p, t.take n', u, by rw [e, List.take_succ_cons], hu, ?_, ?_⟩
  · obtain ⟨w, hw, net, hnet⟩ := hfin p (rbfSort_mem.1 (by rw [e]; simp))
    rw [hu] at hw
    injection hw with hw
    exact ⟨net, by rw [hw]; exact hnet⟩
  · rintro v ⟨q, hq, w, hw, hwv⟩
    refine (hmin (rbfEvaluate env q) (List.mem_map_of_mem hq) w ?_).trans hwv
    unfold rbfEvaluate
    rw [if_neg (by rw [hw]; simp), hw]

/-! ## The search -/

/-- What the parameters and the runs of SMOTE have to meet. -/
structure RbfOK (env : RbfEnv ν) (par : RbfParams) (smote : Nat → Res (List Row × List Int)) (D : Nat → List Row × List Int) (mMax : Nat) : Prop where
  rnd : RndOK env
  runs : ∀ r, smote r = .ok (D r)
  two : 2 ≤ par.mMin
  lt : par.mMin < mMax
  pop : 0 < par.nPop
  init : 0 < par.nInit

theorem rbfIter_ok {env : RbfEnv ν} {par : RbfParams} {smote : Nat → Res (List Row × List Int)} {D : Nat → List Row × List Int} {mMax r it : Nat}
    {pop : List (RbfPop ν)} (H : RbfOK env par smote D mMax) (hL : par.nIter / par.nEpoch ≠ 0) (hne : pop ≠ [])
    (h : ∀ p ∈ pop, MemberOK env D mMax r p) :
    ∃ r' new, rbfIter env par smote mMax it (r, pop) = .ok (r', (rbfSort (pop.map (rbfEvaluate env))).take par.nPop ++ new) ∧
      r' = (if it % (par.nIter / par.nEpoch) = 0 then r + 1 else r) ∧ (∀ p ∈ new, MemberOK env D mMax r' p ∧ p.loss = .posInf) := by
  obtain ⟨hfne, hfok⟩ := rbfFront_ok H.pop hne h
  generalize hF : (rbfSort (pop.map (rbfEvaluate env))).take par.nPop = F at *
  obtain ⟨new, e, hnew⟩ := rbfBreed_ok (it := it) H.rnd H.two H.lt hfok
  unfold rbfIter
  simp only
  rw [hF, e, ok_bind, if_neg hL]
  by_cases hz : it % (par.nIter / par.nEpoch) = 0
  · rw [if_pos hz, if_pos hz]
    refine ⟨r + 1, new ++ (F ++ new).zipIdx.map (fun q =>
      (⟨rbfImprove env (D (r + 1)).1 (rbfClone env [q.2, it, 4] q.1.net), (D (r + 1)).1, (D (r + 1)).2, .posInf⟩ : RbfPop ν)), ?_, rfl, ?_⟩
    · rw [H.runs, ok_bind, List.append_assoc]
      rfl
    · intro p hp
      rcases List.mem_append.1 hp with hp | hp
      · exact ⟨(hnew p hp).1.mono (by omega), (hnew p hp).2⟩
      · obtain ⟨q, hq, rfl⟩ := List.mem_map.1 hp
        have hq' : MemberOK env D mMax r q.1 := by
          rcases List.mem_append.1 (List.fst_mem_of_mem_zipIdx hq) with hq | hq
          · exact hfok _ hq
          · exact (hnew _ hq).1
        refine ⟨⟨?_, ⟨r + 1, le_rfl, rfl, rfl⟩, Or.inl rfl⟩, rfl⟩
        unfold SizeOK
        rw [rbfImprove_length, rbfClone_length]
        exact hq'.1
  · rw [if_neg hz, if_neg hz]
    exact ⟨r, new, rfl, rfl, hnew⟩

/-- The iterations with a new run of SMOTE. -/
def resamplings (par : RbfParams) (m : Nat) : Nat := ((List.range m).filter (fun it => it % (par.nIter / par.nEpoch) = 0)).length

theorem resamplings_succ (par : RbfParams) (m : Nat) :
    resamplings par (m + 1) = (if m % (par.nIter / par.nEpoch) = 0 then resamplings par m + 1 else resamplings par m) := by
  unfold resamplings
  rw [List.range_succ, List.filter_append, List.length_append]
  split <;> simp [*]

theorem rbfLoop_ok {env : RbfEnv ν} {par : RbfParams} {smote : Nat → Res (List Row × List Int)} {D : Nat → List Row × List Int} {mMax : Nat}
    (H : RbfOK env par smote D mMax) : ∀ (m it : Nat) (pop : List (RbfPop ν)), (m ≠ 0 → par.nIter / par.nEpoch ≠ 0) → pop ≠ [] →
    (∀ p ∈ pop, MemberOK env D mMax (resamplings par it) p) →
    ∃ r pop', rbfLoop env par smote mMax m it (resamplings par it, pop) = .ok (r, pop') ∧ r = resamplings par (it + m) ∧ pop' ≠ [] ∧
      (∀ p ∈ pop', MemberOK env D mMax r p) ∧ (FiniteLoss env → ∀ v, Reached v pop → Reached v pop') := by
  intro m
  induction m with
  | zero => intro it pop _ hne h; exact ⟨_, pop, rfl, rfl, hne, h, fun _ _ h => h⟩
  | succ m ih =>
    intro it pop hL hne h
    obtain ⟨r', new, e, hr', hnew⟩ := rbfIter_ok (it := it) H (hL (by omega)) hne h
    rw [← resamplings_succ] at hr'
    subst hr'
    obtain ⟨hfne, hfok⟩ := rbfFront_ok H.pop hne h
    have hle : resamplings par it ≤ resamplings par (it + 1) := by
      rw [resamplings_succ]; split <;> omega
    obtain ⟨r, pop', e', hr, hne', hok', hreach⟩ := ih (it + 1) ((rbfSort (pop.map (rbfEvaluate env))).take par.nPop ++ new) (fun _ => hL (by omega)) (by
      intro hnil
      exact hfne (List.append_eq_nil_iff.1 hnil).1) (by
      intro p hp
      rcases List.mem_append.1 hp with hp | hp
      · exact (hfok p hp).mono hle
      · exact (hnew p hp).1)
    refine ⟨r, pop', ?_, by rw [hr]; congr 1; omega, hne', hok', ?_⟩
    · unfold rbfLoop
      rw [e, ok_bind]
      exact e'
    · intro hf v hv
      apply hreach hf
      obtain ⟨p, t, u, ep, hu, _, hmin⟩ := rbfFront_best H.pop hne hf h
      rw [ep]
      exact ⟨p, by simp, u, hu, hmin v hv⟩

/-- The population before the first iteration. -/
def rbfStart (env : RbfEnv ν) (par : RbfParams) (mMax : Nat) (r : List Row × List Int) : List (RbfPop ν) :=
  (List.range par.nInit).map (fun i =>
    ({ net := rbfInit env par.mMin mMax r.1 i, X := r.1, y := r.2, loss := env.eval (rbfInit env par.mMin mMax r.1 i) r.1 r.2 } : RbfPop ν))

def rbfStart' (env : RbfEnv ν) (par : RbfParams) (mMax : Nat) (r : List Row × List Int) : List (RbfPop ν) :=
  ((rbfSort (rbfStart env par mMax r)).take par.nPop).map (fun p => { p with net := rbfImprove env p.X p.net })

theorem rbfStart_ok {env : RbfEnv ν} {par : RbfParams} {smote : Nat → Res (List Row × List Int)} {D : Nat → List Row × List Int} {mMax : Nat}
    (H : RbfOK env par smote D mMax) : rbfStart env par mMax (D 0) ≠ [] ∧ ∀ p ∈ rbfStart env par mMax (D 0), MemberOK env D mMax 0 p := by
  have := H.init
  constructor
  · intro h
    have := congrArg List.length h
    simp [rbfStart] at this
    omega
  · intro p hp
    obtain ⟨i, _, rfl⟩ := List.mem_map.1 hp
    exact ⟨rbfInit_size H.rnd H.two H.lt _ _, ⟨0, le_rfl, rfl, rfl⟩, Or.inr ⟨_, rfl⟩⟩

theorem rbfStart'_ok {env : RbfEnv ν} {par : RbfParams} {smote : Nat → Res (List Row × List Int)} {D : Nat → List Row × List Int} {mMax : Nat}
    (H : RbfOK env par smote D mMax) : rbfStart' env par mMax (D 0) ≠ [] ∧ ∀ p ∈ rbfStart' env par mMax (D 0), MemberOK env D mMax 0 p := by
  obtain ⟨h1, h2⟩ := rbfStart_ok H
  have := H.pop
  constructor
  · intro h
    have := congrArg List.length h
    unfold rbfStart' at this
    rw [List.length_map, List.length_take, rbfSort_length, List.length_nil] at this
    have := List.length_pos_of_ne_nil h1
    omega
  · intro p hp
    obtain ⟨q, hq, rfl⟩ := List.mem_map.1 hp
    have hq' := h2 q (rbfSort_mem.1 (List.mem_of_mem_take hq))
    refine ⟨?_, hq'.2⟩
    unfold SizeOK
    rw [rbfImprove_length]
    exact hq'.1

theorem rbfSearch_ok {env : RbfEnv ν} {par : RbfParams} {smote : Nat → Res (List Row × List Int)} {D : Nat → List Row × List Int} {mMax : Nat}
    (H : RbfOK env par smote D mMax) (hL : par.nIter ≠ 0 → par.nIter / par.nEpoch ≠ 0) :
    ∃ p, rbfSearch env par smote mMax = .ok p ∧ MemberOK env D mMax (resamplings par par.nIter) p ∧
      (FiniteLoss env → ∃ u, p.loss = .fin u ∧ (∃ net, env.eval net p.X p.y = .fin u) ∧
        ∀ i, i < par.nInit → ∀ v, env.eval (rbfInit env par.mMin mMax (D 0).1 i) (D 0).1 (D 0).2 = .fin v → u ≤ v) := by
  obtain ⟨hs1, hs2⟩ := rbfStart'_ok H
  obtain ⟨r, pop', e, hr, hne, hok, hreach⟩ := rbfLoop_ok H par.nIter 0 (rbfStart' env par mMax (D 0)) hL hs1 hs2
  rw [Nat.zero_add] at hr
  subst hr
  obtain ⟨hfne, hfok⟩ := rbfFront_ok H.pop hne hok
  have hrun : rbfSearch env par smote mMax = match (rbfSort (pop'.map (rbfEvaluate env))).take par.nPop with
      | [] => .error .indexError
      | p :: _ => .ok p := by
    unfold rbfSearch
    rw [H.runs, ok_bind]
    have : resamplings par 0 = 0 := rfl
    rw [this] at e
    simp only
    unfold rbfStart' rbfStart at e
    rw [e, ok_bind]
    rfl
  cases hF : (rbfSort (pop'.map (rbfEvaluate env))).take par.nPop with
  | nil => exact absurd hF hfne
  | cons p t =>
    rw [hF] at hrun hfok
    refine ⟨p, hrun, hfok p (by simp), ?_⟩
    intro hf
    obtain ⟨p', t', u, ep, hu, hnet, hmin⟩ := rbfFront_best H.pop hne hf hok
    rw [hF] at ep
    injection ep with ep _
    subst ep
    refine ⟨u, hu, hnet, ?_⟩
    intro i hi v hv
    apply hmin v
    apply hreach hf
    obtain ⟨h1, h2⟩ := rbfStart_ok H
    obtain ⟨h, tl, w, ew, hw, hwmin⟩ := rbfSort_head (pop := rbfStart env par mMax (D 0)) (by
      intro p hp
      obtain ⟨i, _, rfl⟩ := List.mem_map.1 hp
      exact hf _ _ _) h1
    obtain ⟨n', hn'⟩ := Nat.exists_eq_succ_of_ne_zero H.pop.ne'
    refine ⟨{ h with net := rbfImprove env h.X h.net }, ?_, w, hw, ?_⟩
    · unfold rbfStart'
      rw [ew, hn', List.take_succ_cons]
      simp
    · exact hwmin _ (List.mem_map.2 ⟨i, List.mem_range.2 hi, rfl⟩) v hv

/-! ## Losses without a number -/

theorem rbfLoop_nan {env : RbfEnv ν} {par : RbfParams} {smote : Nat → Res (List Row × List Int)} {D : Nat → List Row × List Int} {mMax : Nat}
    (H : RbfOK env par smote D mMax) (hnan : ∀ net X e, env.eval net X (D e).2 = .nan) : ∀ (m it : Nat) (h : RbfPop ν) (t : List (RbfPop ν)),
    (m ≠ 0 → par.nIter / par.nEpoch ≠ 0) → (∀ p ∈ h :: t, MemberOK env D mMax (resamplings par it) p) → h.loss = .nan →
    ∃ r t', rbfLoop env par smote mMax m it (resamplings par it, h :: t) = .ok (r, h :: t') ∧ ∀ p ∈ h :: t', MemberOK env D mMax r p := by
  intro m
  induction m with
  | zero => intro it h t _ hok _; exact ⟨_, t, rfl, hok⟩
  | succ m ih =>
    intro it h t hL hok hh
    obtain ⟨r', new, e, hr', hnew⟩ := rbfIter_ok (it := it) H (hL (by omega)) (by simp) hok
    rw [← resamplings_succ] at hr'
    subst hr'
    obtain ⟨hfne, hfok⟩ := rbfFront_ok H.pop (by simp) hok
    have hle : resamplings par it ≤ resamplings par (it + 1) := by
      rw [resamplings_succ]; split <;> omega
    have hF : ∃ t1, (rbfSort ((h :: t).map (rbfEvaluate env))).take par.nPop = h :: t1 := by
      rw [rbfSort_nan (by
        intro p hp
        obtain ⟨q, hq, rfl⟩ := List.mem_map.1 hp
        obtain ⟨_, ⟨e, _, _, hy⟩, hl⟩ := hok q hq
        unfold rbfEvaluate
        split
        · show env.eval q.net q.X q.y = _
          rw [hy]; exact hnan _ _ _
        · rcases hl with hl | ⟨net, hl⟩
          · rename_i hi; exact absurd hl hi
          · rw [hl, hy]; exact hnan _ _ _)]
      obtain ⟨n', hn'⟩ := Nat.exists_eq_succ_of_ne_zero H.pop.ne'
      rw [hn', List.map_cons, List.take_succ_cons]
      have : rbfEvaluate env h = h := by unfold rbfEvaluate; rw [if_neg (by rw [hh]; simp)]
      rw [this]
      exact ⟨_, rfl⟩
    obtain ⟨t1, hF⟩ := hF
    rw [hF] at e hfok
    obtain ⟨r, t', e', hok'⟩ := ih (it + 1) h (t1 ++ new) (fun _ => hL (by omega)) (by
      intro p hp
      rw [← List.cons_append] at hp
      rcases List.mem_append.1 hp with hp | hp
      · exact (hfok p hp).mono hle
      · exact (hnew p hp).1) hh
    refine ⟨r, t', ?_, hok'⟩
    unfold rbfLoop
    rw [e, ok_bind]
    exact e'

theorem rbfSearch_nan {env : RbfEnv ν} {par : RbfParams} {smote : Nat → Res (List Row × List Int)} {D : Nat → List Row × List Int} {mMax : Nat}
    (H : RbfOK env par smote D mMax) (hnan : ∀ net X e, env.eval net X (D e).2 = .nan) (hL : par.nIter ≠ 0 → par.nIter / par.nEpoch ≠ 0) :
    ∃ p, rbfSearch env par smote mMax = .ok p ∧ p.X = (D 0).1 ∧ p.y = (D 0).2 := by
  obtain ⟨hs1, hs2⟩ := rbfStart'_ok H
  have hall : ∀ p ∈ rbfStart' env par mMax (D 0), p.loss = .nan ∧ p.X = (D 0).1 ∧ p.y = (D 0).2 := by
    intro p hp
    obtain ⟨q, hq, rfl⟩ := List.mem_map.1 hp
    obtain ⟨i, _, rfl⟩ := List.mem_map.1 (rbfSort_mem.1 (List.mem_of_mem_take hq))
    exact ⟨hnan _ _ _, rfl, rfl⟩
  cases hS : rbfStart' env par mMax (D 0) with
  | nil => exact absurd hS hs1
  | cons h t =>
    rw [hS] at hs2 hall
    obtain ⟨hl, hx, hy⟩ := hall h (by simp)
    obtain ⟨r, t', e, hok⟩ := rbfLoop_nan H hnan par.nIter 0 h t hL hs2 hl
    refine ⟨h, ?_, hx, hy⟩
    unfold rbfSearch
    rw [H.runs, ok_bind]
    have : resamplings par 0 = 0 := rfl
    rw [this, ← hS] at e
    simp only
    unfold rbfStart' rbfStart at e
    rw [e, ok_bind]
    simp only
    rw [rbfSort_nan (by
        intro p hp
        obtain ⟨q, hq, rfl⟩ := List.mem_map.1 hp
        obtain ⟨_, ⟨e, _, _, hy⟩, hl⟩ := hok q hq
        unfold rbfEvaluate
        split
        · show env.eval q.net q.X q.y = _
          rw [hy]; exact hnan _ _ _
        · rcases hl with hl | ⟨net, hl⟩
          · rename_i hi; exact absurd hl hi
          · rw [hl, hy]; exact hnan _ _ _)]
    obtain ⟨n', hn'⟩ := Nat.exists_eq_succ_of_ne_zero H.pop.ne'
    have : rbfEvaluate env h = h := by unfold rbfEvaluate; rw [if_neg (by rw [hl]; simp)]
    rw [hn', List.map_cons, List.take_succ_cons, this]

/-! ## The algorithm -/

/-- The hypotheses on data, searches, draws and parameters shared by the theorems. -/
structure RbfInput (par : RbfParams) (fitScaler : List Row → Row × Row) (vol : List Row → ℚ) (drs : Nat → Draws) (d : Nat)
    (knn : Nat → List Row → List (List Nat)) (X : List Row) (y : List Int) (a b : Int) : Prop where
  wf : WF d X y
  min : IsMinority y a b
  more : 2 < y.count a
  need : 0 < requested par.smote.proportion (y.count b) (y.count a)
  knn : KnnOK knn
  draws : ∀ r, (drs r).OK
  pos : ∀ r i j, 0 < (drs r).simplexU i j
  dim : 1 ≤ par.smote.ss.nDim
  mode : par.smote.ss.simplexSampling = .random ∨ par.smote.ss.simplexSampling = .deterministic ∨
    (par.smote.ss.simplexSampling = .volume ∧ ∀ vs, 0 < vol vs)
  within : par.smote.ss.within = .random ∨ (par.smote.ss.within = .deterministic ∧ par.smote.ss.nDim ≤ 2)
  gauss : par.smote.ss.gaussian = .none
  mean : (fitScaler X).1.length = d
  std : (fitScaler X).2.length = d
  stdPos : ∀ x ∈ (fitScaler X).2, 0 < x

/-- The `r`-th run of SMOTE on the scaled data. -/
def rbfRun (par : RbfParams) (fitScaler : List Row → Row × Row) (vol : List Row → ℚ) (drs : Nat → Draws) (d : Nat)
    (knn : Nat → List Row → List (List Nat)) (X : List Row) (y : List Int) (r : Nat) : Res (List Row × List Int) :=
  smoteSample par.smote vol (drs r) d knn (X.map (scaleRow (fitScaler X).1 (fitScaler X).2)) y

theorem wf_scaled {d : Nat} {X : List Row} {y : List Int} {m s : Row} (hwf : WF d X y) (hm : m.length = d) (hs : s.length = d) :
    WF d (X.map (scaleRow m s)) y := by
  refine ⟨by rw [List.length_map]; exact hwf.1, ?_⟩
  intro r hr
  obtain ⟨x, hx, rfl⟩ := List.mem_map.1 hr
  exact scaleRow_length hm hs (hwf.2 x hx)

theorem rbfRun_ok {par : RbfParams} {fitScaler : List Row → Row × Row} {vol : List Row → ℚ} {drs : Nat → Draws} {d : Nat}
    {knn : Nat → List Row → List (List Nat)} {X : List Row} {y : List Int} {a b : Int} (I : RbfInput par fitScaler vol drs d knn X y a b) (r : Nat) :
    ∃ D, rbfRun par fitScaler vol drs d knn X y r = .ok D :=
  C01_smote_total (wf_scaled I.wf I.mean I.std) I.knn (I.draws r) (I.pos r) I.min I.dim I.mode I.within

theorem dsrbf_run {env : RbfEnv ν} {par : RbfParams} {fitScaler : List Row → Row × Row} {vol : List Row → ℚ} {drs : Nat → Draws} {d : Nat}
    {knn : Nat → List Row → List (List Nat)} {X : List Row} {y : List Int} {a b : Int} (I : RbfInput par fitScaler vol drs d knn X y a b)
    (hm : par.mMin < min X.length par.mMax) :
    sample defaultChecks d (dsrbfAlg env par fitScaler vol drs d knn) X y =
      (do let best ← rbfSearch env par (rbfRun par fitScaler vol drs d knn X y) (min X.length par.mMax)
          return (best.X.map (unscaleRow (fitScaler X).1 (fitScaler X).2), best.y)) := by
  obtain ⟨s, hs, hsa, hsb⟩ := stats_of_isMinority I.min
  obtain ⟨hmm, hM, hab⟩ := stats_min_mem hs
  have h3 := I.more
  have hn := I.need
  rw [← hsa, ← hsb] at hn
  rw [← hsa] at h3
  rw [sample_default hs, if_neg (by omega)]
  unfold dsrbfAlg
  rw [stats_count hs hmm, stats_count hs hM, detN_eq_requested, ok_bind, if_neg (by omega)]
  simp only
  rw [if_neg (by omega)]
  rfl

theorem rbfRun_step {par : RbfParams} {fitScaler : List Row → Row × Row} {vol : List Row → ℚ} {drs : Nat → Draws} {d : Nat}
    {knn : Nat → List Row → List (List Nat)} {X Xs : List Row} {y ys : List Int} {a b : Int}
    (I : RbfInput par fitScaler vol drs d knn X y a b) {r : Nat} (h : rbfRun par fitScaler vol drs d knn X y r = .ok (Xs, ys)) :
    ∃ new, Xs.map (unscaleRow (fitScaler X).1 (fitScaler X).2) = X ++ new ∧
      ys = y ++ List.replicate (requested par.smote.proportion (y.count b) (y.count a)) a ∧
      new.length = requested par.smote.proportion (y.count b) (y.count a) ∧ ∀ x ∈ new, InHull d (classRows X y a) x := by
  obtain ⟨s, hs, hsa, hsb⟩ := stats_of_isMinority I.min
  have h3 := I.more
  subst hsa hsb
  obtain ⟨new, rfl, rfl, hl, hin⟩ := smoteStep_of (wf_scaled I.wf I.mean I.std) I.knn (I.draws r) I.gauss hs h3 h
  refine ⟨new.map (unscaleRow (fitScaler X).1 (fitScaler X).2), ?_, rfl, by rw [List.length_map, hl], ?_⟩
  · rw [List.map_append, List.map_map]
    congr 1
    conv_rhs => rw [← List.map_id X]
    apply List.map_congr_left
    intro x hx
    exact unscale_scale I.mean I.std I.stdPos (I.wf.2 x hx)
  · intro x hx
    obtain ⟨z, hz, rfl⟩ := List.mem_map.1 hx
    apply unscale_inHull I.mean I.std I.stdPos (fun r hr => I.wf.2 r (mem_of_mem_classRows hr))
    rw [← classRows_map]
    exact hin z hz

theorem rbfOK_of {env : RbfEnv ν} {par : RbfParams} {fitScaler : List Row → Row × Row} {vol : List Row → ℚ} {drs : Nat → Draws} {d : Nat}
    {knn : Nat → List Row → List (List Nat)} {X : List Row} {y : List Int} {a b : Int} (I : RbfInput par fitScaler vol drs d knn X y a b)
    (hr : RndOK env) (h2 : 2 ≤ par.mMin) (hm : par.mMin < min X.length par.mMax) (hp : 0 < par.nPop) (hi : 0 < par.nInit) :
    ∃ D, RbfOK env par (rbfRun par fitScaler vol drs d knn X y) D (min X.length par.mMax) :=
  ⟨fun r => (rbfRun_ok I r).choose, hr, fun r => (rbfRun_ok I r).choose_spec, h2, hm, hp, hi⟩

theorem epochLen_ne {n e : Nat} (h : n = 0 ∨ e ≤ n) (he : 0 < e) : n ≠ 0 → n / e ≠ 0 := by
  intro hn
  have : 0 < n / e := Nat.div_pos (by omega) he
  omega

/-- With at least two hidden units and not more epochs than iterations, the result is the outcome of one of the runs of SMOTE on the
standardized data, scaled back: the input, unchanged, followed by exactly the requested number of minority rows from the hull of the
minority rows. If losses are numbers, some network has a loss on the chosen data that is at most the loss of every network of the start. -/
theorem C110_dsrbf {env : RbfEnv ν} {par : RbfParams} {fitScaler : List Row → Row × Row} {vol : List Row → ℚ} {drs : Nat → Draws} {d : Nat}
    {knn : Nat → List Row → List (List Nat)} {X : List Row} {y : List Int} {a b : Int} (I : RbfInput par fitScaler vol drs d knn X y a b)
    (hr : RndOK env) (h2 : 2 ≤ par.mMin) (hm : par.mMin < min X.length par.mMax) (hp : 0 < par.nPop) (hi : 0 < par.nInit) (he : 0 < par.nEpoch)
    (hit : par.nIter = 0 ∨ par.nEpoch ≤ par.nIter) :
    ∃ (r : Nat) (Xs : List Row) (ys : List Int) (new : List Row), r ≤ resamplings par par.nIter ∧
      rbfRun par fitScaler vol drs d knn X y r = .ok (Xs, ys) ∧
      sample defaultChecks d (dsrbfAlg env par fitScaler vol drs d knn) X y =
        .ok (X ++ new, y ++ List.replicate (requested par.smote.proportion (y.count b) (y.count a)) a) ∧
      X ++ new = Xs.map (unscaleRow (fitScaler X).1 (fitScaler X).2) ∧
      new.length = requested par.smote.proportion (y.count b) (y.count a) ∧ (∀ x ∈ new, InHull d (classRows X y a) x) ∧
      (FiniteLoss env → ∃ net u, env.eval net Xs ys = .fin u ∧
        ∀ X0 y0, rbfRun par fitScaler vol drs d knn X y 0 = .ok (X0, y0) → ∀ i, i < par.nInit →
          ∀ v, env.eval (rbfInit env par.mMin (min X.length par.mMax) X0 i) X0 y0 = .fin v → u ≤ v) := by
  obtain ⟨D, H⟩ := rbfOK_of I hr h2 hm hp hi
  obtain ⟨p, e, ⟨_, ⟨r, hr', hx, hy⟩, _⟩, hbest⟩ := rbfSearch_ok H (epochLen_ne hit he)
  have hrun := H.runs r
  obtain ⟨new, hn1, hn2, hn3, hn4⟩ := rbfRun_step I hrun
  refine ⟨r, (D r).1, (D r).2, new, hr', hrun, ?_, hn1.symm, hn3, hn4, ?_⟩
  · rw [dsrbf_run I hm, e, ok_bind, hx, hy, hn1, hn2]
    rfl
  · intro hf
    obtain ⟨u, _, ⟨net, hnet⟩, hmin⟩ := hbest hf
    rw [hx, hy] at hnet
    refine ⟨net, u, hnet, ?_⟩
    intro X0 y0 h0
    rw [H.runs 0] at h0
    injection h0 with h0
    rw [h0] at hmin
    exact hmin

/-- If the loss is no number for data without rows labelled `0` or without rows labelled `1` (it is a mean over these), and the labels of
the data are others, the result is the first run of SMOTE: the search has no effect. -/
theorem C110_labels {env : RbfEnv ν} {par : RbfParams} {fitScaler : List Row → Row × Row} {vol : List Row → ℚ} {drs : Nat → Draws} {d : Nat}
    {knn : Nat → List Row → List (List Nat)} {X : List Row} {y : List Int} {a b : Int} (I : RbfInput par fitScaler vol drs d knn X y a b)
    (hr : RndOK env) (h2 : 2 ≤ par.mMin) (hm : par.mMin < min X.length par.mMax) (hp : 0 < par.nPop) (hi : 0 < par.nInit) (he : 0 < par.nEpoch)
    (hit : par.nIter = 0 ∨ par.nEpoch ≤ par.nIter) (hnan : ∀ net Xs ys, 0 ∉ ys ∨ 1 ∉ ys → env.eval net Xs ys = .nan) (hy : 0 ∉ y ∨ 1 ∉ y) :
    ∃ Xs ys, rbfRun par fitScaler vol drs d knn X y 0 = .ok (Xs, ys) ∧
      sample defaultChecks d (dsrbfAlg env par fitScaler vol drs d knn) X y =
        .ok (Xs.map (unscaleRow (fitScaler X).1 (fitScaler X).2), ys) := by
  obtain ⟨D, H⟩ := rbfOK_of I hr h2 hm hp hi
  have ha : a ∈ y := List.count_pos_iff.1 (by have := I.more; omega)
  obtain ⟨p, e, hx, hy'⟩ := rbfSearch_nan H (by
    intro net Xs r
    obtain ⟨new, _, hn2, _⟩ := rbfRun_step I (H.runs r)
    apply hnan
    have : ∀ l, l ∉ y → l ∉ (D r).2 := by
      intro l hl
      rw [hn2, List.mem_append, List.mem_replicate]
      rintro (h | ⟨_, rfl⟩)
      · exact hl h
      · exact hl ha
    exact hy.imp (this 0) (this 1)) (epochLen_ne hit he)
  refine ⟨(D 0).1, (D 0).2, H.runs 0, ?_⟩
  rw [dsrbf_run I hm, e, ok_bind, hx, hy']
  rfl

/-- An unsuitable range of hidden units: the input is returned. -/
theorem C110_copies {env : RbfEnv ν} {par : RbfParams} {fitScaler : List Row → Row × Row} {vol : List Row → ℚ} {drs : Nat → Draws} {d : Nat}
    {knn : Nat → List Row → List (List Nat)} {X : List Row} {y : List Int} {a b : Int} (hmin : IsMinority y a b)
    (hm : min X.length par.mMax ≤ par.mMin) :
    sample defaultChecks d (dsrbfAlg env par fitScaler vol drs d knn) X y = .ok (X, y) := by
  obtain ⟨s, hs, rfl, rfl⟩ := stats_of_isMinority hmin
  obtain ⟨hmm, hM, hab⟩ := stats_min_mem hs
  rw [sample_default hs]
  split
  · rfl
  unfold dsrbfAlg
  rw [stats_count hs hmm, stats_count hs hM, detN_eq_requested, ok_bind]
  split
  · rfl
  simp only
  rw [if_pos (Or.inl hm)]
  rfl

/-- More epochs than iterations: a division by zero. -/
theorem C110_epochs {env : RbfEnv ν} {par : RbfParams} {fitScaler : List Row → Row × Row} {vol : List Row → ℚ} {drs : Nat → Draws} {d : Nat}
    {knn : Nat → List Row → List (List Nat)} {X : List Row} {y : List Int} {a b : Int} (I : RbfInput par fitScaler vol drs d knn X y a b)
    (hr : RndOK env) (h2 : 2 ≤ par.mMin) (hm : par.mMin < min X.length par.mMax) (hp : 0 < par.nPop) (hi : 0 < par.nInit)
    (h0 : 0 < par.nIter) (hit : par.nIter < par.nEpoch) :
    sample defaultChecks d (dsrbfAlg env par fitScaler vol drs d knn) X y = .error .zeroDivision := by
  obtain ⟨D, H⟩ := rbfOK_of I hr h2 hm hp hi
  rw [dsrbf_run I hm]
  obtain ⟨hs1, hs2⟩ := rbfStart'_ok H
  obtain ⟨hfne, hfok⟩ := rbfFront_ok H.pop hs1 hs2
  obtain ⟨new, eb, _⟩ := rbfBreed_ok (par := par) (it := 0) H.rnd H.two H.lt hfok
  obtain ⟨m, hm'⟩ := Nat.exists_eq_succ_of_ne_zero h0.ne'
  have hz : par.nIter / par.nEpoch = 0 := Nat.div_eq_of_lt hit
  have : rbfSearch env par (rbfRun par fitScaler vol drs d knn X y) (min X.length par.mMax) = .error .zeroDivision := by
    unfold rbfSearch
    rw [H.runs, ok_bind]
    simp only
    rw [hm']
    unfold rbfLoop rbfIter
    simp only
    unfold rbfStart' rbfStart at eb
    rw [eb, ok_bind, if_pos hz]
    rfl
  rw [this]
  rfl

/-! ## Examples -/

/-- Neurons without content; the fewer neurons, the smaller the loss. -/
def rbEnv : RbfEnv Unit where
  node := fun _ _ => ()
  clone := fun _ _ => ()
  mutate := fun _ _ => ()
  addConn := fun _ _ => ()
  dropConn := fun _ _ => ()
  recentre := fun _ _ _ _ => ()
  eval := fun net _ _ => .fin net.length
  rnd := fun _ _ => 0
  coin := fun _ => 0

def rbPar : RbfParams where
  smote := exPar
  mMin := 4
  mMax := 10
  nPop := 10
  nInit := 2
  nIter := 1
  nEpoch := 1

def rbScaler : List Row → Row × Row := fun _ => ([1, 2], [1, 2])

theorem rb_input : RbfInput rbPar rbScaler (fun _ => 1) (fun _ => exDraws) 2 exKnn exX exY 1 0 where
  wf := ⟨rfl, by decide +kernel⟩
  min := exY_min
  more := by decide
  need := by decide +kernel
  knn := exKnn_ok
  draws := fun _ => exDraws_ok
  pos := by intro _ i j; simp only [exDraws]; positivity
  dim := by decide
  mode := Or.inl rfl
  within := Or.inl rfl
  gauss := rfl
  mean := rfl
  std := rfl
  stdPos := by decide +kernel

theorem rb_rnd : RndOK rbEnv := fun _ _ h => h

/-- The hypotheses of `C110_dsrbf`, and losses that are numbers. -/
example : RbfInput rbPar rbScaler (fun _ => 1) (fun _ => exDraws) 2 exKnn exX exY 1 0 ∧ RndOK rbEnv ∧ 2 ≤ rbPar.mMin ∧
    rbPar.mMin < min exX.length rbPar.mMax ∧ FiniteLoss rbEnv :=
  ⟨rb_input, rb_rnd, by decide, by decide, fun net _ _ => ⟨_, rfl⟩⟩

/-- The constructor accepts a smallest size of one, but recombining a network with a single neuron is a `ValueError`. -/
theorem C110_single : RbfInput { rbPar with mMin := 1 } rbScaler (fun _ => 1) (fun _ => exDraws) 2 exKnn exX exY 1 0 ∧
    sample defaultChecks 2 (dsrbfAlg rbEnv { rbPar with mMin := 1 } rbScaler (fun _ => 1) (fun _ => exDraws) 2 exKnn) exX exY =
      .error .valueError :=
  ⟨⟨rb_input.wf, rb_input.min, rb_input.more, rb_input.need, rb_input.knn, rb_input.draws, rb_input.pos, rb_input.dim, rb_input.mode,
    rb_input.within, rb_input.gauss, rb_input.mean, rb_input.std, rb_input.stdPos⟩, by decide +kernel⟩

/-- Recombination makes networks smaller than the smallest size of the range: with four to ten hidden units the winner has two. -/
theorem C110_small : (rbfSearch rbEnv rbPar (rbfRun rbPar rbScaler (fun _ => 1) (fun _ => exDraws) 2 exKnn exX exY)
    (min exX.length rbPar.mMax)).map (fun p => p.net.length) = .ok 2 ∧ rbPar.mMin = 4 := by
  decide +kernel

/-- `n_sampling_epoch = 5` with nine iterations: SMOTE is run nine more times. -/
example : resamplings { rbPar with nIter := 9, nEpoch := 5 } 9 = 9 := by decide +kernel

/-- The hypotheses of `C110_labels`, with labels two and three. -/
example : RbfInput rbPar rbScaler (fun _ => 1) (fun _ => exDraws) 2 exKnn exX (exY.map (· + 2)) 3 2 ∧
    (0 ∉ exY.map (· + 2) ∨ 1 ∉ exY.map (· + 2)) :=
  ⟨⟨⟨rfl, by decide +kernel⟩, ⟨by decide, by decide, by decide, Or.inl (by decide)⟩, by decide, by decide +kernel, exKnn_ok,
    rb_input.draws, rb_input.pos, rb_input.dim, rb_input.mode, rb_input.within, rfl, rfl, rfl, by decide +kernel⟩, by decide⟩

/-- `C110_epochs`: one iteration with two epochs. -/
example : sample defaultChecks 2 (dsrbfAlg rbEnv { rbPar with nEpoch := 2 } rbScaler (fun _ => 1) (fun _ => exDraws) 2 exKnn) exX exY =
    .error .zeroDivision := by decide +kernel

end Verif

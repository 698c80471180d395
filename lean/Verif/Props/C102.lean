import Verif.Model.PsoBat
import Verif.Props.C01
import Verif.Props.C38
import Verif.Props.C51
import Verif.Props.C98
import Verif.Lemmas.Interp
import Verif.Lemmas.SmoteExample
import Mathlib.Tactic.Linarith
import Mathlib.Tactic.FieldSimp
import Mathlib.Tactic.Ring
import Mathlib.Tactic.Positivity
import Mathlib.Data.Rat.Floor

/-!
# C102: SMOTE_PSOBAT
-/

namespace Verif

/-! ## Specification -/

/-- What is assumed of the environment: `randint` and `random_sample` stay in their ranges, the sorting is a sorting. -/
structure PbEnv.OK (env : PbEnv) : Prop where
  k0 : ∀ hi p, 1 < hi → 1 ≤ env.k0 hi p ∧ env.k0 hi p < hi
  u0 : ∀ p, 0 ≤ env.u0 p ∧ env.u0 p < 1
  slot : ∀ i p, 0 ≤ env.slot i p ∧ env.slot i p < 1
  sort_perm : ∀ l, (env.sort l).Perm l
  sort_first : ∀ l e, (env.sort l).head? = some e → ∀ e' ∈ l, e'.2.1 ≤ e.2.1

/-- At least one and at most `hi` neighbours, a proportion from 0.1 to 2. -/
def Combo.InRange (hi : Nat) (c : Combo) : Prop := 1 ≤ c.k ∧ c.k ≤ hi ∧ 1 / 10 ≤ c.prop ∧ c.prop ≤ 2

/-- The kappa of the combination is larger than 0.4. -/
def Good (f : Nat → ℚ → Option ℚ × ℚ) (c : Combo) : Prop := ∃ kap, (f ⌊c.k⌋.toNat c.prop).1 = some kap ∧ 2 / 5 < kap

/-- The accuracy of the combination. -/
def accuracyOf (f : Nat → ℚ → Option ℚ × ℚ) (c : Combo) : ℚ := (f ⌊c.k⌋.toNat c.prop).2

/-- How the best of the swarm changes with one iteration: `cur` is `none` as long as nothing good was found. A good combination is replaced by
one that is less accurate, the most accurate one of these, and by nothing else. -/
def Drift (f : Nat → ℚ → Option ℚ × ℚ) (cur : Option Combo) (B : List Combo) (new : Option Combo) : Prop :=
  match cur with
  | none => (new = none ∧ ∀ e ∈ B, ¬ Good f e) ∨
      ∃ c ∈ B, new = some c ∧ Good f c ∧ ∀ e ∈ B, Good f e → accuracyOf f e ≤ accuracyOf f c
  | some b => (new = some b ∧ ∀ e ∈ B, Good f e → accuracyOf f b ≤ accuracyOf f e) ∨
      ∃ c ∈ B, new = some c ∧ Good f c ∧ accuracyOf f c < accuracyOf f b ∧
        ∀ e ∈ B, Good f e → accuracyOf f e < accuracyOf f b → accuracyOf f e ≤ accuracyOf f c

/-- The iterations one after the other. -/
inductive Drifts (f : Nat → ℚ → Option ℚ × ℚ) : Option Combo → List (List Combo) → Option Combo → Prop
  | nil {cur} : Drifts f cur [] cur
  | cons {cur B mid Bs new} : Drift f cur B mid → Drifts f mid Bs new → Drifts f cur (B :: Bs) new

/-! ## Ranges -/

theorem pbClip_mem {lo hi : ℚ} (h : lo ≤ hi) (x : ℚ) : lo ≤ pbClip lo hi x ∧ pbClip lo hi x ≤ hi := by
  unfold pbClip
  exact ⟨le_min (le_max_right _ _) h, min_le_right _ _⟩

theorem comboClip_inRange {hi : Nat} (h : 1 ≤ hi) (c : Combo) : (comboClip hi c).InRange hi := by
  have h1 : (1 : ℚ) ≤ hi := by exact_mod_cast h
  obtain ⟨a, b⟩ := pbClip_mem h1 c.k
  obtain ⟨a', b'⟩ := pbClip_mem (lo := 1 / 10) (hi := 2) (by norm_num) c.prop
  exact ⟨a, b, a', b'⟩

theorem pbInit_inRange {env : PbEnv} (henv : env.OK) {hi : Nat} (h : 1 < hi) (p : Nat) : (pbInit env hi p).InRange hi := by
  obtain ⟨h1, h2⟩ := henv.k0 hi p h
  obtain ⟨h3, h4⟩ := henv.u0 p
  unfold pbInit Combo.InRange
  refine ⟨?_, ?_, ?_, ?_⟩
  · simp only; exact_mod_cast h1
  · simp only; exact_mod_cast h2.le
  · simp only; linarith
  · simp only; linarith

/-! ## The swarm -/

theorem pbPick_none {l : List (Combo × Option ℚ × ℚ)} (h : pbPick l = none) : l = [] := by
  by_contra hne
  unfold pbPick at h
  have := (argminIdx_spec (l := l.map (fun e => - e.2.2)) (by simpa using hne)).1
  rw [List.length_map] at this
  rw [List.getElem?_eq_getElem this] at h
  exact absurd h (by simp)

theorem pbPick_some {l : List (Combo × Option ℚ × ℚ)} {e : Combo × Option ℚ × ℚ} (h : pbPick l = some e) :
    e ∈ l ∧ ∀ e' ∈ l, e'.2.2 ≤ e.2.2 := by
  unfold pbPick at h
  have hm := List.mem_of_getElem? h
  refine ⟨hm, fun e' he' => ?_⟩
  have hne : l.map (fun e => - e.2.2) ≠ [] := by
    intro h0
    rw [List.map_eq_nil_iff] at h0
    rw [h0] at hm
    simp at hm
  have := (argminIdx_spec hne).2 (- e'.2.2) (List.mem_map.2 ⟨e', he', rfl⟩)
  rw [List.getD_eq_getElem?_getD, List.getElem?_map, h] at this
  simp only [Option.map_some, Option.getD_some] at this
  linarith

theorem pbGt_iff {a : Option ℚ} {b : ℚ} : pbGt a b = true ↔ ∃ x, a = some x ∧ b < x := by
  cases a <;> simp [pbGt]

/-- The best of a state, as in the specification. -/
def PbSwarm.Holds (f : Nat → ℚ → Option ℚ × ℚ) (c0 : Combo) (st : PbSwarm) (cur : Option Combo) : Prop :=
  (cur = none ∧ st.gbest = c0 ∧ st.gkappa = 0) ∨ (cur = some st.gbest ∧ 2 / 5 < st.gkappa ∧ pbEval f st.gbest = (some st.gkappa, st.gacc))

theorem pbPsoStep_drift {f : Nat → ℚ → Option ℚ × ℚ} {par : PbParams} {hi : Nat} {st : PbSwarm} {c0 : Combo} {cur : Option Combo}
    (h : st.Holds f c0 cur) :
    ∃ new, Drift f cur (st.parts.map PbParticle.x) new ∧ (pbPsoStep f par hi st).1.Holds f c0 new := by
  unfold pbPsoStep
  simp only
  obtain ⟨l, hl⟩ : ∃ l, l = st.parts.map (fun p => (p.x, pbEval f p.x)) := ⟨_, rfl⟩
  rw [← hl]
  have hmem : ∀ e, e ∈ l ↔ e.1 ∈ st.parts.map PbParticle.x ∧ e.2 = pbEval f e.1 := by
    rintro ⟨c, s⟩
    rw [hl]
    simp only [List.mem_map]
    constructor
    · rintro ⟨p, hp, he⟩
      obtain ⟨e1, e2⟩ := Prod.mk.inj he
      rw [← e1, ← e2]
      exact ⟨⟨p, hp, rfl⟩, rfl⟩
    · rintro ⟨⟨p, hp, rfl⟩, rfl⟩
      exact ⟨p, hp, rfl⟩
  have hgood : ∀ c, Good f c ↔ pbGt (pbEval f c).1 (2 / 5) = true := by
    intro c
    rw [pbGt_iff]
    rfl
  unfold pbGlobal
  cases h1 : pbPick (l.filter (fun e => pbGt (e.2.1.map (min st.gkappa)) (2 / 5) && decide (e.2.2 < st.gacc))) with
  | some e =>
    obtain ⟨hm, hbest⟩ := pbPick_some h1
    rw [List.mem_filter, Bool.and_eq_true, decide_eq_true_eq, pbGt_iff] at hm
    obtain ⟨hel, ⟨x, hx, hlt⟩, hacc⟩ := hm
    rw [Option.map_eq_some_iff] at hx
    obtain ⟨kap, hkap, rfl⟩ := hx
    obtain ⟨hlt1, hlt2⟩ := lt_min_iff.1 hlt
    rcases h with ⟨_, _, h0⟩ | ⟨hcur, hk, hev⟩
    · rw [h0] at hlt1; norm_num at hlt1
    · obtain ⟨hB, he⟩ := (hmem e).1 hel
      have hg : Good f e.1 := (hgood _).2 (pbGt_iff.2 ⟨kap, by rw [← he]; exact hkap, hlt2⟩)
      have hacce : accuracyOf f e.1 = e.2.2 := by rw [he]; rfl
      have haccb : accuracyOf f st.gbest = st.gacc := by
        have : accuracyOf f st.gbest = (pbEval f st.gbest).2 := rfl
        rw [this, hev]
      refine ⟨some e.1, ?_, Or.inr ⟨rfl, ?_, ?_⟩⟩
      · rw [hcur]
        refine Or.inr ⟨e.1, hB, rfl, hg, by rw [hacce, haccb]; exact hacc, ?_⟩
        intro e' he' hg' hlt'
        rw [hacce]
        have := hbest (e', pbEval f e') (by
          rw [List.mem_filter, Bool.and_eq_true, decide_eq_true_eq, pbGt_iff]
          refine ⟨(hmem _).2 ⟨he', rfl⟩, ?_, ?_⟩
          · obtain ⟨k', hk', hk2⟩ := hg'
            exact ⟨min st.gkappa k', by
              show Option.map _ (pbEval f e').1 = _
              unfold pbEval; rw [hk']; rfl, lt_min hk hk2⟩
          · rw [haccb] at hlt'; exact hlt')
        exact this
      · simp only
        rw [hkap]
        exact hlt2
      · simp only
        rw [← he]
        ext
        · rw [hkap]; rfl
        · rfl
  | none =>
    have hno1 := pbPick_none h1
    cases h2 : pbPick (l.filter (fun e => pbGt e.2.1 (2 / 5) && decide (st.gkappa ≤ 2 / 5))) with
    | some e =>
      obtain ⟨hm, hbest⟩ := pbPick_some h2
      rw [List.mem_filter, Bool.and_eq_true, decide_eq_true_eq, pbGt_iff] at hm
      obtain ⟨hel, ⟨kap, hkap, hlt2⟩, hle⟩ := hm
      rcases h with ⟨hcur, _, h0⟩ | ⟨_, hk, _⟩
      · obtain ⟨hB, he⟩ := (hmem e).1 hel
        have hg : Good f e.1 := (hgood _).2 (pbGt_iff.2 ⟨kap, by rw [← he]; exact hkap, hlt2⟩)
        have hacce : accuracyOf f e.1 = e.2.2 := by rw [he]; rfl
        refine ⟨some e.1, ?_, Or.inr ⟨rfl, ?_, ?_⟩⟩
        · rw [hcur]
          refine Or.inr ⟨e.1, hB, rfl, hg, ?_⟩
          intro e' he' hg'
          rw [hacce]
          exact hbest (e', pbEval f e') (by
            rw [List.mem_filter, Bool.and_eq_true, decide_eq_true_eq]
            exact ⟨(hmem _).2 ⟨he', rfl⟩, (hgood _).1 hg', hle⟩)
        · simp only
          rw [hkap]
          exact hlt2
        · simp only
          rw [← he]
          ext
          · rw [hkap]; rfl
          · rfl
      · exact absurd hle (not_le.2 hk)
    | none =>
      have hno2 := pbPick_none h2
      refine ⟨cur, ?_, h⟩
      rcases h with ⟨hcur, _, h0⟩ | ⟨hcur, hk, hev⟩
      · rw [hcur]
        refine Or.inl ⟨rfl, fun e he hg => ?_⟩
        have : (e, pbEval f e) ∈ l.filter (fun e => pbGt e.2.1 (2 / 5) && decide (st.gkappa ≤ 2 / 5)) := by
          rw [List.mem_filter, Bool.and_eq_true, decide_eq_true_eq]
          exact ⟨(hmem _).2 ⟨he, rfl⟩, (hgood _).1 hg, by rw [h0]; norm_num⟩
        rw [hno2] at this
        simp at this
      · rw [hcur]
        refine Or.inl ⟨rfl, fun e he hg => ?_⟩
        by_contra hlt
        have hlt := not_le.1 hlt
        have haccb : accuracyOf f st.gbest = st.gacc := by
          have : accuracyOf f st.gbest = (pbEval f st.gbest).2 := rfl
          rw [this, hev]
        have : (e, pbEval f e) ∈ l.filter (fun e => pbGt (e.2.1.map (min st.gkappa)) (2 / 5) && decide (e.2.2 < st.gacc)) := by
          rw [List.mem_filter, Bool.and_eq_true, decide_eq_true_eq, pbGt_iff]
          refine ⟨(hmem _).2 ⟨he, rfl⟩, ?_, ?_⟩
          · obtain ⟨k', hk', hk2⟩ := hg
            exact ⟨min st.gkappa k', by
              show Option.map _ (pbEval f e).1 = _
              unfold pbEval; rw [hk']; rfl, lt_min hk hk2⟩
          · rw [haccb] at hlt; exact hlt
        rw [hno1] at this
        simp at this

theorem pbReduce_le {r : ℚ} (hr : 0 < r) (v : ℚ) : |pbReduce r v| ≤ r := by
  unfold pbReduce
  by_cases h : 1 < |v| / r
  · rw [if_pos h]
    have hc : |v| / r ≤ (⌈|v| / r⌉ : ℚ) := Int.le_ceil _
    have hpos : (0 : ℚ) < (⌈|v| / r⌉ : ℚ) := by linarith
    rw [abs_div, abs_of_pos hpos, div_le_iff₀ hpos]
    rw [div_le_iff₀ hr] at hc
    linarith
  · rw [if_neg h]
    have := not_lt.1 h
    rw [div_le_one hr] at this
    exact this

/-- The particles of a state are in their ranges, and so are their velocities. -/
def PbSwarm.InRange (nPop hi : Nat) (st : PbSwarm) : Prop :=
  st.parts.length = nPop ∧ ∀ p ∈ st.parts, p.x.InRange hi ∧ |p.v.1| ≤ (hi : ℚ) - 1 ∧ |p.v.2| ≤ 2 - 1 / 10

theorem pbPsoStep_range {f : Nat → ℚ → Option ℚ × ℚ} {par : PbParams} {hi : Nat} (hh : 1 < hi) {st : PbSwarm} {n : Nat} (h : st.InRange n hi) :
    (pbPsoStep f par hi st).1.InRange n hi := by
  unfold pbPsoStep
  simp only
  refine ⟨by simp [h.1], ?_⟩
  intro p hp
  obtain ⟨q, _, rfl⟩ := List.mem_map.1 hp
  have h1 : (0 : ℚ) < (hi : ℚ) - 1 := by
    have : (1 : ℚ) < hi := by exact_mod_cast hh
    linarith
  exact ⟨comboClip_inRange (by omega) _, pbReduce_le h1 _, pbReduce_le (by norm_num) _⟩

theorem pbPsoLoop_spec {f : Nat → ℚ → Option ℚ × ℚ} {par : PbParams} {hi : Nat} (hh : 1 < hi) {c0 : Combo} (n : Nat) {nc m : Nat} {st : PbSwarm}
    {cur : Option Combo} (hr : st.InRange m hi) (h : st.Holds f c0 cur) :
    ∃ (Bs : List (List Combo)) (new : Option Combo), Bs.length ≤ n ∧ (∀ B ∈ Bs, B.length = m ∧ ∀ c ∈ B, c.InRange hi) ∧ Drifts f cur Bs new ∧
      (pbPsoLoop f par hi n nc st).Holds f c0 new ∧ (0 < n → nc ≤ par.nPop → Bs.head? = some (st.parts.map PbParticle.x)) := by
  induction n generalizing nc st cur with
  | zero => exact ⟨[], cur, by simp, by simp, .nil, h, by omega⟩
  | succ n ih =>
    rw [pbPsoLoop]
    by_cases hc : par.nPop < nc
    · rw [if_pos hc]
      exact ⟨[], cur, by simp, by simp, .nil, h, fun _ h' => by omega⟩
    · rw [if_neg hc]
      obtain ⟨mid, hd, hh'⟩ := pbPsoStep_drift (par := par) (hi := hi) h
      obtain ⟨Bs, new, h1, h2, h3, h4, _⟩ := ih (nc := if (pbPsoStep f par hi st).2 then nc + 1 else 0) (pbPsoStep_range (f := f) (par := par) hh hr) hh'
      refine ⟨st.parts.map PbParticle.x :: Bs, new, by simpa using h1, ?_, .cons hd h3, h4, fun _ _ => rfl⟩
      intro B hB
      rcases List.mem_cons.1 hB with rfl | hB
      · refine ⟨by simp [hr.1], fun c hc => ?_⟩
        obtain ⟨p, hp, rfl⟩ := List.mem_map.1 hc
        exact (hr.2 p hp).1
      · exact h2 B hB

/-! ## The bats -/

/-- Either nothing was kept, or the first one is good. -/
def BatKept (nKeep : Nat) (kept : List (Combo × ℚ × ℚ)) : Prop :=
  kept.length = nKeep ∧ ((∀ e ∈ kept, e.2.1 < 0) ∨ ∃ e, kept.head? = some e ∧ 2 / 5 < e.2.1)

theorem batKept_sort {env : PbEnv} (henv : env.OK) {n : Nat} {kept : List (Combo × ℚ × ℚ)} (hl : kept.length = n)
    (h : (∀ e ∈ kept, e.2.1 < 0) ∨ ∃ e ∈ kept, 2 / 5 < e.2.1) : BatKept n (env.sort kept) := by
  have hp := henv.sort_perm kept
  refine ⟨by rw [hp.length_eq, hl], ?_⟩
  rcases h with h | ⟨e, he, hgt⟩
  · exact Or.inl fun e he => h e (hp.mem_iff.1 he)
  · right
    cases hh : env.sort kept with
    | nil =>
      rw [hh] at hp
      rw [← hp.nil_eq] at he
      simp at he
    | cons a l =>
      exact ⟨a, rfl, lt_of_lt_of_le hgt (henv.sort_first kept a (by rw [hh]; rfl) e he)⟩

theorem batSearch_ok {env : PbEnv} (henv : env.OK) {hi : Nat} (hh : 1 < hi) {loudness : ℚ} {i p : Nat} {b : Bat} {n : Nat} (hn : 1 ≤ n)
    (hb : BatKept n b.kept) : ∃ b', batSearch env hi loudness i p b = .ok b' ∧ b'.x.InRange hi ∧ b'.kept = b.kept := by
  unfold batSearch
  simp only
  obtain ⟨lens, hlens⟩ : ∃ lens, lens = b.kept.countP (fun e => decide (0 ≤ e.2.1)) := ⟨_, rfl⟩
  rw [← hlens]
  have hle : lens ≤ b.kept.length := by rw [hlens]; exact List.countP_le_length
  have hlt : ⌊(lens : ℚ) * env.slot i p⌋.toNat < b.kept.length := by
    obtain ⟨s0, s1⟩ := henv.slot i p
    rcases Nat.eq_zero_or_pos lens with h0 | hpos
    · rw [h0]
      simp only [Nat.cast_zero, zero_mul, Int.floor_zero, Int.toNat_zero]
      have := hb.1
      omega
    · have h1 : ⌊(lens : ℚ) * env.slot i p⌋ < (lens : Int) := by
        rw [Int.floor_lt]
        have : (0 : ℚ) < lens := by exact_mod_cast hpos
        push_cast
        nlinarith
      omega
  rw [getRow_ok.2 (List.getElem?_eq_getElem hlt), ok_bind]
  exact ⟨_, rfl, comboClip_inRange (by omega) _, rfl⟩

theorem batLocal_ok {env : PbEnv} (henv : env.OK) {n : Nat} (hn : 2 ≤ n) {b : Bat} (hb : BatKept n b.kept) (s : Option ℚ × ℚ) :
    ∃ b', batLocal env n b s = .ok b' ∧ BatKept n b'.kept ∧ b'.x = b.x := by
  unfold batLocal
  have h0 : 0 < b.kept.length := by rw [hb.1]; omega
  rw [getRow_ok.2 (List.getElem?_eq_getElem h0), ok_bind]
  simp only
  have hsame : BatKept n (env.sort b.kept) := by
    apply batKept_sort henv hb.1
    rcases hb.2 with h | ⟨e, he, hgt⟩
    · exact Or.inl h
    · exact Or.inr ⟨e, List.mem_of_mem_head? he, hgt⟩
  obtain ⟨imp, himp⟩ : ∃ imp : Bool, imp = batImproved (some b.kept[0].2.1, b.kept[0].2.2) s := ⟨_, rfl⟩
  rw [← himp]
  cases imp with
  | false => exact ⟨_, rfl, hsame, rfl⟩
  | true =>
    cases hs : s.1 with
    | none => simp [batImproved, hs] at himp
    | some kap =>
      unfold batImproved at himp
      rw [hs] at himp
      simp only at himp
      have himp := himp.symm
      rw [Bool.and_eq_true, Bool.and_eq_true, decide_eq_true_eq, decide_eq_true_eq] at himp
      obtain ⟨⟨_, hkap⟩, hfirst⟩ := himp
      have hneg : ∀ e ∈ b.kept, e.2.1 < 0 := by
        rcases hb.2 with h | ⟨e, he, hgt⟩
        · exact h
        · have : b.kept.head? = some b.kept[0] := by
            rw [List.head?_eq_getElem?, List.getElem?_eq_getElem h0]
          rw [this] at he
          injection he with he
          rw [← he] at hgt
          exact absurd hfirst (not_le.2 hgt)
      have hcount : b.kept.countP (fun e => decide (0 ≤ e.2.1)) = 0 := by
        rw [List.countP_eq_zero]
        intro e he
        simpa using hneg e he
      rw [hcount]
      have hmin : min (0 + 1) n = 1 := by omega
      rw [if_pos rfl, hmin, if_pos (by rw [hb.1]; omega)]
      refine ⟨_, rfl, ?_, rfl⟩
      apply batKept_sort henv (by rw [List.length_set, hb.1])
      right
      exact ⟨(b.x, (some kap).getD 0, s.2), List.mem_set (by rw [hb.1]; omega) _, by simpa using hkap⟩

theorem batCheckGlobal_lt {g : Option ℚ × ℚ} {scores : List (Option ℚ × ℚ)} {j : Nat} (h : batCheckGlobal g scores = some j) : j < scores.length := by
  have key : ∀ m : List (Option ℚ × ℚ), m.length ≤ scores.length → m ≠ [] → argminIdx (m.map (fun s => - s.2)) < scores.length := by
    intro m hm hne
    have := (argminIdx_spec (l := m.map (fun s => - s.2)) (by simpa using hne)).1
    rw [List.length_map] at this
    omega
  have aux : ∀ m1 m2 : List (Option ℚ × ℚ), m1.length ≤ scores.length → m2.length ≤ scores.length →
      (if m2 ≠ [] then some (argminIdx (m2.map (fun s => - s.2))) else if m1 ≠ [] then some (argminIdx (m1.map (fun s => - s.2))) else none) = some j →
      j < scores.length := by
    intro m1 m2 h1 h2 h
    split at h
    · rename_i hne
      injection h with h
      rw [← h]
      exact key _ h2 hne
    · split at h
      · rename_i hne
        injection h with h
        rw [← h]
        exact key _ h1 hne
      · exact absurd h (by simp)
  exact aux _ _ (List.length_filter_le _ _) (List.length_filter_le _ _) h

theorem batStep_ok {env : PbEnv} (henv : env.OK) {f : Nat → ℚ → Option ℚ × ℚ} {par : PbParams} {hi : Nat} (hh : 1 < hi) (hk : 2 ≤ par.nKeep)
    {st : PbBats} {n : Nat} (hl : st.bats.length = n) (hst : ∀ b ∈ st.bats, BatKept par.nKeep b.kept) (i : Nat) :
    ∃ (r : PbBats × Bool) (B : List Combo), batStep env f par hi st i = .ok r ∧ B.length = n ∧ (∀ c ∈ B, c.InRange hi) ∧ r.1.bats.length = n ∧
      (∀ b ∈ r.1.bats, BatKept par.nKeep b.kept) ∧ (r.1.gbest = st.gbest ∨ r.1.gbest ∈ B) := by
  unfold batStep
  simp only
  obtain ⟨moved, hmv⟩ : ∃ moved, moved = st.bats.mapIdx (fun p (b : Bat) =>
    ({ b with v := (b.v.1 + (b.x.k - st.gbest.k) * (env.freq i p * 10), b.v.2 + (b.x.prop - st.gbest.prop) * (env.freq i p * 10)),
              x := ⟨b.x.k + (b.v.1 + (b.x.k - st.gbest.k) * (env.freq i p * 10)),
                b.x.prop + (b.v.2 + (b.x.prop - st.gbest.prop) * (env.freq i p * 10))⟩ } : Bat)) := ⟨_, rfl⟩
  rw [← hmv]
  have hml : moved.length = n := by rw [hmv]; simpa using hl
  have hmk : ∀ b ∈ moved, BatKept par.nKeep b.kept := by
    intro b hb
    rw [hmv] at hb
    obtain ⟨p, hp, rfl⟩ := List.mem_mapIdx.1 hb
    exact hst st.bats[p] (List.getElem_mem hp)
  obtain ⟨ld, hld⟩ : ∃ ld, ld = ((List.range par.nPop).map (fun p => env.loud p 2)).sum / (par.nPop : ℚ) := ⟨_, rfl⟩
  rw [← hld]
  obtain ⟨bats, hbats⟩ := mapM_exists_ok (l := moved.zipIdx) (f := fun (q : Bat × Nat) => batSearch env hi ld i q.2 q.1) (by
    rintro ⟨b, p⟩ hbp
    obtain ⟨b', hb', _⟩ := batSearch_ok henv hh (loudness := ld) (i := i) (p := p) (by omega) (hmk b (List.fst_mem_of_mem_zipIdx hbp))
    exact ⟨b', hb'⟩)
  have hbl : bats.length = n := by rw [mapM_ok_length hbats, List.length_zipIdx, hml]
  have hbr : ∀ b ∈ bats, b.x.InRange hi ∧ BatKept par.nKeep b.kept := by
    intro b hb
    obtain ⟨⟨b0, p⟩, hm, he⟩ := mapM_ok_mem hbats hb
    have hk0 := hmk b0 (List.fst_mem_of_mem_zipIdx hm)
    obtain ⟨b', hb', h1, h2⟩ := batSearch_ok henv hh (loudness := ld) (i := i) (p := p) (by omega) hk0
    simp only at he
    rw [hb'] at he
    injection he with he
    rw [← he, h2]
    exact ⟨h1, hk0⟩
  have e1 : moved.zipIdx.mapM (fun (b, p) => batSearch env hi ld i p b) = .ok bats := hbats
  rw [e1, ok_bind]
  obtain ⟨kept, hkept⟩ := mapM_exists_ok (l := List.zip bats (bats.map (fun b => pbEval f b.x))) (f := fun (q : Bat × Option ℚ × ℚ) => batLocal env par.nKeep q.1 q.2) (by
    rintro ⟨b, s⟩ hbs
    obtain ⟨b', hb', _⟩ := batLocal_ok henv hk (hbr b (List.of_mem_zip hbs).1).2 s
    exact ⟨b', hb'⟩)
  have hkl : kept.length = n := by rw [mapM_ok_length hkept, List.length_zip, List.length_map, hbl, Nat.min_self]
  have hkk : ∀ b ∈ kept, BatKept par.nKeep b.kept := by
    intro b hb
    obtain ⟨⟨b0, s⟩, hm, he⟩ := mapM_ok_mem hkept hb
    obtain ⟨b', hb', h1, _⟩ := batLocal_ok henv hk (hbr b0 (List.of_mem_zip hm).1).2 s
    simp only at he
    rw [hb'] at he
    injection he with he
    rw [← he]
    exact h1
  have e2 : (List.zip bats (bats.map (fun b => pbEval f b.x))).mapM (fun (b, s) => batLocal env par.nKeep b s) = .ok kept := hkept
  rw [e2, ok_bind]
  have hB : (bats.map Bat.x).length = n ∧ ∀ c ∈ bats.map Bat.x, c.InRange hi := by
    refine ⟨by simpa using hbl, fun c hc => ?_⟩
    obtain ⟨b, hb, rfl⟩ := List.mem_map.1 hc
    exact (hbr b hb).1
  cases hcg : batCheckGlobal st.gscores (bats.map (fun b => pbEval f b.x)) with
  | none => exact ⟨_, bats.map Bat.x, rfl, hB.1, hB.2, hkl, hkk, Or.inl rfl⟩
  | some j =>
    simp only
    by_cases ha : env.accept i < env.loud j 2
    · rw [if_pos ha]
      have hj := batCheckGlobal_lt hcg
      have hj' : j < bats.length := by simpa using hj
      rw [getRow_ok.2 (List.getElem?_eq_getElem hj'), ok_bind, getRow_ok.2 (List.getElem?_eq_getElem hj), ok_bind]
      exact ⟨_, bats.map Bat.x, rfl, hB.1, hB.2, hkl, hkk, Or.inr (List.mem_map.2 ⟨_, List.getElem_mem hj', rfl⟩)⟩
    · rw [if_neg ha]
      exact ⟨_, bats.map Bat.x, rfl, hB.1, hB.2, hkl, hkk, Or.inl rfl⟩

theorem batLoop_ok {env : PbEnv} (henv : env.OK) {f : Nat → ℚ → Option ℚ × ℚ} {par : PbParams} {hi : Nat} (hh : 1 < hi) (hk : 2 ≤ par.nKeep)
    (m : Nat) {i nc : Nat} {st : PbBats} (hst : ∀ b ∈ st.bats, BatKept par.nKeep b.kept) (hr : st.gbest.InRange hi) :
    ∃ st', batLoop env f par hi m i nc st = .ok st' ∧ st'.gbest.InRange hi := by
  induction m generalizing i nc st with
  | zero => exact ⟨st, rfl, hr⟩
  | succ m ih =>
    rw [batLoop]
    by_cases hc : 10 < nc + 1
    · rw [if_pos hc]
      exact ⟨st, rfl, hr⟩
    · rw [if_neg hc]
      obtain ⟨r, B, h1, _, h3, _, h5, h6⟩ := batStep_ok henv (f := f) hh hk rfl hst i
      rw [h1, ok_bind]
      apply ih h5
      rcases h6 with h6 | h6
      · rw [h6]; exact hr
      · exact h3 _ h6

/-! ## The property -/

/-- **SMOTE_PSOBAT.** With either search, whatever is drawn and whatever the scores are: the result is that of SMOTE with a number of neighbours from 1 to
the smaller of the size of the minority and the range of the object, and a proportion between 0.1 and 2. -/
theorem C102_psobat {env : PbEnv} (henv : env.OK) {par : PbParams} (hk : 2 ≤ par.nKeep) {hi0 : Nat} (hhi : 2 ≤ hi0) {ss : SSParams}
    {vol : List Row → ℚ} {dr : Draws} {d : Nat} {knn : Nat → List Row → List (List Nat)} {X : List Row} {y : List Int} {a b : Int}
    (hwf : WF d X y) (hkn : KnnOK knn) (hdr : dr.OK) (hpos : ∀ i j, 0 < dr.simplexU i j) (hg : ss.gaussian = .none)
    (hmin : IsMinority y a b) (h2 : 2 < y.count a) (hd : 1 ≤ ss.nDim)
    (hmode : ss.simplexSampling = .random ∨ ss.simplexSampling = .deterministic ∨ (ss.simplexSampling = .volume ∧ ∀ vs, 0 < vol vs))
    (hwi : ss.within = .random ∨ (ss.within = .deterministic ∧ ss.nDim ≤ 2)) :
    ∃ (K : Nat) (p : ℚ) (X' : List Row) (y' : List Int), 1 ≤ K ∧ K ≤ min (y.count a) hi0 ∧ 1 / 10 ≤ p ∧ p ≤ 2 ∧
      sample defaultChecks d (psobatAlg env par hi0 ss vol dr d knn) X y = .ok (X', y') ∧
      smoteSample { proportion := p, nNeighbors := K, ss := { ss with nDim := min ss.nDim K } } vol dr d knn X y = .ok (X', y') ∧
      SmoteStep d X y a (requested p (y.count b) (y.count a)) X' y' := by
  obtain ⟨s, hs, rfl, rfl⟩ := stats_of_isMinority hmin
  obtain ⟨hm, hM, hab⟩ := stats_min_mem hs
  rw [sample_default hs, if_neg (by omega)]
  unfold psobatAlg
  rw [stats_count hs hm]
  simp only
  obtain ⟨hi, hhid⟩ : ∃ hi, hi = pbRange hi0 (y.count s.minLabel) := ⟨_, rfl⟩
  have hhi' : hi = min (y.count s.minLabel) hi0 := hhid
  rw [← hhid]
  have hh : 1 < hi := by omega
  obtain ⟨c, hc, hcr⟩ : ∃ c : Combo, pbChoose env (env.eval X y) par hi = .ok c ∧ c.InRange hi := by
    unfold pbChoose
    cases par.method with
    | pso =>
      refine ⟨_, rfl, ?_⟩
      unfold pbPso
      obtain ⟨Bs, new, _, h2, h3, h4, _⟩ := pbPsoLoop_spec (f := env.eval X y) (par := par) hh (c0 := pbInit env hi 0) par.maxit (nc := 0)
        (m := par.nPop) (cur := none)
        (st := { parts := (List.range par.nPop).map (fun p => ⟨pbInit env hi p, (0, 0), pbInit env hi p, 0, 0⟩), gbest := pbInit env hi 0,
                 gkappa := 0, gacc := 0 })
        (by
          refine ⟨by simp, fun p hp => ?_⟩
          obtain ⟨q, _, rfl⟩ := List.mem_map.1 hp
          have h1 : (1 : ℚ) < hi := by exact_mod_cast hh
          refine ⟨pbInit_inRange henv hh q, ?_, ?_⟩
          · simp only [abs_zero]; linarith
          · simp only [abs_zero]; norm_num)
        (Or.inl ⟨rfl, rfl, rfl⟩)
      have hmem : ∀ {cur : Option Combo} {Bs : List (List Combo)} {new : Option Combo}, Drifts (env.eval X y) cur Bs new →
          (∀ B ∈ Bs, ∀ c ∈ B, c.InRange hi) → (∀ c, cur = some c → c.InRange hi) → ∀ c, new = some c → c.InRange hi := by
        intro cur Bs new h
        induction h with
        | nil => exact fun _ h => h
        | @cons cur B mid Bs new hd _ ih =>
          intro hB hcur
          apply ih (fun B hB' => hB B (by simp [hB']))
          intro c hc
          unfold Drift at hd
          cases cur with
          | none =>
            rcases hd with ⟨h1, _⟩ | ⟨c', h1, h2, _⟩
            · rw [h1] at hc; exact absurd hc (by simp)
            · rw [h2] at hc
              injection hc with hc
              rw [← hc]
              exact hB B (by simp) c' h1
          | some b =>
            rcases hd with ⟨h1, _⟩ | ⟨c', h1, h2, _⟩
            · rw [h1] at hc; exact hcur c hc
            · rw [h2] at hc
              injection hc with hc
              rw [← hc]
              exact hB B (by simp) c' h1
      rcases h4 with ⟨_, h5, _⟩ | ⟨h5, _, _⟩
      · rw [h5]; exact pbInit_inRange henv hh 0
      · exact hmem h3 (fun B hB => (h2 B hB).2) (by simp) _ h5
    | bat =>
      obtain ⟨st', h1, h2⟩ := batLoop_ok henv (f := env.eval X y) (par := par) hh hk par.maxit (i := 0) (nc := 0)
        (st := { bats := (List.range par.nPop).map (fun p => ⟨pbInit env hi p, (0, 0), List.replicate par.nKeep (pbInit env hi p, -1, -1)⟩),
                 gbest := pbInit env hi 0, gscores := (some 0, 0) })
        (by
          intro b hb
          obtain ⟨q, _, rfl⟩ := List.mem_map.1 hb
          refine ⟨by simp, Or.inl fun e he => ?_⟩
          rw [List.eq_of_mem_replicate he]
          norm_num)
        (pbInit_inRange henv hh 0)
      refine ⟨st'.gbest, ?_, h2⟩
      simp only
      unfold pbBat
      rw [h1]
      rfl
  rw [hc, ok_bind]
  obtain ⟨r1, r2, r3, r4⟩ := hcr
  have hK1 : 1 ≤ ⌊c.k⌋.toNat := by
    have : (1 : Int) ≤ ⌊c.k⌋ := by rw [Int.le_floor]; exact_mod_cast r1
    omega
  have hK2 : ⌊c.k⌋.toNat ≤ hi := by
    have : ⌊c.k⌋ ≤ (hi : Int) := by
      have := Int.floor_le c.k
      have h' : ((⌊c.k⌋ : Int) : ℚ) ≤ ((hi : Int) : ℚ) := by push_cast; linarith
      exact_mod_cast h'
    omega
  obtain ⟨⟨X', y'⟩, hsm⟩ := C01_smote_total (vol := vol) (par := { proportion := c.prop, nNeighbors := ⌊c.k⌋.toNat, ss := { ss with nDim := min ss.nDim ⌊c.k⌋.toNat } })
    hwf hkn hdr hpos hmin (by simp only; omega) hmode (by
      rcases hwi with h | ⟨h, h'⟩
      · exact Or.inl h
      · exact Or.inr ⟨h, by simp only; omega⟩)
  exact ⟨⌊c.k⌋.toNat, c.prop, X', y', hK1, by omega, r3, r4, hsm, hsm, smoteStep_of hwf hkn hdr hg hs h2 hsm⟩

/-- **The choice of the swarm.** The combinations visited, iteration by iteration, the particles as drawn first; the best changes as `Drift` says. If
nothing good is visited it is the first particle. -/
theorem C102_swarm {env : PbEnv} (henv : env.OK) {f : Nat → ℚ → Option ℚ × ℚ} {par : PbParams} (hp : par.method = .pso) (hit : 1 ≤ par.maxit) {hi : Nat}
    (hh : 1 < hi) :
    ∃ (Bs : List (List Combo)) (c : Combo) (new : Option Combo), pbChoose env f par hi = .ok c ∧ Bs.length ≤ par.maxit ∧
      Bs.head? = some ((List.range par.nPop).map (pbInit env hi)) ∧ (∀ B ∈ Bs, B.length = par.nPop ∧ ∀ c ∈ B, c.InRange hi) ∧ Drifts f none Bs new ∧
      c = new.getD (pbInit env hi 0) := by
  obtain ⟨Bs, new, h1, h2, h3, h4, h5⟩ := pbPsoLoop_spec (f := f) (par := par) hh (c0 := pbInit env hi 0) par.maxit (nc := 0)
    (m := par.nPop) (cur := none)
    (st := { parts := (List.range par.nPop).map (fun p => ⟨pbInit env hi p, (0, 0), pbInit env hi p, 0, 0⟩), gbest := pbInit env hi 0,
             gkappa := 0, gacc := 0 })
    (by
      refine ⟨by simp, fun p hp => ?_⟩
      obtain ⟨q, _, rfl⟩ := List.mem_map.1 hp
      have h1 : (1 : ℚ) < hi := by exact_mod_cast hh
      refine ⟨pbInit_inRange henv hh q, ?_, ?_⟩
      · simp only [abs_zero]; linarith
      · simp only [abs_zero]; norm_num)
    (Or.inl ⟨rfl, rfl, rfl⟩)
  refine ⟨Bs, _, new, by unfold pbChoose; rw [hp], h1, ?_, h2, h3, ?_⟩
  · rw [h5 (by omega) (by omega), List.map_map]
    rfl
  · unfold pbPso
    rcases h4 with ⟨h4, h6, _⟩ | ⟨h4, _, _⟩
    · rw [h4, h6]; rfl
    · rw [h4]; rfl

/-- **Never better than the first good ones.** If the swarm visits anything good at all, what it returns is good, and not more accurate than the best of
the good ones of the first iteration that has any: whatever is found later is taken only if it is less accurate. -/
theorem C102_never_better {f : Nat → ℚ → Option ℚ × ℚ} {Bs : List (List Combo)} {new : Option Combo} (h : Drifts f none Bs new) :
    (new = none ∧ ∀ B ∈ Bs, ∀ e ∈ B, ¬ Good f e) ∨
    ∃ (pre post : List (List Combo)) (B : List Combo) (b c : Combo), Bs = pre ++ B :: post ∧ (∀ B' ∈ pre, ∀ e ∈ B', ¬ Good f e) ∧
      b ∈ B ∧ Good f b ∧ (∀ e ∈ B, Good f e → accuracyOf f e ≤ accuracyOf f b) ∧
      new = some c ∧ Good f c ∧ accuracyOf f c ≤ accuracyOf f b := by
  have later : ∀ {cur : Option Combo} {Bs : List (List Combo)} {new : Option Combo}, Drifts f cur Bs new → ∀ b, cur = some b → Good f b →
      ∃ c, new = some c ∧ Good f c ∧ accuracyOf f c ≤ accuracyOf f b := by
    intro cur Bs new h
    induction h with
    | nil => intro b hb hg; exact ⟨b, hb, hg, le_refl _⟩
    | @cons cur B mid Bs new hd _ ih =>
      intro b hb hg
      rw [hb] at hd
      rcases hd with ⟨h1, _⟩ | ⟨c', _, h2, h3, h4, _⟩
      · exact ih b h1 hg
      · obtain ⟨c, e1, e2, e3⟩ := ih c' h2 h3
        exact ⟨c, e1, e2, by linarith⟩
  have main : ∀ {cur : Option Combo} {Bs : List (List Combo)} {new : Option Combo}, Drifts f cur Bs new → cur = none →
      (new = none ∧ ∀ B ∈ Bs, ∀ e ∈ B, ¬ Good f e) ∨
      ∃ (pre post : List (List Combo)) (B : List Combo) (b c : Combo), Bs = pre ++ B :: post ∧ (∀ B' ∈ pre, ∀ e ∈ B', ¬ Good f e) ∧
        b ∈ B ∧ Good f b ∧ (∀ e ∈ B, Good f e → accuracyOf f e ≤ accuracyOf f b) ∧
        new = some c ∧ Good f c ∧ accuracyOf f c ≤ accuracyOf f b := by
    intro cur Bs new h
    induction h with
    | nil => intro h; exact Or.inl ⟨h, by simp⟩
    | @cons cur B mid Bs new hd hr ih =>
      intro hcur
      rw [hcur] at hd
      rcases hd with ⟨h1, h2⟩ | ⟨b, hb, h1, h2, h3⟩
      · rcases ih h1 with ⟨e1, e2⟩ | ⟨pre, post, B', b, c, e1, e2, e3⟩
        · refine Or.inl ⟨e1, ?_⟩
          intro B' hB'
          rcases List.mem_cons.1 hB' with rfl | hB'
          · exact h2
          · exact e2 B' hB'
        · refine Or.inr ⟨B :: pre, post, B', b, c, by rw [e1]; rfl, ?_, e3⟩
          intro B'' hB''
          rcases List.mem_cons.1 hB'' with rfl | hB''
          · exact h2
          · exact e2 B'' hB''
      · obtain ⟨c, e1, e2, e3⟩ := later hr b h1 h2
        exact Or.inr ⟨[], Bs, B, b, c, rfl, by simp, hb, h2, h3, e1, e2, e3⟩
  exact main h rfl

/-- The range of the object after calls with minority classes of the sizes `ns` (data sets with a minority of at most two rows are returned before it is
touched). -/
def rangeAfter (hi : Nat) (ns : List Nat) : Nat := ns.foldl pbRange hi

/-- **The object remembers the smallest minority class.** The largest number of neighbours the next call may use is 10 or the size of the smallest
minority class of all earlier calls. -/
theorem C102_remembers (ns : List Nat) (hi : Nat) : rangeAfter hi ns ≤ hi ∧ (∀ n ∈ ns, rangeAfter hi ns ≤ n) ∧ (rangeAfter hi ns = hi ∨ rangeAfter hi ns ∈ ns) := by
  unfold rangeAfter
  induction ns generalizing hi with
  | nil => simp
  | cons n ns ih =>
    obtain ⟨h1, h2, h3⟩ := ih (pbRange hi n)
    rw [List.foldl_cons]
    have hr : pbRange hi n = min n hi := rfl
    refine ⟨by omega, ?_, ?_⟩
    · intro m hm
      rcases List.mem_cons.1 hm with rfl | hm
      · omega
      · exact h2 m hm
    · rcases h3 with h3 | h3
      · rw [h3, hr]
        rcases Nat.le_total n hi with h | h
        · right; rw [Nat.min_eq_left h]; simp
        · left; exact Nat.min_eq_right h
      · exact Or.inr (by simp [h3])

/-! ## Concrete cases -/

/-- Draws: the particle `p` starts with `p + 1` neighbours (at most two) and the proportion 0.1. -/
def pbEx (eval : Nat → ℚ → Option ℚ × ℚ) : PbEnv where
  k0 := fun hi p => if p + 1 < hi then p + 1 else 1
  u0 := fun _ => 0
  eval := fun _ _ => eval
  loud := fun _ _ => 1 / 2
  freq := fun _ _ => 0
  pulse := fun _ _ => 0
  slot := fun _ _ => 0
  jit := fun _ _ _ => 0
  accept := fun _ => 0
  sort := fun l => l.insertionSort (fun a b => b.2.1 ≤ a.2.1)

theorem pbEx_ok (eval : Nat → ℚ → Option ℚ × ℚ) : (pbEx eval).OK where
  k0 := by
    intro hi p h
    simp only [pbEx]
    split <;> omega
  u0 := by intro p; simp [pbEx]
  slot := by intro i p; simp [pbEx]
  sort_perm := fun l => List.perm_insertionSort _ l
  sort_first := by
    intro l e he e' he'
    simp only [pbEx] at he
    have : Std.Total (fun a b : Combo × ℚ × ℚ => b.2.1 ≤ a.2.1) := ⟨fun a b => le_total _ _⟩
    have : IsTrans (Combo × ℚ × ℚ) (fun a b => b.2.1 ≤ a.2.1) := ⟨fun a b c h1 h2 => le_trans h2 h1⟩
    have hp := List.pairwise_insertionSort (fun a b : Combo × ℚ × ℚ => b.2.1 ≤ a.2.1) l
    have hm : e' ∈ l.insertionSort (fun a b => b.2.1 ≤ a.2.1) := by rw [List.mem_insertionSort]; exact he'
    cases hl : l.insertionSort (fun a b : Combo × ℚ × ℚ => b.2.1 ≤ a.2.1) with
    | nil => rw [hl] at hm; simp at hm
    | cons a t =>
      rw [hl] at he hp hm
      simp only [List.head?_cons, Option.some.injEq] at he
      subst he
      rcases List.mem_cons.1 hm with rfl | hm
      · exact le_refl _
      · exact (List.pairwise_cons.1 hp).1 e' hm

/-- **A worse combination replaces a better one.** Two particles start with one and two neighbours. Both are good; the second has the accuracy 1, the first
0.9. After the first iteration the best is the second; in the second iteration the first is still there and, being less accurate, is returned. -/
theorem C102_worse : ∃ f : Nat → ℚ → Option ℚ × ℚ, Good f ⟨2, 1 / 10⟩ ∧ accuracyOf f ⟨2, 1 / 10⟩ = 1 ∧
    pbChoose (pbEx f) f ⟨1, 0, 0, 0, .pso, 2, 5⟩ 3 = .ok ⟨2, 1 / 10⟩ ∧
    pbChoose (pbEx f) f ⟨2, 0, 0, 0, .pso, 2, 5⟩ 3 = .ok ⟨1, 1 / 10⟩ ∧ accuracyOf f ⟨1, 1 / 10⟩ = 9 / 10 := by
  refine ⟨fun K _ => if K = 2 then (some 1, 1) else (some (1 / 2), 9 / 10), ⟨1, by decide +kernel, by norm_num⟩, by decide +kernel, ?_, ?_, by decide +kernel⟩
  · decide +kernel
  · decide +kernel

/-- The swarm after `t` iterations. -/
def swarmAfter (f : Nat → ℚ → Option ℚ × ℚ) (par : PbParams) (hi : Nat) (st : PbSwarm) : Nat → PbSwarm
  | 0 => st
  | t + 1 => (pbPsoStep f par hi (swarmAfter f par hi st t)).1

/-- The positions of particle `i` in the first `t` iterations. -/
def beenAt (f : Nat → ℚ → Option ℚ × ℚ) (par : PbParams) (hi : Nat) (st : PbSwarm) (i t : Nat) : List Combo :=
  (List.range t).filterMap (fun r => ((swarmAfter f par hi st r).parts[i]?).map PbParticle.x)

theorem pbPsoLoop_after {f : Nat → ℚ → Option ℚ × ℚ} {par : PbParams} {hi : Nat} {st : PbSwarm} :
    ∀ n t nc, ∃ r, r ≤ n ∧ pbPsoLoop f par hi n nc (swarmAfter f par hi st t) = swarmAfter f par hi st (t + r) := by
  intro n
  induction n with
  | zero => intro t nc; exact ⟨0, le_refl _, rfl⟩
  | succ n ih =>
    intro t nc
    unfold pbPsoLoop
    split
    · exact ⟨0, by omega, rfl⟩
    · obtain ⟨r, h1, h2⟩ := ih (t + 1) (if (pbPsoStep f par hi (swarmAfter f par hi st t)).2 then nc + 1 else 0)
      refine ⟨r + 1, by omega, ?_⟩
      rw [show t + (r + 1) = t + 1 + r by omega, ← h2]
      rfl

/-- **A particle remembers the worst.** Whatever the swarm does, what a particle keeps as its best is its start as long as it has not been at a
good combination; after that it is the least accurate of the good combinations it has been at. -/
theorem C102_memory {f : Nat → ℚ → Option ℚ × ℚ} {par : PbParams} {hi : Nat} {st : PbSwarm} {i : Nat} {p0 : PbParticle}
    (h0 : st.parts[i]? = some p0) (hk : p0.kappa = 0) :
    (∀ n, ∃ t ≤ n, pbPsoLoop f par hi n 0 st = swarmAfter f par hi st t) ∧
    ∀ t, ∃ p, (swarmAfter f par hi st t).parts[i]? = some p ∧
      (((∀ e ∈ beenAt f par hi st i t, ¬ Good f e) ∧ p.best = p0.best) ∨
        (p.best ∈ beenAt f par hi st i t ∧ Good f p.best ∧
          ∀ e ∈ beenAt f par hi st i t, Good f e → accuracyOf f p.best ≤ accuracyOf f e)) := by
  refine ⟨fun n => ?_, fun t => ?_⟩
  · obtain ⟨r, h1, h2⟩ := pbPsoLoop_after (f := f) (par := par) (hi := hi) (st := st) n 0 0
    exact ⟨r, h1, by rw [Nat.zero_add] at h2; exact h2⟩
  have key : ∃ p, (swarmAfter f par hi st t).parts[i]? = some p ∧
      (((∀ e ∈ beenAt f par hi st i t, ¬ Good f e) ∧ p.best = p0.best ∧ p.kappa = 0) ∨
        (p.best ∈ beenAt f par hi st i t ∧ Good f p.best ∧ 2 / 5 < p.kappa ∧ p.acc = accuracyOf f p.best ∧
          ∀ e ∈ beenAt f par hi st i t, Good f e → accuracyOf f p.best ≤ accuracyOf f e)) := by
    induction t with
    | zero => exact ⟨p0, h0, Or.inl ⟨by simp [beenAt], rfl, hk⟩⟩
    | succ t ih =>
      obtain ⟨p, hp, hor⟩ := ih
      have hv : beenAt f par hi st i (t + 1) = beenAt f par hi st i t ++ [p.x] := by
        unfold beenAt
        rw [List.range_succ, List.filterMap_append]
        simp [hp]
      set g := (pbGlobal (swarmAfter f par hi st t) ((swarmAfter f par hi st t).parts.map (fun p => (p.x, pbEval f p.x)))).1.1 with hg
      refine ⟨pbMove par hi g (pbLocal p (pbEval f p.x)), ?_, ?_⟩
      · change ((List.map _ _).map _)[i]? = _
        rw [List.getElem?_map, List.getElem?_map, hp]
        rfl
      have hmv : (pbMove par hi g (pbLocal p (pbEval f p.x))).best = (pbLocal p (pbEval f p.x)).best ∧
          (pbMove par hi g (pbLocal p (pbEval f p.x))).kappa = (pbLocal p (pbEval f p.x)).kappa ∧
          (pbMove par hi g (pbLocal p (pbEval f p.x))).acc = (pbLocal p (pbEval f p.x)).acc := ⟨rfl, rfl, rfl⟩
      rw [hmv.1, hmv.2.1, hmv.2.2, hv]
      by_cases hgood : Good f p.x
      · obtain ⟨kap, e1, e2⟩ := hgood
        have e1' : (pbEval f p.x).1 = some kap := e1
        right
        unfold pbLocal
        rw [e1']
        dsimp only
        rcases hor with ⟨h1, h2, h3⟩ | ⟨h1, h2, h3, h4, h5⟩
        · rw [if_pos (Or.inr ⟨e2, by rw [h3]; norm_num⟩)]
          refine ⟨by simp, ⟨kap, e1, e2⟩, e2, rfl, ?_⟩
          intro e he hge
          rcases List.mem_append.1 he with he | he
          · exact absurd hge (h1 e he)
          · rw [List.mem_singleton.1 he]
        · by_cases hlt : (pbEval f p.x).2 < p.acc
          · rw [if_pos (Or.inl ⟨lt_min h3 e2, hlt⟩)]
            refine ⟨by simp, ⟨kap, e1, e2⟩, e2, rfl, ?_⟩
            intro e he hge
            rcases List.mem_append.1 he with he | he
            · have := h5 e he hge
              rw [h4] at hlt
              exact (hlt.trans_le this).le
            · rw [List.mem_singleton.1 he]
          · rw [if_neg (by
              rintro (⟨_, h⟩ | ⟨_, h⟩)
              · exact hlt h
              · exact absurd h (not_le.2 h3))]
            refine ⟨List.mem_append_left _ h1, h2, h3, h4, ?_⟩
            intro e he hge
            rcases List.mem_append.1 he with he | he
            · exact h5 e he hge
            · rw [List.mem_singleton.1 he, ← h4]
              exact not_lt.1 hlt
      · have hl : pbLocal p (pbEval f p.x) = p := by
          unfold pbLocal
          cases hs : (pbEval f p.x).1 with
          | none => rfl
          | some kap =>
            dsimp only
            have hle : kap ≤ 2 / 5 := by
              by_contra hc
              exact hgood ⟨kap, hs, not_le.1 hc⟩
            rw [if_neg (by
              rintro (⟨h, _⟩ | ⟨h, _⟩)
              · exact absurd (lt_of_lt_of_le h (min_le_right _ _)) (not_lt.2 hle)
              · exact absurd h (not_lt.2 hle))]
        rw [hl]
        rcases hor with ⟨h1, h2, h3⟩ | ⟨h1, h2, h3, h4, h5⟩
        · left
          refine ⟨?_, h2, h3⟩
          intro e he
          rcases List.mem_append.1 he with he | he
          · exact h1 e he
          · rw [List.mem_singleton.1 he]; exact hgood
        · right
          refine ⟨List.mem_append_left _ h1, h2, h3, h4, ?_⟩
          intro e he hge
          rcases List.mem_append.1 he with he | he
          · exact h5 e he hge
          · rw [List.mem_singleton.1 he] at hge; exact absurd hge hgood
  obtain ⟨p, hp, hor⟩ := key
  refine ⟨p, hp, ?_⟩
  rcases hor with ⟨h1, h2, _⟩ | ⟨h1, h2, _, _, h5⟩
  · exact Or.inl ⟨h1, h2⟩
  · exact Or.inr ⟨h1, h2, h5⟩

/-- One particle in two iterations: it starts at a combination of accuracy one and remembers one of accuracy nine tenths. -/
example : let f : Nat → ℚ → Option ℚ × ℚ := fun K _ => if K = 2 then (some 1, 1) else (some (1 / 2), 9 / 10)
    let st : PbSwarm := ⟨[⟨⟨2, 1⟩, (-1, 0), ⟨2, 1⟩, 0, 0⟩], ⟨2, 1⟩, 0, 0⟩
    beenAt f ⟨5, 1, 0, 0, .pso, 1, 5⟩ 3 st 0 2 = [⟨2, 1⟩, ⟨1, 1⟩] ∧
      ((swarmAfter f ⟨5, 1, 0, 0, .pso, 1, 5⟩ 3 st 2).parts.map PbParticle.best) = [⟨1, 1⟩] := by
  decide +kernel

/-- **The wrong bat is returned.** Only the second bat is good; the position found among the good ones (the first) is used as a position among all, so
the first bat, which is not good, becomes the best. -/
theorem C102_wrong_bat : ∃ f : Nat → ℚ → Option ℚ × ℚ, Good f ⟨2, 1 / 10⟩ ∧ ¬ Good f ⟨1, 1 / 10⟩ ∧
    pbChoose (pbEx f) f ⟨1, 0, 0, 0, .bat, 2, 5⟩ 3 = .ok ⟨1, 1 / 10⟩ ∧ pbChoose (pbEx f) f ⟨9, 0, 0, 0, .bat, 2, 5⟩ 3 = .ok ⟨1, 1 / 10⟩ := by
  refine ⟨fun K _ => if K = 2 then (some 1, 1) else (some 0, 1 / 2), ⟨1, by decide +kernel, by norm_num⟩, ?_, by decide +kernel, by decide +kernel⟩
  rintro ⟨kap, h1, h2⟩
  have : (0 : ℚ) = kap := Option.some.inj ((show some (0 : ℚ) = _ by decide +kernel).trans h1)
  rw [← this] at h2
  norm_num at h2

/-- Hypotheses met: the data of the other examples, with the default constants. -/
example : ∃ (K : Nat) (p : ℚ) (X' : List Row) (y' : List Int), 1 ≤ K ∧ K ≤ 3 ∧ 1 / 10 ≤ p ∧ p ≤ 2 ∧
    sample defaultChecks 2 (psobatAlg (pbEx (fun _ _ => (some 1, 1))) ⟨50, 3 / 10, 1 / 10, 1 / 10, .bat, 10, 5⟩ 10 exPar.ss (fun _ => 1) exDraws 2 exKnn) exX exY =
      .ok (X', y') := by
  obtain ⟨K, p, X', y', h1, h2, h3, h4, h5, _⟩ := C102_psobat (pbEx_ok (fun _ _ => (some 1, 1))) (par := ⟨50, 3 / 10, 1 / 10, 1 / 10, .bat, 10, 5⟩)
    (by decide) (hi0 := 10) (by decide) (ss := exPar.ss) (vol := fun _ => 1) (dr := exDraws) (d := 2) (knn := exKnn) (X := exX) (y := exY) (a := 1) (b := 0)
    ⟨by decide, by decide +kernel⟩ exKnn_ok exDraws_ok (fun i j => by simp only [exDraws]; positivity) rfl exY_min (by decide) (by decide) (Or.inl rfl) (Or.inl rfl)
  exact ⟨K, p, X', y', h1, by simpa using h2.trans (by decide), h3, h4, h5⟩

example : rangeAfter 10 [40, 3, 100] = 3 := rfl

/-! ## When the searches stop -/

/-- The number of `true` entries at the end. -/
def streak (flags : List Bool) : Nat := (flags.reverse.takeWhile id).length

theorem streak_append (flags : List Bool) (b : Bool) : streak (flags ++ [b]) = if b then streak flags + 1 else 0 := by
  unfold streak
  cases b <;> simp

/-- For each of the first `t` iterations of the swarm: whether its best stayed. -/
def swarmFlags (f : Nat → ℚ → Option ℚ × ℚ) (par : PbParams) (hi : Nat) (st : PbSwarm) (t : Nat) : List Bool :=
  (List.range t).map (fun r => (pbPsoStep f par hi (swarmAfter f par hi st r)).2)

theorem swarmFlags_succ (f : Nat → ℚ → Option ℚ × ℚ) (par : PbParams) (hi : Nat) (st : PbSwarm) (t : Nat) :
    swarmFlags f par hi st (t + 1) = swarmFlags f par hi st t ++ [(pbPsoStep f par hi (swarmAfter f par hi st t)).2] := by
  unfold swarmFlags
  rw [List.range_succ, List.map_append]
  rfl

theorem pbPsoLoop_stops {f : Nat → ℚ → Option ℚ × ℚ} {par : PbParams} {hi : Nat} {st : PbSwarm} (n i : Nat) :
    ∃ t, i ≤ t ∧ t ≤ i + n ∧ pbPsoLoop f par hi n (streak (swarmFlags f par hi st i)) (swarmAfter f par hi st i) = swarmAfter f par hi st t ∧
      (t = i + n ∨ par.nPop < streak (swarmFlags f par hi st t)) ∧ ∀ s, i ≤ s → s < t → streak (swarmFlags f par hi st s) ≤ par.nPop := by
  induction n generalizing i with
  | zero => exact ⟨i, by omega, by omega, rfl, Or.inl rfl, fun s h1 h2 => by omega⟩
  | succ n ih =>
    unfold pbPsoLoop
    split
    · rename_i hc
      exact ⟨i, by omega, by omega, rfl, Or.inr hc, fun s h1 h2 => by omega⟩
    · rename_i hc
      obtain ⟨t, h1, h2, h3, h4, h5⟩ := ih (i + 1)
      rw [swarmFlags_succ, streak_append] at h3
      refine ⟨t, by omega, by omega, h3, h4.imp (fun h => by omega) id, fun s s1 s2 => ?_⟩
      rcases Nat.eq_or_lt_of_le s1 with rfl | s1
      · omega
      · exact h5 s s1 s2

/-- **When the swarm stops.** After all its iterations, or, earlier, as soon as its best has not changed in more iterations in a row than there are
particles. -/
theorem C102_swarm_stops (f : Nat → ℚ → Option ℚ × ℚ) (par : PbParams) (hi n : Nat) (st : PbSwarm) :
    ∃ t, t ≤ n ∧ pbPsoLoop f par hi n 0 st = swarmAfter f par hi st t ∧
      (t = n ∨ par.nPop < streak (swarmFlags f par hi st t)) ∧ ∀ s, s < t → streak (swarmFlags f par hi st s) ≤ par.nPop := by
  obtain ⟨t, _, h2, h3, h4, h5⟩ := pbPsoLoop_stops (f := f) (par := par) (hi := hi) (st := st) n 0
  rw [Nat.zero_add] at h2 h4
  exact ⟨t, h2, h3, h4, fun s hs => h5 s (Nat.zero_le _) hs⟩

/-- The bats after `t` iterations, and for each iteration whether something better was found in it. -/
def batsAfter (env : PbEnv) (f : Nat → ℚ → Option ℚ × ℚ) (par : PbParams) (hi : Nat) (st : PbBats) : Nat → Res (PbBats × List Bool)
  | 0 => .ok (st, [])
  | t + 1 => do
    let r ← batsAfter env f par hi st t
    let q ← batStep env f par hi r.1 t
    return (q.1, r.2 ++ [q.2])

theorem batLoop_stops {env : PbEnv} {f : Nat → ℚ → Option ℚ × ℚ} {par : PbParams} {hi : Nat} {st0 st' : PbBats} (n : Nat) {i : Nat} {st : PbBats}
    {flags : List Bool} (h0 : batsAfter env f par hi st0 i = .ok (st, flags)) (h : batLoop env f par hi n i (streak flags) st = .ok st') :
    ∃ t flags', i ≤ t ∧ t ≤ i + n ∧ batsAfter env f par hi st0 t = .ok (st', flags') ∧ (t = i + n ∨ 10 ≤ streak flags') ∧
      ∀ s, i ≤ s → s < t → ∃ r, batsAfter env f par hi st0 s = .ok r ∧ streak r.2 < 10 := by
  induction n generalizing i st flags with
  | zero =>
    injection h with h
    subst h
    exact ⟨i, flags, by omega, by omega, h0, Or.inl rfl, fun s h1 h2 => by omega⟩
  | succ n ih =>
    unfold batLoop at h
    split at h
    · rename_i hc
      injection h with h
      subst h
      exact ⟨i, flags, by omega, by omega, h0, Or.inr (by omega), fun s h1 h2 => by omega⟩
    · rename_i hc
      obtain ⟨q, hq, h⟩ := bind_ok.1 h
      have h0' : batsAfter env f par hi st0 (i + 1) = .ok (q.1, flags ++ [q.2]) := by
        unfold batsAfter
        rw [h0, ok_bind]
        dsimp only
        rw [hq, ok_bind]
        rfl
      rw [← streak_append] at h
      obtain ⟨t, flags', h1, h2, h3, h4, h5⟩ := ih h0' h
      refine ⟨t, flags', by omega, by omega, h3, h4.imp (fun h => by omega) id, fun s s1 s2 => ?_⟩
      rcases Nat.eq_or_lt_of_le s1 with rfl | s1
      · exact ⟨_, h0, by dsimp only; omega⟩
      · exact h5 s s1 s2

/-- **When the bats stop.** After all iterations, or, earlier, as soon as something better was found in ten iterations in a row: it is the finding that
ends the search. -/
theorem C102_bats_stop {env : PbEnv} {f : Nat → ℚ → Option ℚ × ℚ} {par : PbParams} {hi n : Nat} {st st' : PbBats}
    (h : batLoop env f par hi n 0 0 st = .ok st') :
    ∃ t flags, t ≤ n ∧ batsAfter env f par hi st t = .ok (st', flags) ∧ (t = n ∨ 10 ≤ streak flags) ∧
      ∀ s, s < t → ∃ r, batsAfter env f par hi st s = .ok r ∧ streak r.2 < 10 := by
  obtain ⟨t, flags, _, h2, h3, h4, h5⟩ := batLoop_stops n (i := 0) (flags := []) rfl h
  rw [Nat.zero_add] at h2 h4
  exact ⟨t, flags, h2, h3, h4, fun s hs => h5 s (Nat.zero_le _) hs⟩

/-- **Nothing found, and still no end.** The search is not ended by iterations in which nothing better is found: if nothing is ever found, all iterations
are made. -/
theorem C102_bats_stagnate {env : PbEnv} {f : Nat → ℚ → Option ℚ × ℚ} {par : PbParams} {hi n : Nat} {st st' : PbBats}
    (hno : ∀ t r, t ≤ n → batsAfter env f par hi st t = .ok r → ∀ b ∈ r.2, b = false) (h : batLoop env f par hi n 0 0 st = .ok st') :
    ∃ flags, batsAfter env f par hi st n = .ok (st', flags) := by
  obtain ⟨t, flags, h1, h2, h3 | h3, _⟩ := C102_bats_stop h
  · subst h3
    exact ⟨flags, h2⟩
  · exfalso
    have hall := hno t _ h1 h2
    have : streak flags = 0 := by
      unfold streak
      rcases List.eq_nil_or_concat flags with rfl | ⟨l, b, rfl⟩
      · rfl
      · have := hall b (by simp)
        subst this
        simp
    omega

/-- Non-vacuity: two bats, one of them good. If it is the second, it is found in every iteration (and the wrong one taken), so the search ends after
ten iterations; if it is the first, it is found once and all twelve iterations are made. -/
example :
    let f : Nat → ℚ → Option ℚ × ℚ := fun K _ => if K = 2 then (some 1, 1) else (some 0, 1 / 2)
    let bat : ℚ → Bat := fun k => ⟨⟨k, 1⟩, (0, 0), List.replicate 5 (⟨k, 1⟩, -1, -1)⟩
    (match batsAfter (pbEx f) f ⟨12, 0, 0, 0, .bat, 2, 5⟩ 3 ⟨[bat 1, bat 2], ⟨1, 1⟩, (some 0, 0)⟩ 10 with
      | .ok r => r.2
      | .error _ => []) = List.replicate 10 true ∧
    (match batsAfter (pbEx f) f ⟨12, 0, 0, 0, .bat, 2, 5⟩ 3 ⟨[bat 2, bat 1], ⟨1, 1⟩, (some 0, 0)⟩ 12 with
      | .ok r => r.2
      | .error _ => []) = true :: List.replicate 11 false := by
  decide +kernel

end Verif

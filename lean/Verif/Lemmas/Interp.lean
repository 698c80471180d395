import Verif.Model.Interp
import Verif.Spec.Interp
import Verif.Lemmas.Stats
import Verif.Lemmas.Smote
import Verif.Lemmas.ClassRows
import Mathlib.Tactic.Linarith
import Mathlib.Tactic.NormNum
import Mathlib.Tactic.FieldSimp

/-! # Lemmas about coordinatewise interpolation -/

namespace Verif

theorem mixRow_length {d : Nat} {a b : Row} {u : Nat → ℚ} (ha : a.length = d) (hb : b.length = d) :
    (mixRow a b u).length = d := by
  unfold mixRow; simp [ha, hb]

theorem mixRow_getD {d : Nat} {a b : Row} {u : Nat → ℚ} (ha : a.length = d) (hb : b.length = d) {k : Nat} (hk : k < d) :
    (mixRow a b u).getD k 0 = a.getD k 0 + (b.getD k 0 - a.getD k 0) * u k := by
  unfold mixRow
  simp [List.getD_eq_getElem?_getD, ha, hb, hk]

theorem mix_between {a b u : ℚ} (h0 : 0 ≤ u) (h1 : u ≤ 1) :
    min a b ≤ a + (b - a) * u ∧ a + (b - a) * u ≤ max a b := by
  rcases le_total a b with h | h
  · rw [min_eq_left h, max_eq_right h]
    constructor
    · nlinarith
    · nlinarith
  · rw [min_eq_right h, max_eq_left h]
    constructor
    · nlinarith
    · nlinarith

theorem mixRow_between {d : Nat} {a b : Row} {u : Nat → ℚ} (ha : a.length = d) (hb : b.length = d)
    (hu : ∀ k, 0 ≤ u k ∧ u k ≤ 1) : Between d a b (mixRow a b u) := by
  refine ⟨mixRow_length ha hb, fun k hk => ?_⟩
  rw [mixRow_getD ha hb hk]
  exact mix_between (hu k).1 (hu k).2

/-- A point between two points of a box is in the box. -/
theorem Between.inBox {d : Nat} {S : List Row} {p q x : Row} (h : Between d p q x) (hp : InBox d S p) (hq : InBox d S q) :
    InBox d S x := by
  refine ⟨h.1, fun k hk => ⟨?_, ?_⟩⟩
  · have h1 := (h.2 k hk).1
    obtain ⟨r1, m1, e1⟩ := (hp.2 k hk).1
    obtain ⟨r2, m2, e2⟩ := (hq.2 k hk).1
    rcases le_total (p.getD k 0) (q.getD k 0) with hle | hle
    · rw [min_eq_left hle] at h1; exact ⟨r1, m1, e1.trans h1⟩
    · rw [min_eq_right hle] at h1; exact ⟨r2, m2, e2.trans h1⟩
  · have h1 := (h.2 k hk).2
    obtain ⟨r1, m1, e1⟩ := (hp.2 k hk).2
    obtain ⟨r2, m2, e2⟩ := (hq.2 k hk).2
    rcases le_total (p.getD k 0) (q.getD k 0) with hle | hle
    · rw [max_eq_right hle] at h1; exact ⟨r2, m2, h1.trans e2⟩
    · rw [max_eq_left hle] at h1; exact ⟨r1, m1, h1.trans e1⟩

theorem inBox_self {d : Nat} {S : List Row} {p : Row} (hp : p ∈ S) (hd : p.length = d) : InBox d S p :=
  ⟨hd, fun _ _ => ⟨⟨p, hp, le_refl _⟩, ⟨p, hp, le_refl _⟩⟩⟩

/-- Rows equal in length and in every coordinate are equal. -/
theorem row_ext {d : Nat} {a b : Row} (ha : a.length = d) (hb : b.length = d)
    (h : ∀ k, k < d → a.getD k 0 = b.getD k 0) : a = b := by
  apply List.ext_getElem (by rw [ha, hb])
  intro i h1 h2
  have := h i (by omega)
  simpa [List.getD_eq_getElem?_getD, h1, h2] using this

theorem mixRow_zero {d : Nat} {a b : Row} {u : Nat → ℚ} (ha : a.length = d) (hb : b.length = d) (hu : ∀ k, u k = 0) :
    mixRow a b u = a := by
  apply row_ext (mixRow_length ha hb) ha
  intro k hk
  rw [mixRow_getD ha hb hk, hu]; ring

theorem mixRow_one {d : Nat} {a b : Row} {u : Nat → ℚ} (ha : a.length = d) (hb : b.length = d) (hu : ∀ k, u k = 1) :
    mixRow a b u = b := by
  apply row_ext (mixRow_length ha hb) hb
  intro k hk
  rw [mixRow_getD ha hb hk, hu]; ring

theorem choiceFrom_ok {n size : Nat} {draw : Nat → Nat} {r : List Nat} (h : choiceFrom n size draw = .ok r) :
    r = (List.range size).map draw := by
  unfold choiceFrom at h
  split at h
  · cases h
  · injection h with h; exact h.symm

theorem choiceFrom_pos {n size : Nat} {draw : Nat → Nat} (h : 0 < n) :
    choiceFrom n size draw = .ok ((List.range size).map draw) := by
  unfold choiceFrom
  rw [if_neg (by omega)]

/-- `sample` with the default checks, for a data set with known statistics. -/
theorem sample_default {d : Nat} {alg : Stats → List Row → List Int → Res (List Row × List Int)} {X : List Row}
    {y : List Int} {s : Stats} (hs : classLabelStatistics y = .ok s) :
    sample defaultChecks d alg X y = if y.count s.minLabel ≤ 2 then .ok (X, y) else alg s X y := by
  obtain ⟨hm, hM, _⟩ := stats_min_mem hs
  unfold sample
  rw [hs, ok_bind, stats_count hs hm, checksFire_default]
  by_cases h : y.count s.minLabel ≤ 2
  · simp [h]
  · simp [h]

/-- The same with a rule for successful results. -/
theorem sample_default_ok {d : Nat} {alg : Stats → List Row → List Int → Res (List Row × List Int)} {X X' : List Row}
    {y y' : List Int} {s : Stats} (hs : classLabelStatistics y = .ok s)
    (h : sample defaultChecks d alg X y = .ok (X', y')) : (X' = X ∧ y' = y) ∨ alg s X y = .ok (X', y') := by
  rw [sample_default hs] at h
  split at h
  · injection h with h
    obtain ⟨rfl, rfl⟩ := Prod.mk.inj h
    exact Or.inl ⟨rfl, rfl⟩
  · exact Or.inr h

theorem mem_selectLabel_length {d : Nat} {X : List Row} {y : List Int} (hwf : WF d X y) {l : Int} {r : Row}
    (h : r ∈ selectLabel X y l) : r.length = d := hwf.2 r (selectLabel_mem h)

theorem safeGap_range {slp sln : Nat} {u : ℚ} (h0 : 0 ≤ u) (h1 : u ≤ 1) :
    0 ≤ safeGap slp sln u ∧ safeGap slp sln u ≤ 1 := by
  unfold safeGap
  dsimp only
  have hcase : ∀ g : ℚ, 0 ≤ g → g ≤ 1 → 0 ≤ (if slp < sln then g * (slp : ℚ) / (sln : ℚ) + (1 - (slp : ℚ) / (sln : ℚ)) else g) ∧
      (if slp < sln then g * (slp : ℚ) / (sln : ℚ) + (1 - (slp : ℚ) / (sln : ℚ)) else g) ≤ 1 := by
    intro g hg0 hg1
    split
    · rename_i h
      have hs : (0 : ℚ) < sln := by exact_mod_cast (by omega : 0 < sln)
      have hr0 : 0 ≤ (slp : ℚ) / sln := div_nonneg (by positivity) hs.le
      have hr1 : (slp : ℚ) / sln ≤ 1 := by
        rw [div_le_one hs]; exact_mod_cast h.le
      have e : g * (slp : ℚ) / sln = g * ((slp : ℚ) / sln) := by ring
      rw [e]
      constructor <;> nlinarith
    · exact ⟨hg0, hg1⟩
  apply hcase
  · split
    · positivity
    · positivity
  · have hb : u * (if sln = 0 ∧ slp > 0 then 0 else 1) ≤ 1 := by split <;> linarith
    have hb0 : 0 ≤ u * (if sln = 0 ∧ slp > 0 then 0 else 1) := by split <;> linarith
    split
    · rename_i h
      have hs : (0 : ℚ) < slp := by exact_mod_cast (by omega : 0 < slp)
      rw [div_le_one hs]
      have : (sln : ℚ) ≤ slp := by exact_mod_cast h.le
      have h' : (0 : ℚ) ≤ sln := by positivity
      nlinarith
    · exact hb

theorem safeGap_safe_base {slp : Nat} {u : ℚ} (h : 0 < slp) : safeGap slp 0 u = 0 := by
  unfold safeGap
  simp [h]

theorem safeGap_unsafe_base {sln : Nat} {u : ℚ} (h : 0 < sln) : safeGap 0 sln u = 1 := by
  unfold safeGap
  simp [h]

end Verif

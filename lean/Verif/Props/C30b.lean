import Verif.Model.RegistryTypes
import Mathlib.Data.Nat.Digits.Defs
import Mathlib.Tactic.Positivity
import Mathlib.Tactic.IntervalCases
import Mathlib.Tactic.Ring

/-!
# C30, continued: the texts accepted as kernel of ADG and as method of G_SMOTE
-/

namespace Verif

/-! ## Specification -/

/-- A digit as a character. -/
def digitOf (d : Nat) : Char := Char.ofNat (48 + d)

/-- `t` is a plain decimal number of value `q`: digits, or digits around a point with at least one digit. -/
def IsDecimal (t : List Char) (q : ℚ) : Prop :=
  ∃ a b : List Nat, (∀ d ∈ a ++ b, d < 10) ∧
    ((t = a.map digitOf ∧ a ≠ [] ∧ b = [] ∧ q = (Nat.ofDigits 10 a.reverse : Nat)) ∨
      (t = a.map digitOf ++ '.' :: b.map digitOf ∧ a ++ b ≠ [] ∧
        q = (Nat.ofDigits 10 a.reverse : Nat) + (Nat.ofDigits 10 b.reverse : Nat) / (10 : ℚ) ^ b.length))

/-! ## Helpers -/

theorem digitOf_spec {d : Nat} (h : d < 10) : (digitOf d).isDigit = true ∧ (digitOf d).toNat - 48 = d ∧ digitOf d ≠ '.' ∧ digitOf d ≠ '_' := by
  interval_cases d <;> decide

theorem digitsVal_digitOf : ∀ a : List Nat, (∀ d ∈ a, d < 10) → digitsVal (a.map digitOf) = some (Nat.ofDigits 10 a.reverse)
  | [], _ => rfl
  | d :: a, h => by
    obtain ⟨h1, h2, _⟩ := digitOf_spec (h d (by simp))
    rw [List.map_cons, digitsVal, if_pos h1, digitsVal_digitOf a (fun x hx => h x (by simp [hx])), Option.map_some, h2, List.length_map,
      List.reverse_cons, Nat.ofDigits_append, List.length_reverse, Nat.ofDigits_singleton]
    congr 1
    ring

theorem span_digits (a : List Nat) (h : ∀ d ∈ a, d < 10) (r : List Char) :
    (a.map digitOf ++ '.' :: r).span (· ≠ '.') = (a.map digitOf, '.' :: r) ∧ (a.map digitOf).span (· ≠ '.') = (a.map digitOf, []) := by
  have hm : ∀ c ∈ a.map digitOf, (decide (c ≠ '.')) = true := by
    intro c hc
    obtain ⟨d, hd, rfl⟩ := List.mem_map.1 hc
    exact decide_eq_true (digitOf_spec (h d hd)).2.2.1
  rw [List.span_eq_takeWhile_dropWhile, List.span_eq_takeWhile_dropWhile]
  constructor
  · rw [List.takeWhile_append_of_pos hm, List.dropWhile_append_of_pos hm]
    simp
  · have h1 := List.takeWhile_append_of_pos (l₂ := []) hm
    have h2 := List.dropWhile_append_of_pos (l₂ := []) hm
    rw [List.append_nil] at h1 h2
    rw [h1, h2]
    simp

theorem floatText_decimal {t : List Char} {q : ℚ} (h : IsDecimal t q) : floatText t = some q := by
  obtain ⟨a, b, hd, ⟨rfl, ha, _, rfl⟩ | ⟨rfl, hab, rfl⟩⟩ := h
  · have ha' : ∀ d ∈ a, d < 10 := fun d h => hd d (by simp [h])
    unfold floatText
    rw [(span_digits a ha' []).2]
    simp only [List.map_eq_nil_iff]
    rw [if_neg ha, digitsVal_digitOf a ha']
    rfl
  · have ha' : ∀ d ∈ a, d < 10 := fun d h => hd d (by simp [h])
    have hb' : ∀ d ∈ b, d < 10 := fun d h => hd d (by simp [h])
    unfold floatText
    rw [(span_digits a ha' _).1]
    simp only [digitsVal_digitOf a ha', digitsVal_digitOf b hb', List.map_eq_nil_iff, List.length_map]
    rw [if_neg (fun h => hab (by rw [h.1, h.2]; rfl))]

theorem decimal_no_underscore {t : List Char} {q : ℚ} (h : IsDecimal t q) : '_' ∉ t := by
  have key : ∀ a : List Nat, (∀ d ∈ a, d < 10) → '_' ∉ a.map digitOf := by
    intro a ha hm
    obtain ⟨d, hd, he⟩ := List.mem_map.1 hm
    exact (digitOf_spec (ha d hd)).2.2.2 he
  obtain ⟨a, b, hd, ⟨rfl, _⟩ | ⟨rfl, _⟩⟩ := h
  · exact key a (fun d h => hd d (by simp [h]))
  · have h1 := key a (fun d h => hd d (by simp [h]))
    have h2 := key b (fun d h => hd d (by simp [h]))
    rw [List.mem_append, List.mem_cons]
    rintro (h | h | h)
    · exact h1 h
    · revert h; decide
    · exact h2 h

theorem afterLast_append {t : List Char} (h : '_' ∉ t) : ∀ p : List Char, afterLast (p ++ '_' :: t) = t
  | [] => by
    rw [List.nil_append, afterLast, if_neg h, if_pos rfl]
  | c :: p => by
    rw [List.cons_append, afterLast, if_pos (by simp), afterLast_append h p]

/-! ## The property -/

/-- **C30.** The kernel of ADG is `inner` or starts with `rbf`, the method of G_SMOTE is `linear` or starts with `non-linear`; other texts are a
`ValueError`. A text of the second kind that ends with an underscore and a decimal number is accepted exactly if the number is positive, whatever stands
in between. -/
theorem C30_numeric_text {exact pre : String} (hp : (exact = "inner" ∧ pre = "rbf") ∨ (exact = "linear" ∧ pre = "non-linear")) (s : String) :
    (s = exact → (GV.str s).suffixRule exact pre = .ok ()) ∧
    (s ≠ exact → ¬ pre.toList <+: s.toList → (GV.str s).suffixRule exact pre = .error .valueError) ∧
    ∀ (mid t : List Char) (q : ℚ), s.toList = pre.toList ++ mid ++ '_' :: t → IsDecimal t q →
      (0 < q → (GV.str s).suffixRule exact pre = .ok ()) ∧ (q ≤ 0 → (GV.str s).suffixRule exact pre = .error .valueError) := by
  refine ⟨?_, ?_, ?_⟩
  · rintro rfl
    rcases hp with ⟨rfl, rfl⟩ | ⟨rfl, rfl⟩ <;> decide +kernel
  · intro h1 h2
    unfold GV.suffixRule
    simp only
    rw [if_pos ⟨h1, fun h => h2 (List.isPrefixOf_iff_prefix.1 h)⟩]
  · intro mid t q hs hq
    have hpre : pre.toList.isPrefixOf s.toList = true := List.isPrefixOf_iff_prefix.2 (by rw [hs, List.append_assoc]; exact List.prefix_append _ _)
    have hr : (GV.str s).suffixRule exact pre = raiseIf (decide (q ≤ 0)) := by
      unfold GV.suffixRule
      simp only
      rw [if_neg (fun h => h.2 hpre), if_pos hpre, hs, afterLast_append (decimal_no_underscore hq), floatText_decimal hq]
    rw [hr]
    constructor
    · intro h
      rw [decide_eq_false (not_le.2 h)]
      rfl
    · intro h
      rw [decide_eq_true h]
      rfl

/-! ## The hypotheses are met -/

/-- Non-vacuity: `rbf_12.5` and `rbfoo_0`. -/
example : IsDecimal "12.5".toList (25 / 2) ∧ "rbf_12.5".toList = "rbf".toList ++ [] ++ '_' :: "12.5".toList ∧ IsDecimal "0".toList 0 ∧
    "rbfoo_0".toList = "rbf".toList ++ ['o', 'o'] ++ '_' :: "0".toList ∧ ¬ "rbf".toList <+: "poly".toList := by
  refine ⟨⟨[1, 2], [5], by decide, Or.inr ⟨by decide, by decide, by decide +kernel⟩⟩, by decide, ⟨[0], [], by decide, Or.inl ⟨by decide, by decide, rfl, by decide +kernel⟩⟩,
    by decide, by decide⟩

end Verif

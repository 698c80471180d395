import Verif.Model.Checks
import Verif.Lemmas.Basic

/-!
# C30 Constructor checks reject exactly the documented invalid values

The specification is the usual order of the extended reals, embedded as a relation on floats that is
false as soon as NaN is involved.
-/

namespace Verif

/-- The position of a float on the extended real line, NaN having none. -/
inductive Below : XF → XF → Prop
  | fin {a b : ℚ} (h : a < b) : Below (.fin a) (.fin b)
  | neg (b : ℚ) : Below .negInf (.fin b)
  | pos (a : ℚ) : Below (.fin a) .posInf
  | ends : Below .negInf .posInf

theorem lt_iff_below (a b : XF) : a.lt b = true ↔ Below a b := by
  cases a <;> cases b <;> simp [XF.lt]
  case fin.fin a b =>
    constructor
    · exact .fin
    · intro h; cases h; assumption
  case fin.posInf a => exact .pos a
  case negInf.fin b => exact .neg b
  case negInf.posInf => exact .ends
  all_goals (intro h; cases h)

theorem le_iff (a b : XF) : a.le b = true ↔ Below a b ∨ (a = b ∧ a ≠ .nan) := by
  cases a <;> cases b <;> simp [XF.le]
  case fin.fin a b =>
    rw [le_iff_lt_or_eq]
    constructor
    · rintro (h | h)
      · exact Or.inl (.fin h)
      · exact Or.inr h
    · rintro (h | h)
      · cases h; left; assumption
      · exact Or.inr h
  case fin.posInf a => exact .pos a
  case negInf.fin b => exact .neg b
  case negInf.posInf => exact .ends
  all_goals (intro h; cases h)

theorem eq_iff (a b : XF) : a.eq b = true ↔ a = b ∧ a ≠ .nan := by
  cases a <;> cases b <;> simp [XF.eq]

theorem raiseIf_error (c : Bool) : raiseIf c = .error .valueError ↔ c = true := by
  cases c <;> simp [raiseIf]

theorem raiseIf_ok (c : Bool) : raiseIf c = .ok () ↔ c = false := by
  cases c <;> simp [raiseIf]

/-- Every check either does nothing or raises `ValueError`. -/
theorem C30_only_value_error (c : Bool) : raiseIf c = .ok () ∨ raiseIf c = .error .valueError := by
  cases c <;> simp [raiseIf]

/-- `check_greater_or_equal` rejects exactly the values strictly below the bound. -/
theorem C30_greater_or_equal (v b : XF) : checkGreaterOrEqual v b = .error .valueError ↔ Below v b := by
  rw [checkGreaterOrEqual, raiseIf_error, lt_iff_below]

/-- `check_greater` rejects exactly the values below or equal to the bound. -/
theorem C30_greater (v b : XF) :
    checkGreater v b = .error .valueError ↔ Below v b ∨ (v = b ∧ v ≠ .nan) := by
  rw [checkGreater, raiseIf_error, le_iff]

/-- `check_less_or_equal` rejects exactly the values strictly above the bound. -/
theorem C30_less_or_equal (v b : XF) : checkLessOrEqual v b = .error .valueError ↔ Below b v := by
  rw [checkLessOrEqual, raiseIf_error, lt_iff_below]

/-- `check_less` rejects exactly the values above or equal to the bound. -/
theorem C30_less (v b : XF) :
    checkLess v b = .error .valueError ↔ Below b v ∨ (b = v ∧ b ≠ .nan) := by
  rw [checkLess, raiseIf_error, le_iff]

/-- `check_equal` rejects exactly equal values. -/
theorem C30_equal (v b : XF) : checkEqual v b = .error .valueError ↔ v = b ∧ v ≠ .nan := by
  rw [checkEqual, raiseIf_error, eq_iff]

/-- `check_in_range` on finite numbers rejects exactly the values outside `[lo, hi]`. -/
theorem C30_in_range (v lo hi : ℚ) :
    checkInRange (.fin v) (.fin lo) (.fin hi) = .ok () ↔ lo ≤ v ∧ v ≤ hi := by
  rw [checkInRange, raiseIf_ok]
  simp [XF.lt]

/-- `check_out_range` on finite numbers rejects exactly the values inside `[lo, hi]`. -/
theorem C30_out_range (v lo hi : ℚ) :
    checkOutRange (.fin v) (.fin lo) (.fin hi) = .error .valueError ↔ lo ≤ v ∧ v ≤ hi := by
  rw [checkOutRange, raiseIf_error]
  simp [XF.le]

/-- With infinities: outside means strictly below `lo` or strictly above `hi`. -/
theorem C30_in_range_ext (v lo hi : XF) :
    checkInRange v lo hi = .error .valueError ↔ Below v lo ∨ Below hi v := by
  rw [checkInRange, raiseIf_error, Bool.or_eq_true, lt_iff_below, lt_iff_below]

/-- `check_isin` rejects exactly the values not listed. -/
theorem C30_isin {α : Type} [DecidableEq α] (v : α) (l : List α) :
    checkIsin v l = .error .valueError ↔ v ∉ l := by
  rw [checkIsin, raiseIf_error]; simp

/-- `check_n_jobs` rejects exactly `None` and integers below one; anything that is not an `int` passes. -/
theorem C30_n_jobs (v : NJobs) :
    checkNJobs v = .error .valueError ↔ v = .none ∨ ∃ n : Int, v = .int n ∧ n ≤ 0 := by
  unfold checkNJobs
  rw [raiseIf_error]
  cases v <;> simp

/-- NaN is accepted by every check, although it satisfies none of the documented relations. -/
theorem C30_nan_accepted (b lo hi : XF) :
    checkGreaterOrEqual .nan b = .ok () ∧ checkGreater .nan b = .ok () ∧
    checkLessOrEqual .nan b = .ok () ∧ checkLess .nan b = .ok () ∧ checkEqual .nan b = .ok () ∧
    checkInRange .nan lo hi = .ok () ∧ checkOutRange .nan lo hi = .ok () := by
  simp only [checkGreaterOrEqual, checkGreater, checkLessOrEqual, checkLess, checkEqual, checkInRange,
    checkOutRange, raiseIf_ok]
  cases b <;> cases lo <;> cases hi <;> exact ⟨rfl, rfl, rfl, rfl, rfl, rfl, rfl⟩

/-- Witnesses: both outcomes of each check occur. -/
example : checkGreaterOrEqual (.fin (-1)) (.fin 0) = .error .valueError ∧
    checkGreaterOrEqual (.fin 0) (.fin 0) = .ok () ∧
    checkInRange (.fin 2) (.fin 0) (.fin 1) = .error .valueError ∧
    checkIsin "a" ["min", "maj"] = .error .valueError ∧ checkNJobs (.int 1) = .ok () := by
  decide +kernel

end Verif

import Verif.Model.Pool
import Mathlib.Algebra.BigOperators.Fin
import Mathlib.Algebra.Order.BigOperators.Group.Finset
import Mathlib.Tactic.Ring

/-! # Invariant and termination measure of the process pool -/

namespace Verif

variable {V : Type}

/-- Thread state `x` is responsible for job `i`. -/
def Th.owns (x : Th) (i : Nat) : Prop := x.mgr = .toStart i ∨ ∃ ch, x.mgr = .joining i ch

/-- What may be in slot `i` once the job is over. -/
def SlotOK (c : PoolCfg V) (i : Nat) (r : Option V) : Prop :=
  (c.exec i ≠ none ∧ r = c.exec i) ∨ (r = c.tmo i ∧ (c.hasTimeout = true ∨ c.exec i = none))

/-- Inductive invariant of the pool. -/
structure PoolInv (c : PoolCfg V) (s : PoolSt V c.nThreads) : Prop where
  lock : ∀ t, s.lock = some t ↔ ((s.th t).pc = .crit ∨ (s.th t).pc = .spawned)
  idx : s.idx ≤ c.nJobs
  toStart : ∀ t i, (s.th t).mgr = .toStart i → i < s.idx ∧ s.starts i = 0 ∧ s.res i = none ∧ (s.th t).pc = .spawned
  joining : ∀ t i ch, (s.th t).mgr = .joining i ch → i < s.idx ∧ s.starts i = 1 ∧ s.res i = none ∧
    ((s.th t).pc = .spawned ∨ (s.th t).pc = .waiting) ∧
    (ch = .put ∨ ch = .exited true → c.exec i ≠ none) ∧ (ch = .exited false → c.exec i = none)
  fresh : ∀ i, s.idx ≤ i → s.starts i = 0 ∧ s.res i = none
  unique : ∀ t t' i, (s.th t).owns i → (s.th t').owns i → t = t'
  covered : ∀ i, i < s.idx → (∃ t, (s.th t).owns i) ∨ (s.starts i = 1 ∧ SlotOK c i (s.res i))
  mgrNone : ∀ t, (s.th t).mgr = .none ↔ ((s.th t).pc = .idle ∨ (s.th t).pc = .crit ∨ (s.th t).pc = .done)
  done : ∀ t, (s.th t).pc = .done → s.idx = c.nJobs

theorem setTh_th {k : Nat} (s : PoolSt V k) (t u : Fin k) (x : Th) :
    (s.setTh t x).th u = if u = t then x else s.th u := by
  unfold PoolSt.setTh
  simp only [Function.update_apply]

theorem poolInv_init (c : PoolCfg V) : PoolInv c (.init V c.nThreads) := by
  constructor <;> simp [PoolSt.init, Th.owns]

set_option maxHeartbeats 4000000 in
theorem poolInv_step {c : PoolCfg V} {s s' : PoolSt V c.nThreads} (h : PoolInv c s) (hs : PoolStep c s s') :
    PoolInv c s' := by
  obtain ⟨h1, h2, h3, h4, h5, h6, h7, h8, h9⟩ := h
  have hU : ∀ t t' i ch ch', (s.th t).mgr = .joining i ch → (s.th t').mgr = .joining i ch' → t = t' :=
    fun t t' i ch ch' a b => h6 t t' i (Or.inr ⟨ch, a⟩) (Or.inr ⟨ch', b⟩)
  cases hs <;> constructor <;>
    simp only [PoolSt.setTh, PoolSt.setRes, Function.update_apply] <;> grind [Th.owns, SlotOK, queueGetDefault]

theorem poolInv_reach {c : PoolCfg V} {s : PoolSt V c.nThreads} (h : PoolReach c s) : PoolInv c s := by
  induction h with
  | init => exact poolInv_init c
  | step _ hs ih => exact poolInv_step ih hs

end Verif

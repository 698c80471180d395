import Verif.Py
import Mathlib.Logic.Function.Basic

/-!
# Model of `smote_variants/evaluation/_parallelization.py`: the pool as a labelled transition system

Every step of a pooling thread, of the manager thread it starts, and of the child process is a separate
transition, so all interleavings are covered. Jobs are numbered as in `jobs`. What a job does is given by the
configuration; when a child makes progress is up to the scheduler (a job that hangs is a child that is never
scheduled).
-/

namespace Verif

/-- What is fixed during one call of `ThreadTimeoutProcessPool.execute`, evaluation/_parallelization.py:246-275. `V` is the type of Python values. -/
structure PoolCfg (V : Type) where
  /-- `len(jobs)` -/
  nJobs : Nat
  /-- number of pooling threads, `n_jobs` (0 stands for any non-positive number: `range` is empty) -/
  nThreads : Nat
  /-- value of `jobs[i].execute()`; `none` when it raises or the child dies (nothing is put into the queue) -/
  exec : Nat → Option V
  /-- value of `jobs[i].timeout()`; `none` when it raises -/
  tmo : Nat → Option V
  /-- `timeout is not None and timeout > 0`, line 137 -/
  hasTimeout : Bool
  /-- the pickled result exceeds the pipe buffer: a child does not exit before its queue data is consumed -/
  big : Nat → Bool
  /-- `process.start()` succeeds for job `i`; it raises e.g. when no process can be created, or when the job cannot be pickled and processes are
  spawned -/
  startable : Nat → Bool

/-- Progress of a child process running `execute_job_object`, evaluation/_parallelization.py:78-89: running the job; result put in the
queue; ended (with or without a result in the queue). -/
inductive Child
  | running | put | exited (hasResult : Bool)
  deriving DecidableEq, Repr

/-- Progress of the manager thread started by a pooling thread (`process_manager`, evaluation/_parallelization.py:110-159). -/
inductive Mgr
  | none
  | toStart (i : Nat)
  | joining (i : Nat) (c : Child)
  | finished
  deriving DecidableEq, Repr

/-- Program counter of `pooling_thread`, evaluation/_parallelization.py:172-218: before `lock.acquire()`; between acquiring and the test
of `idx`; waiting for `process_start_lock` (still holding the pool lock); in `thread.join()`; ended. -/
inductive Pc
  | idle | crit | spawned | waiting | done
  deriving DecidableEq, Repr

/-- A pooling thread together with the manager thread it has started, evaluation/_parallelization.py:172-218. -/
structure Th where
  pc : Pc
  mgr : Mgr
  deriving DecidableEq, Repr

/-- State of the pool, evaluation/_parallelization.py:227-267. `starts i` counts how often a process was started for job `i` (history variable);
`res i = none` is the initial `None` of `self.results`. -/
structure PoolSt (V : Type) (k : Nat) where
  idx : Nat
  lock : Option (Fin k)
  th : Fin k → Th
  res : Nat → Option V
  starts : Nat → Nat

variable {V : Type}

/-- `execute`, evaluation/_parallelization.py:257-267, before any thread has run. -/
def PoolSt.init (V : Type) (k : Nat) : PoolSt V k :=
  { idx := 0, lock := none, th := fun _ => ⟨.idle, .none⟩, res := fun _ => none, starts := fun _ => 0 }

/-- Replace the state of thread `t`. Used for evaluation/_parallelization.py:172-218. -/
def PoolSt.setTh {k : Nat} (s : PoolSt V k) (t : Fin k) (x : Th) : PoolSt V k :=
  { s with th := Function.update s.th t x }

/-- Assign `results[i]`; a raising `timeout()` leaves the slot as it is. Used for evaluation/_parallelization.py:140-159. -/
def PoolSt.setRes {k : Nat} (s : PoolSt V k) (i : Nat) (v : Option V) : PoolSt V k :=
  { s with res := Function.update s.res i (v.orElse (fun _ => s.res i)) }

/-- What `queue_get_default`, evaluation/_parallelization.py:92-107, returns for job `i`. -/
def queueGetDefault (c : PoolCfg V) (i : Nat) (hasResult : Bool) : Option V :=
  if hasResult then c.exec i else c.tmo i

/-- One step of the pool, evaluation/_parallelization.py:78-218. -/
inductive PoolStep (c : PoolCfg V) : PoolSt V c.nThreads → PoolSt V c.nThreads → Prop
  /-- line 183 -/
  | acquire (s t) : (s.th t).pc = .idle → s.lock = none →
      PoolStep c s { s.setTh t ⟨.crit, (s.th t).mgr⟩ with lock := some t }
  /-- lines 186-188 -/
  | stop (s t) : (s.th t).pc = .crit → c.nJobs ≤ s.idx →
      PoolStep c s { s.setTh t ⟨.done, (s.th t).mgr⟩ with lock := none }
  /-- lines 190-211 -/
  | spawn (s t) : (s.th t).pc = .crit → s.idx < c.nJobs →
      PoolStep c s { s.setTh t ⟨.spawned, .toStart s.idx⟩ with idx := s.idx + 1 }
  /-- lines 128-135. When `process.start()` raises, the manager thread ends without releasing `process_start_lock`: nothing can
  happen to it any more, so there is no step. -/
  | start (s t i) : (s.th t).mgr = .toStart i → c.startable i = true →
      PoolStep c s { s.setTh t ⟨(s.th t).pc, .joining i .running⟩ with
        starts := Function.update s.starts i (s.starts i + 1) }
  /-- lines 213-216: passes once the manager has released `process_start_lock` -/
  | pass (s t) : (s.th t).pc = .spawned → (∀ i, (s.th t).mgr ≠ .toStart i) →
      PoolStep c s { s.setTh t ⟨.waiting, (s.th t).mgr⟩ with lock := none }
  /-- line 218 -/
  | join (s t) : (s.th t).pc = .waiting → (s.th t).mgr = .finished →
      PoolStep c s (s.setTh t ⟨.idle, .none⟩)
  /-- lines 86-89, the job has a value -/
  | childPut (s t i) : (s.th t).mgr = .joining i .running → c.exec i ≠ none →
      PoolStep c s (s.setTh t ⟨(s.th t).pc, .joining i .put⟩)
  /-- line 86, the job raises -/
  | childRaise (s t i) : (s.th t).mgr = .joining i .running → c.exec i = none →
      PoolStep c s (s.setTh t ⟨(s.th t).pc, .joining i (.exited false)⟩)
  /-- the child ends; only once its queue data fits into the pipe -/
  | childExit (s t i) : (s.th t).mgr = .joining i .put → c.big i = false →
      PoolStep c s (s.setTh t ⟨(s.th t).pc, .joining i (.exited true)⟩)
  /-- lines 140-147: the child has ended -/
  | collect (s t i b) : (s.th t).mgr = .joining i (.exited b) →
      PoolStep c s ((s.setTh t ⟨(s.th t).pc, .finished⟩).setRes i (queueGetDefault c i b))
  /-- lines 138 and 150-159: the time is up and the child is alive. The value read from the queue in line 152 is
  overwritten in line 159. -/
  | kill (s t i ch) : (s.th t).mgr = .joining i ch → (∀ b, ch ≠ .exited b) → c.hasTimeout = true →
      PoolStep c s ((s.setTh t ⟨(s.th t).pc, .finished⟩).setRes i (c.tmo i))

/-- States reachable by `execute`, evaluation/_parallelization.py:246-275. -/
inductive PoolReach (c : PoolCfg V) : PoolSt V c.nThreads → Prop
  | init : PoolReach c (.init V c.nThreads)
  | step {s s'} : PoolReach c s → PoolStep c s s' → PoolReach c s'

/-- `execute` returns when all pooling threads have ended, evaluation/_parallelization.py:272-275. -/
def PoolSt.allDone {k : Nat} (s : PoolSt V k) : Prop := ∀ t, (s.th t).pc = .done

end Verif

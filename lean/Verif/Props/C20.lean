import Verif.Lemmas.Pool

/-!
# C20 The timeout process pool runs every job exactly once and files each result under its own index
-/

namespace Verif

variable {V : Type}

/-- For every interleaving: when `execute` returns (and there is at least one pooling thread) a process has been
started exactly once for every job, and slot `i` holds the value of job `i`'s own `execute()` or of its own
`timeout()`; the latter only if a time limit is set or `execute()` gave no value. -/
theorem C20_result_slots {c : PoolCfg V} {s : PoolSt V c.nThreads} (h : PoolReach c s) (hk : 1 ≤ c.nThreads)
    (hd : s.allDone) {i : Nat} (hi : i < c.nJobs) :
    s.starts i = 1 ∧
    ((∃ v, c.exec i = some v ∧ s.res i = some v) ∨
     (s.res i = c.tmo i ∧ (c.hasTimeout = true ∨ c.exec i = none))) := by
  have inv := poolInv_reach h
  have hidx : s.idx = c.nJobs := inv.done ⟨0, hk⟩ (hd _)
  rcases inv.covered i (by omega) with ⟨t, ht⟩ | ⟨h1, h2⟩
  · have := (inv.mgrNone t).2 (Or.inr (Or.inr (hd t)))
    rcases ht with ht | ⟨ch, ht⟩ <;> rw [this] at ht <;> cases ht
  · refine ⟨h1, ?_⟩
    rcases h2 with ⟨h2, h3⟩ | h2
    · cases hv : c.exec i with
      | none => exact absurd hv h2
      | some v => exact Or.inl ⟨v, rfl, by rw [h3, hv]⟩
    · exact Or.inr h2

/-- At no time is a process started twice for the same job, nor for a job that does not exist. -/
theorem C20_started_at_most_once {c : PoolCfg V} {s : PoolSt V c.nThreads} (h : PoolReach c s) (i : Nat) :
    s.starts i ≤ 1 ∧ (c.nJobs ≤ i → s.starts i = 0) := by
  have inv := poolInv_reach h
  have hidx := inv.idx
  constructor
  · rcases Nat.lt_or_ge i s.idx with hi | hi
    · rcases inv.covered i hi with ⟨t, ht | ⟨ch, ht⟩⟩ | ⟨h1, _⟩
      · rw [(inv.toStart t i ht).2.1]; omega
      · rw [(inv.joining t i ch ht).2.1]
      · omega
    · rw [(inv.fresh i hi).1]; omega
  · intro hi
    exact (inv.fresh i (by omega)).1

/-- The part of the pooling thread protected by the pool lock is never entered by two threads. -/
theorem C20_mutual_exclusion {c : PoolCfg V} {s : PoolSt V c.nThreads} (h : PoolReach c s) {t u : Fin c.nThreads}
    (ht : (s.th t).pc = .crit ∨ (s.th t).pc = .spawned) (hu : (s.th u).pc = .crit ∨ (s.th u).pc = .spawned) :
    t = u := by
  have inv := poolInv_reach h
  have e1 := (inv.lock t).2 ht
  have e2 := (inv.lock u).2 hu
  rw [e1] at e2
  exact Option.some.inj e2

/-! ## Termination -/

/-- Weight of a thread in the termination measure. -/
def Th.weight (x : Th) : Nat :=
  (match x.pc with | .idle => 2 | .crit => 1 | .spawned => 4 | .waiting => 3 | .done => 0) +
  (match x.mgr with
    | .none => 0 | .toStart _ => 5 | .joining _ .running => 4 | .joining _ .put => 3
    | .joining _ (.exited _) => 2 | .finished => 1)

/-- Termination measure. -/
def poolMeasure (c : PoolCfg V) (s : PoolSt V c.nThreads) : Nat :=
  10 * (c.nJobs - s.idx) + ∑ t, (s.th t).weight

theorem sum_update {k : Nat} (f : Fin k → Th) (t : Fin k) (x : Th) :
    ∑ u, (Function.update f t x u).weight + (f t).weight = ∑ u, (f u).weight + x.weight := by
  rw [← Finset.add_sum_erase Finset.univ (fun u => (Function.update f t x u).weight) (Finset.mem_univ t),
    ← Finset.add_sum_erase Finset.univ (fun u => (f u).weight) (Finset.mem_univ t)]
  have : ∑ u ∈ Finset.univ.erase t, (Function.update f t x u).weight =
      ∑ u ∈ Finset.univ.erase t, (f u).weight := by
    apply Finset.sum_congr rfl
    intro u hu
    rw [Function.update_of_ne (Finset.ne_of_mem_erase hu)]
  rw [this, Function.update_self]
  ring

theorem poolMeasure_step {c : PoolCfg V} {s s' : PoolSt V c.nThreads} (hs : PoolStep c s s') :
    poolMeasure c s' < poolMeasure c s := by
  unfold poolMeasure
  have hw : ∀ t x, ∑ u, (Function.update s.th t x u).weight + (s.th t).weight = ∑ u, (s.th u).weight + x.weight :=
    fun t x => sum_update s.th t x
  cases hs with
  | acquire t h1 h2 =>
    have := hw t ⟨.crit, (s.th t).mgr⟩
    simp only [PoolSt.setTh]
    simp only [Th.weight, h1] at this ⊢
    omega
  | stop t h1 h2 =>
    have := hw t ⟨.done, (s.th t).mgr⟩
    simp only [PoolSt.setTh]
    simp only [Th.weight, h1] at this ⊢
    omega
  | spawn t h1 h2 =>
    have := hw t ⟨.spawned, .toStart s.idx⟩
    simp only [PoolSt.setTh]
    simp only [Th.weight, h1] at this ⊢
    omega
  | start t i h1 h2 =>
    have := hw t ⟨(s.th t).pc, .joining i .running⟩
    simp only [PoolSt.setTh]
    simp only [Th.weight, h1] at this ⊢
    omega
  | pass t h1 h2 =>
    have := hw t ⟨.waiting, (s.th t).mgr⟩
    simp only [PoolSt.setTh]
    simp only [Th.weight, h1] at this ⊢
    omega
  | join t h1 h2 =>
    have := hw t ⟨.idle, .none⟩
    simp only [PoolSt.setTh]
    simp only [Th.weight, h1, h2] at this ⊢
    omega
  | childPut t i h1 h2 =>
    have := hw t ⟨(s.th t).pc, .joining i .put⟩
    simp only [PoolSt.setTh]
    simp only [Th.weight, h1] at this ⊢
    omega
  | childRaise t i h1 h2 =>
    have := hw t ⟨(s.th t).pc, .joining i (.exited false)⟩
    simp only [PoolSt.setTh]
    simp only [Th.weight, h1] at this ⊢
    omega
  | childExit t i h1 h2 =>
    have := hw t ⟨(s.th t).pc, .joining i (.exited true)⟩
    simp only [PoolSt.setTh]
    simp only [Th.weight, h1] at this ⊢
    omega
  | collect t i b h1 =>
    have := hw t ⟨(s.th t).pc, .finished⟩
    simp only [PoolSt.setTh, PoolSt.setRes]
    simp only [Th.weight, h1] at this ⊢
    omega
  | kill t i ch h1 h2 h3 =>
    have := hw t ⟨(s.th t).pc, .finished⟩
    simp only [PoolSt.setTh, PoolSt.setRes]
    cases ch with
    | exited b => exact absurd rfl (h2 b)
    | running => simp only [Th.weight, h1] at this ⊢; omega
    | put => simp only [Th.weight, h1] at this ⊢; omega

/-- `m` steps lead from the initial state to `s`. -/
inductive PoolRun (c : PoolCfg V) : Nat → PoolSt V c.nThreads → Prop
  | init : PoolRun c 0 (.init V c.nThreads)
  | step {m s s'} : PoolRun c m s → PoolStep c s s' → PoolRun c (m + 1) s'

theorem PoolRun.reach {c : PoolCfg V} {m : Nat} {s : PoolSt V c.nThreads} (h : PoolRun c m s) : PoolReach c s := by
  induction h with
  | init => exact .init
  | step _ hs ih => exact .step ih hs

/-- No execution of the pool is infinite: it takes at most `10 * jobs + 2 * threads` steps. -/
theorem C20_bounded_executions {c : PoolCfg V} {m : Nat} {s : PoolSt V c.nThreads} (h : PoolRun c m s) :
    m ≤ 10 * c.nJobs + 2 * c.nThreads := by
  have key : m + poolMeasure c s ≤ 10 * c.nJobs + 2 * c.nThreads := by
    induction h with
    | init => simp [poolMeasure, PoolSt.init, Th.weight]; omega
    | step h hs ih =>
      have := poolMeasure_step hs
      omega
  omega

/-- The pool never gets stuck before all threads have ended, provided that there is a time limit or every result fits
into the pipe, and that processes can be started. Together with the bound above: every maximal execution ends with `execute` returning. -/
theorem C20_no_deadlock {c : PoolCfg V} {s : PoolSt V c.nThreads} (h : PoolReach c s)
    (hbig : c.hasTimeout = true ∨ ∀ i < c.nJobs, c.big i = false) (hst : ∀ i < c.nJobs, c.startable i = true) (hd : ¬ s.allDone) :
    ∃ s', PoolStep c s s' := by
  have inv := poolInv_reach h
  have hmgr : ∀ t, (s.th t).mgr ≠ .none → (∃ s', PoolStep c s s') := by
    intro t hne
    cases hm : (s.th t).mgr with
    | none => exact absurd hm hne
    | toStart i => exact ⟨_, .start s t i hm (hst i (by have := (inv.toStart t i hm).1; have := inv.idx; omega))⟩
    | joining i ch =>
      cases ch with
      | running =>
        by_cases he : c.exec i = none
        · exact ⟨_, .childRaise s t i hm he⟩
        · exact ⟨_, .childPut s t i hm he⟩
      | put =>
        rcases hbig with hb | hb
        · exact ⟨_, .kill s t i .put hm (by intro b hb; cases hb) hb⟩
        · exact ⟨_, .childExit s t i hm (hb i (by have := (inv.joining t i _ hm).1; have := inv.idx; omega))⟩
      | exited b => exact ⟨_, .collect s t i b hm⟩
    | finished =>
      cases hp : (s.th t).pc with
      | idle => have := (inv.mgrNone t).2 (Or.inl hp); rw [hm] at this; cases this
      | crit => have := (inv.mgrNone t).2 (Or.inr (Or.inl hp)); rw [hm] at this; cases this
      | done => have := (inv.mgrNone t).2 (Or.inr (Or.inr hp)); rw [hm] at this; cases this
      | spawned => exact ⟨_, .pass s t hp (by intro i e; rw [hm] at e; cases e)⟩
      | waiting => exact ⟨_, .join s t hp hm⟩
  have hcrit : ∀ t, (s.th t).pc = .crit → (∃ s', PoolStep c s s') := by
    intro t hp
    rcases Nat.lt_or_ge s.idx c.nJobs with h1 | h1
    · exact ⟨_, .spawn s t hp h1⟩
    · exact ⟨_, .stop s t hp h1⟩
  unfold PoolSt.allDone at hd
  push Not at hd
  obtain ⟨t, ht⟩ := hd
  by_cases hm : (s.th t).mgr = .none
  · rcases (inv.mgrNone t).1 hm with hp | hp | hp
    · cases hl : s.lock with
      | none => exact ⟨_, .acquire s t hp hl⟩
      | some u =>
        rcases (inv.lock u).1 hl with hu | hu
        · exact hcrit u hu
        · refine hmgr u (fun e => ?_)
          have := (inv.mgrNone u).1 e
          rw [hu] at this
          simp at this
    · exact hcrit t hp
    · exact absurd hp ht
  · exact hmgr t hm

/-- Without a time limit, a job whose result does not fit into the pipe makes the call hang forever: the child does
not end before its queue is read, and the queue is read only after the child has ended. -/
theorem C20_large_result_hangs {c : PoolCfg V} (hk : 1 ≤ c.nThreads) (hto : c.hasTimeout = false) {i : Nat}
    (hi : i < c.nJobs) (he : c.exec i ≠ none) (hb : c.big i = true) {s : PoolSt V c.nThreads}
    (h : PoolReach c s) : ¬ s.allDone := by
  have key : s.idx ≤ i ∨ ∃ t, (s.th t).mgr = .toStart i ∨ (s.th t).mgr = .joining i .running ∨
      (s.th t).mgr = .joining i .put := by
    induction h with
    | init => left; simp [PoolSt.init]
    | step hr hs ih =>
      have inv := poolInv_reach hr
      have h3 := inv.toStart
      have h4 := inv.joining
      have h8 := inv.mgrNone
      have h6 := inv.unique
      cases hs with
      | acquire t h1 h2 => simp only [PoolSt.setTh, Function.update_apply]; grind [Th.owns]
      | stop t h1 h2 => simp only [PoolSt.setTh, Function.update_apply]; grind [Th.owns]
      | spawn t h1 h2 => simp only [PoolSt.setTh, Function.update_apply]; grind [Th.owns]
      | start t i h1 h2 => simp only [PoolSt.setTh, Function.update_apply]; grind [Th.owns]
      | pass t h1 h2 => simp only [PoolSt.setTh, Function.update_apply]; grind [Th.owns]
      | join t h1 h2 => simp only [PoolSt.setTh, Function.update_apply]; grind [Th.owns]
      | childPut t i h1 h2 => simp only [PoolSt.setTh, Function.update_apply]; grind [Th.owns]
      | childRaise t i h1 h2 => simp only [PoolSt.setTh, Function.update_apply]; grind [Th.owns]
      | childExit t i h1 h2 => simp only [PoolSt.setTh, Function.update_apply]; grind [Th.owns]
      | collect t i b h1 => simp only [PoolSt.setTh, PoolSt.setRes, Function.update_apply]; grind [Th.owns]
      | kill t i ch h1 h2 h3 => rw [hto] at h3; cases h3
  intro hd
  have inv := poolInv_reach h
  rcases key with h1 | ⟨t, ht⟩
  · have := inv.done ⟨0, hk⟩ (hd _)
    omega
  · have := (inv.mgrNone t).2 (Or.inr (Or.inr (hd t)))
    rw [this] at ht
    simp at ht

/-- When the process of one job cannot be started, the call hangs forever, whatever the time limit and the number of threads are: the
pooling thread waits for a lock nobody releases, and holds the lock of the pool. No later job is started or gets a result. -/
theorem C20_start_failure_hangs {c : PoolCfg V} (hk : 1 ≤ c.nThreads) {i : Nat} (hi : i < c.nJobs) (hf : c.startable i = false)
    {s : PoolSt V c.nThreads} (h : PoolReach c s) : ¬ s.allDone ∧ ∀ j, i ≤ j → s.starts j = 0 ∧ s.res j = none := by
  have h0 : s.starts i = 0 ∧ s.idx ≤ i + 1 := by
    induction h with
    | init => exact ⟨rfl, Nat.zero_le _⟩
    | step hr hs ih =>
      have inv := poolInv_reach hr
      cases hs with
      | acquire t h1 h2 => exact ih
      | stop t h1 h2 => exact ih
      | spawn t h1 h2 =>
        refine ⟨ih.1, Nat.succ_le_succ (Nat.le_of_lt_succ (lt_of_le_of_ne ih.2 fun he => ?_))⟩
        rcases inv.covered i (by omega) with ⟨u, hu | ⟨ch, hu⟩⟩ | ⟨h3, _⟩
        · have e1 := (inv.lock t).2 (Or.inl h1)
          have hp := (inv.toStart u i hu).2.2.2
          rw [(inv.lock u).2 (Or.inr hp)] at e1
          injection e1 with e1
          rw [e1, h1] at hp
          cases hp
        · have := (inv.joining u i ch hu).2.1
          omega
        · omega
      | start t j h1 h2 =>
        refine ⟨?_, ih.2⟩
        show Function.update _ j _ i = 0
        rw [Function.update_of_ne (by rintro rfl; rw [hf] at h2; cases h2)]
        exact ih.1
      | pass t h1 h2 => exact ih
      | join t h1 h2 => exact ih
      | childPut t j h1 h2 => exact ih
      | childRaise t j h1 h2 => exact ih
      | childExit t j h1 h2 => exact ih
      | collect t j b h1 => exact ih
      | kill t j ch h1 h2 h3 => exact ih
  refine ⟨fun hd => ?_, fun j hj => ?_⟩
  · have := (C20_result_slots h hk hd hi).1
    omega
  · have inv := poolInv_reach h
    rcases Nat.lt_or_ge j s.idx with hl | hl
    · have : j = i := by omega
      subst this
      refine ⟨h0.1, ?_⟩
      rcases inv.covered j hl with ⟨u, hu | ⟨ch, hu⟩⟩ | ⟨h3, _⟩
      · exact (inv.toStart u j hu).2.2.1
      · have := (inv.joining u j ch hu).2.1
        omega
      · omega
    · exact inv.fresh j hl

/-- The hypotheses are met: two jobs, a time limit, and the first process cannot be started; two steps later nothing more can happen. -/
example : ∃ s : PoolSt Nat 1, PoolReach ⟨2, 1, fun _ => some 7, fun _ => some 0, true, fun _ => false, fun _ => false⟩ s ∧
    (s.th 0) = ⟨.spawned, .toStart 0⟩ := by
  let c : PoolCfg Nat := ⟨2, 1, fun _ => some 7, fun _ => some 0, true, fun _ => false, fun _ => false⟩
  have r0 : PoolReach c (.init Nat 1) := .init
  have r1 := PoolReach.step r0 (PoolStep.acquire (c := c) _ (0 : Fin 1) rfl rfl)
  have r2 := PoolReach.step r1 (PoolStep.spawn (c := c) _ (0 : Fin 1) rfl Nat.two_pos)
  exact ⟨_, r2, rfl⟩

/-- A result that is ready when the time limit strikes is lost: in this execution the job's value is already in the
queue, `execute` returns, and the slot holds the `timeout()` value. -/
theorem C20_ready_result_overwritten (v w : V) :
    ∃ (s s' : PoolSt V 1),
      PoolReach ⟨1, 1, fun _ => some v, fun _ => some w, true, fun _ => true, fun _ => true⟩ s ∧
      PoolStep ⟨1, 1, fun _ => some v, fun _ => some w, true, fun _ => true, fun _ => true⟩ s s' ∧
      (s.th 0).mgr = .joining 0 .put ∧ s'.res 0 = some w ∧
      ∃ s'', PoolReach ⟨1, 1, fun _ => some v, fun _ => some w, true, fun _ => true, fun _ => true⟩ s'' ∧
        s''.allDone ∧ s''.res 0 = some w := by
  let c : PoolCfg V := ⟨1, 1, fun _ => some v, fun _ => some w, true, fun _ => true, fun _ => true⟩
  have r0 : PoolReach c (.init V 1) := .init
  have r1 := PoolReach.step r0 (PoolStep.acquire (c := c) _ (0 : Fin 1) rfl rfl)
  have r2 := PoolReach.step r1 (PoolStep.spawn (c := c) _ (0 : Fin 1) rfl Nat.one_pos)
  have r3 := PoolReach.step r2 (PoolStep.start (c := c) _ (0 : Fin 1) 0 rfl rfl)
  have r4 := PoolReach.step r3 (PoolStep.pass (c := c) _ (0 : Fin 1) rfl (by intro i hi; cases hi))
  have r5 := PoolReach.step r4 (PoolStep.childPut (c := c) _ (0 : Fin 1) 0 rfl (by intro h; cases h))
  have r6 := PoolReach.step r5 (PoolStep.kill (c := c) _ (0 : Fin 1) 0 .put rfl (by intro b hb; cases hb) rfl)
  have r7 := PoolReach.step r6 (PoolStep.join (c := c) _ (0 : Fin 1) rfl rfl)
  have r8 := PoolReach.step r7 (PoolStep.acquire (c := c) _ (0 : Fin 1) rfl rfl)
  have r9 := PoolReach.step r8 (PoolStep.stop (c := c) _ (0 : Fin 1) rfl (Nat.le_refl 1))
  refine ⟨_, _, r5, PoolStep.kill (c := c) _ (0 : Fin 1) 0 .put rfl (by intro b hb; cases hb) rfl, rfl, rfl, _, r9, ?_, rfl⟩
  intro t
  have : t = 0 := Subsingleton.elim _ _
  subst this
  rfl

/-- With a non-positive `n_jobs` no thread is created: `execute` returns at once with every slot `None`, and no job is
ever started. -/
theorem C20_no_threads {c : PoolCfg V} (hk : c.nThreads = 0) {s : PoolSt V c.nThreads} (h : PoolReach c s) :
    s.allDone ∧ ∀ i, s.res i = none ∧ s.starts i = 0 := by
  have hno : ∀ t : Fin c.nThreads, False := fun t => by have := t.2; omega
  refine ⟨fun t => (hno t).elim, ?_⟩
  induction h with
  | init => intro i; exact ⟨rfl, rfl⟩
  | step _ hs _ => cases hs <;> exact (hno ‹_›).elim

/-- `apply(f, tasks)` without a time limit: when it returns, slot `i` is `f` applied to task `i`, for every task on
which `f` does not raise. -/
theorem C20_apply {T : Type} (f : T → Option V) (pyNone : V) (tasks : List T) (k : Nat) (hk : 1 ≤ k) (big startable : Nat → Bool)
    {s : PoolSt V k}
    (h : PoolReach ⟨tasks.length, k, fun i => (tasks[i]?).bind f, fun _ => some pyNone, false, big, startable⟩ s)
    (hd : s.allDone) {i : Nat} {task : T} (hi : tasks[i]? = some task) :
    s.res i = some ((f task).getD pyNone) := by
  have hlt : i < tasks.length := by
    rcases Nat.lt_or_ge i tasks.length with h | h
    · exact h
    · rw [List.getElem?_eq_none h] at hi; cases hi
  obtain ⟨_, h2⟩ := C20_result_slots h hk hd hlt
  rcases h2 with ⟨v, h2, h3⟩ | ⟨h2, h3⟩
  · simp only [hi, Option.bind_some] at h2
    rw [h3, h2]; rfl
  · rcases h3 with h3 | h3
    · simp at h3
    · simp only [hi, Option.bind_some] at h3
      rw [h2, h3]; rfl

/-- The hypotheses are met: with one thread and one job there is a complete execution with the job's own value. -/
example : ∃ s : PoolSt Nat 1, PoolReach ⟨1, 1, fun _ => some 7, fun _ => some 0, false, fun _ => false, fun _ => true⟩ s ∧
    s.allDone ∧ s.res 0 = some 7 := by
  let c : PoolCfg Nat := ⟨1, 1, fun _ => some 7, fun _ => some 0, false, fun _ => false, fun _ => true⟩
  have r0 : PoolReach c (.init Nat 1) := .init
  have r1 := PoolReach.step r0 (PoolStep.acquire (c := c) _ (0 : Fin 1) rfl rfl)
  have r2 := PoolReach.step r1 (PoolStep.spawn (c := c) _ (0 : Fin 1) rfl Nat.one_pos)
  have r3 := PoolReach.step r2 (PoolStep.start (c := c) _ (0 : Fin 1) 0 rfl rfl)
  have r4 := PoolReach.step r3 (PoolStep.childPut (c := c) _ (0 : Fin 1) 0 rfl (by intro h; cases h))
  have r5 := PoolReach.step r4 (PoolStep.childExit (c := c) _ (0 : Fin 1) 0 rfl rfl)
  have r6 := PoolReach.step r5 (PoolStep.collect (c := c) _ (0 : Fin 1) 0 true rfl)
  have r7 := PoolReach.step r6 (PoolStep.pass (c := c) _ (0 : Fin 1) rfl (by intro i hi; cases hi))
  have r8 := PoolReach.step r7 (PoolStep.join (c := c) _ (0 : Fin 1) rfl rfl)
  have r9 := PoolReach.step r8 (PoolStep.acquire (c := c) _ (0 : Fin 1) rfl rfl)
  have r10 := PoolReach.step r9 (PoolStep.stop (c := c) _ (0 : Fin 1) rfl (Nat.le_refl 1))
  refine ⟨_, r10, ?_, rfl⟩
  intro t
  have : t = 0 := Subsingleton.elim _ _
  subst this
  rfl

end Verif

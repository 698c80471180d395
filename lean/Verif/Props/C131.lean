import Verif.Model.Config
import Verif.Props.C29

/-!
# C131: the settings of the package
-/

namespace Verif

/-- The setting a call is about. -/
inductive Setting
  | external | internal | memory
  deriving DecidableEq

/-- The setting a call is about and the value it gives, if any. -/
def ConfigCall.gives : ConfigCall → Setting × Option ConfigValue
  | .external b => (.external, b.map .flag)
  | .internal b => (.internal, b.map .flag)
  | .memory n => (.memory, n.map .size)

/-- The call which asks for a setting. -/
def Setting.ask : Setting → ConfigCall
  | .external => .external none
  | .internal => .internal none
  | .memory => .memory none

/-- The value of a setting at the beginning, as documented. -/
def Setting.initial : Setting → ConfigValue
  | .external => .flag true
  | .internal => .flag true
  | .memory => .size 50000000

theorem run_ask (s : Setting) (f : Flags) : (s.ask.run f).2 = f := by cases s <;> rfl

theorem run_sets {c : ConfigCall} {s : Setting} {v : ConfigValue} (h : c.gives = (s, some v)) (f : Flags) :
    (c.run f).1 = v ∧ (s.ask.run (c.run f).2).1 = v := by
  cases c with
  | external b => cases b <;> simp only [ConfigCall.gives, Option.map, Prod.mk.injEq, reduceCtorEq, Option.some.injEq, and_false] at h
                  obtain ⟨rfl, rfl⟩ := h; exact ⟨rfl, rfl⟩
  | internal b => cases b <;> simp only [ConfigCall.gives, Option.map, Prod.mk.injEq, reduceCtorEq, Option.some.injEq, and_false] at h
                  obtain ⟨rfl, rfl⟩ := h; exact ⟨rfl, rfl⟩
  | memory b => cases b <;> simp only [ConfigCall.gives, Option.map, Prod.mk.injEq, reduceCtorEq, Option.some.injEq, and_false] at h
                obtain ⟨rfl, rfl⟩ := h; exact ⟨rfl, rfl⟩

theorem run_keeps {c : ConfigCall} {s : Setting} (h : ∀ v, c.gives ≠ (s, some v)) (f : Flags) :
    (s.ask.run (c.run f).2).1 = (s.ask.run f).1 := by
  cases c with
  | external b =>
    cases b with
    | none => rfl
    | some b => cases s with
      | external => exact absurd rfl (h (.flag b))
      | internal => rfl
      | memory => rfl
  | internal b =>
    cases b with
    | none => rfl
    | some b => cases s with
      | internal => exact absurd rfl (h (.flag b))
      | external => rfl
      | memory => rfl
  | memory b =>
    cases b with
    | none => rfl
    | some b => cases s with
      | memory => exact absurd rfl (h (.size b))
      | external => rfl
      | internal => rfl

theorem after_keeps {cs : List ConfigCall} {s : Setting} (h : ∀ c ∈ cs, ∀ v, c.gives ≠ (s, some v)) (f : Flags) :
    (s.ask.run (configAfter cs f)).1 = (s.ask.run f).1 := by
  unfold configAfter
  induction cs generalizing f with
  | nil => rfl
  | cons c cs ih =>
    rw [List.foldl_cons, ih (fun c hc => h c (List.mem_cons_of_mem _ hc)), run_keeps (h c List.mem_cons_self)]

/-- **The last value given counts.** After any history of calls in which `v` is the last value given for a setting, asking for it returns
`v`, and asking changes nothing. The call which gives a value returns it. -/
theorem C131_last (pre post : List ConfigCall) (c : ConfigCall) (s : Setting) (v : ConfigValue) (hc : c.gives = (s, some v))
    (hp : ∀ c' ∈ post, ∀ w, c'.gives ≠ (s, some w)) :
    s.ask.run (configAfter (pre ++ c :: post) .default) = (v, configAfter (pre ++ c :: post) .default) ∧
      (c.run (configAfter pre .default)).1 = v := by
  refine ⟨Prod.ext ?_ (run_ask _ _), (run_sets hc _).1⟩
  have : configAfter (pre ++ c :: post) .default = configAfter post (c.run (configAfter pre .default)).2 := by
    unfold configAfter
    rw [List.foldl_append, List.foldl_cons]
  rw [this, after_keeps hp]
  exact (run_sets hc _).2

/-- **Nothing else counts.** If no call gives a value for a setting, it keeps its documented initial value, whatever is done to the
other settings. -/
theorem C131_initial (cs : List ConfigCall) (s : Setting) (h : ∀ c ∈ cs, ∀ v, c.gives ≠ (s, some v)) :
    (s.ask.run (configAfter cs .default)).1 = s.initial := by
  rw [after_keeps h]
  cases s <;> rfl

/-- **Results do not depend on the settings.** After any history of calls, if the last memory limit given (50000000 if none) is positive and
allows the differences of one row to all others, the distances are those computed in one piece. -/
theorem C131_distances {β : Type} (cs : List ConfigCall) (sqrt : ℚ → β) (d : Nat) (t : Option (List Row)) (o : Bool) (X Y : List Row)
    {depth : Nat} (hdepth : 2 ≤ depth) (n : Nat) (hn : (Setting.memory.ask.run (configAfter cs .default)).1 = .size n) (h0 : 0 < n)
    (hrow : d * Y.length ≤ n) : distancesUnder (configAfter cs .default) sqrt d t o X Y depth = .ok (directDistances sqrt d t o X Y) := by
  unfold distancesUnder
  have : (maxMemoryChunk none (configAfter cs .default)).1 = n := by
    injection hn
  rw [this]
  exact C29_chunked sqrt d t o X Y h0 hrow hdepth

/-- The default limit is enough for data of fifty million numbers. -/
theorem C131_default_limit {β : Type} (cs : List ConfigCall) (hcs : ∀ c ∈ cs, ∀ v, c.gives ≠ (Setting.memory, some v)) (sqrt : ℚ → β)
    (d : Nat) (t : Option (List Row)) (o : Bool) (X Y : List Row) {depth : Nat} (hdepth : 2 ≤ depth) (hrow : d * Y.length ≤ 50000000) :
    distancesUnder (configAfter cs .default) sqrt d t o X Y depth = .ok (directDistances sqrt d t o X Y) :=
  C131_distances cs sqrt d t o X Y hdepth 50000000 (C131_initial cs .memory hcs) (by norm_num) hrow

/-- **Too small a limit.** A limit of zero is accepted and makes every distance computation divide by zero; a limit below one row of
differences is accepted and makes it recurse until the interpreter gives up. -/
theorem C131_small_limit {β : Type} (pre post : List ConfigCall) (n : Nat) (hp : ∀ m, .memory (some m) ∉ post) (sqrt : ℚ → β) (d : Nat)
    (t : Option (List Row)) (o : Bool) (X Y : List Row) (depth : Nat) (hX : X ≠ []) (hn : n < d * Y.length) :
    distancesUnder (configAfter (pre ++ .memory (some n) :: post) .default) sqrt d t o X Y (depth + 1) =
      .error (if n = 0 then .zeroDivision else .recursionError) := by
  have h1 := (C131_last pre post (.memory (some n)) .memory (.size n) rfl (fun c' hc' w hw => by
    cases c' with
    | external b => cases hw
    | internal b => cases hw
    | memory b =>
      cases b with
      | none => cases hw
      | some b => exact hp b hc')).1
  have h2 : (maxMemoryChunk none (configAfter (pre ++ .memory (some n) :: post) .default)).1 = n := by
    have := congrArg Prod.fst h1
    injection this
  unfold distancesUnder
  rw [h2]
  have hl : 0 < X.length := List.length_pos_iff.2 hX
  by_cases h0 : n = 0
  · subst h0
    rw [if_pos rfl]
    exact C29_zero_limit sqrt d t o X Y depth (by rw [Nat.mul_assoc]; exact Nat.mul_pos hl hn)
  · rw [if_neg h0]
    exact C29_diverges sqrt d t o Y (Nat.pos_of_ne_zero h0) hn _ X hl.ne'

/-- **Warnings.** The settings decide only whether returning copies warns, not what is returned; by default it does not warn. -/
theorem C131_copies (cs : List ConfigCall) (X : List Row) (y : List Int) :
    (returnCopiesWarned (configAfter cs .default) X y).1 = (X, y) ∧
      ((returnCopiesWarned (configAfter cs .default) X y).2 = true ↔
        ∃ pre post : List ConfigCall, cs = pre ++ .internal (some false) :: post ∧ ∀ b, .internal (some b) ∉ post) := by
  refine ⟨rfl, ?_⟩
  unfold returnCopiesWarned suppressInternal
  rw [Bool.not_eq_true']
  show (configAfter cs Flags.default).internal = false ↔ _
  constructor
  · intro h
    by_contra hne
    push Not at hne
    induction cs using List.reverseRecOn with
    | nil => cases h
    | append_singleton cs c ih =>
      have e : configAfter (cs ++ [c]) .default = (c.run (configAfter cs .default)).2 := by
        unfold configAfter
        rw [List.foldl_append]
        rfl
      rw [e] at h
      by_cases hc : ∃ b, c = .internal (some b)
      · obtain ⟨b, rfl⟩ := hc
        have hb : b = false := h
        subst hb
        obtain ⟨b', hb'⟩ := hne cs [] rfl
        cases hb'
      · refine ih ?_ (fun pre post hs => ?_)
        · cases c with
          | external b => cases b <;> exact h
          | memory b => cases b <;> exact h
          | internal b =>
            cases b with
            | none => exact h
            | some b => exact absurd ⟨b, rfl⟩ hc
        · obtain ⟨b, hb⟩ := hne pre (post ++ [c]) (by rw [hs]; simp)
          rcases List.mem_append.1 hb with hb | hb
          · exact ⟨b, hb⟩
          · exact absurd ⟨b, (List.mem_singleton.1 hb).symm⟩ hc
  · rintro ⟨pre, post, rfl, hp⟩
    have h1 := (C131_last pre post (.internal (some false)) .internal (.flag false) rfl (fun c' hc' w hw => ?_)).1
    · have h2 := congrArg Prod.fst h1
      injection h2
    · cases c' with
      | external b => cases hw
      | memory b => cases hw
      | internal b =>
        cases b with
        | none => cases hw
        | some b => exact hp b hc'

/-! ## Non-vacuity -/

example : configAfter [.memory (some 10), .internal (some false), .external none, .memory none] .default = ⟨true, false, 10⟩ ∧
    (∀ c ∈ [ConfigCall.external none, .memory none], ∀ w, c.gives ≠ (Setting.internal, some w)) ∧
    (returnCopiesWarned (configAfter [.memory (some 10), .internal (some false)] .default) [[1]] [0]).2 = true := by
  refine ⟨rfl, ?_, rfl⟩
  intro c hc w
  simp only [List.mem_cons, List.not_mem_nil, or_false] at hc
  rcases hc with rfl | rfl <;> (intro h; cases h)

end Verif

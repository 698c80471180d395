import Verif.Model.Rng
import Verif.Lemmas.Rng
import Verif.Lemmas.SmoteExample
import Verif.Props.C99

/-!
# C114 Seeds and reproducibility
-/

namespace Verif

variable {R : RngLib} {α : Type}

/-- `w'` has the generators of `w` in the states of `w`, the generator of the module among them, and perhaps more generators. -/
def RngWorld.Kept (w w' : RngWorld R) : Prop := w'.glob = w.glob ∧ ∀ i, i < w.objects.length → w'.objects[i]? = w.objects[i]?

theorem rng_get_object {w : RngWorld R} {i : Nat} (h : i < w.objects.length) : w.objects[i]? = some (w.get (.object i)) := by
  rw [RngWorld.get, List.getD_eq_getElem?_getD, List.getElem?_eq_getElem h]
  rfl

theorem freshRun_int {n : Int} (h0 : 0 ≤ n) (h1 : n < 2 ^ 32) (p : RProg α) (w : RngWorld R) :
    freshRun R (.int n) p w = .ok (p.run R (.object w.objects.length) { w with objects := w.objects ++ [R.seed n.toNat] }) := by
  unfold freshRun newGenerator
  simp only
  rw [if_pos ⟨h0, h1⟩]

/-- SMOTE with an integer seed: the result is the same whatever was drawn before by whom (any two worlds), and no other generator, that of the
module included, is touched. -/
theorem C114_seeded (par : SmoteParams) (vol : List Row → ℚ) (d : Nat) (knn : Nat → List Row → List (List Nat)) (X : List Row) (y : List Int)
    {n : Int} (h0 : 0 ≤ n) (h1 : n < 2 ^ 32) (w v : RngWorld R) :
    ∃ r w' v', freshRun R (.int n) (smoteProg par vol d knn X y) w = .ok (r, w') ∧ freshRun R (.int n) (smoteProg par vol d knn X y) v = .ok (r, v') ∧
      w.Kept w' ∧ v.Kept v' := by
  have hown := smoteProg_own par vol d knn X y
  have hget : ∀ u : RngWorld R, ({ u with objects := u.objects ++ [R.seed n.toNat] } : RngWorld R).get (.object u.objects.length) = R.seed n.toNat := by
    intro u; simp [RngWorld.get]
  have hhas : ∀ u : RngWorld R, ({ u with objects := u.objects ++ [R.seed n.toNat] } : RngWorld R).Has (.object u.objects.length) := by
    intro u; simp [RngWorld.Has]
  have hkept : ∀ u : RngWorld R, u.Kept ((smoteProg par vol d knn X y).run R (.object u.objects.length)
      { u with objects := u.objects ++ [R.seed n.toNat] }).2 := by
    intro u
    obtain ⟨hl, hf⟩ := run_frame (smoteProg par vol d knn X y) (.object u.objects.length)
      ({ u with objects := u.objects ++ [R.seed n.toNat] } : RngWorld R)
    refine ⟨hf .glob trivial (by simp) (Or.inr hown), fun i hi => ?_⟩
    have hl' : i < (u.objects ++ [R.seed n.toNat]).length := by rw [List.length_append]; omega
    rw [rng_get_object (by rw [hl]; exact hl'), hf (.object i) hl' (by simp; omega) (Or.inr hown), ← rng_get_object hl']
    exact List.getElem?_append_left hi
  refine ⟨_, _, _, freshRun_int h0 h1 _ w, ?_, hkept w, hkept v⟩
  rw [freshRun_int h0 h1, (run_own _ hown (hhas w) (hhas v) ((hget w).trans (hget v).symm)).1]

/-- Such a run is a run of the model of SMOTE with draws of the kind the other properties assume, with any generator. -/
theorem C114_model (hR : R.OK) (par : SmoteParams) (vol : List Row → ℚ) (d : Nat) (knn : Nat → List Row → List (List Nat)) (X : List Row)
    (y : List Int) {v : RsArg} {w w' : RngWorld R} {r : Res (List Row × List Int)}
    (h : freshRun R v (smoteProg par vol d knn X y) w = .ok (r, w')) : ∃ dr : Draws, dr.OK ∧ r = smoteSample par vol dr d knn X y := by
  unfold freshRun at h
  cases hg : newGenerator R v w with
  | error e => rw [hg] at h; cases h
  | ok rw' =>
    rw [hg] at h
    injection h with h
    obtain ⟨dr, hdr, he⟩ := smoteProg_run hR par vol d knn X y rw'.1 rw'.2
    exact ⟨dr, hdr, by rw [← he, h]⟩

/-- A history of calls of any number of oversamplers, in any order: the results of one with a generator of its own and draws from it only are those
it would give without the calls of the others, in any world in which its generator has the same state. The others may do what they want. -/
theorem C114_interleaved (calls : List (RngRef × RProg α)) (i j : Nat) : ∀ {w v : RngWorld R}, i < w.objects.length → j < v.objects.length →
    w.get (.object i) = v.get (.object j) → (∀ c ∈ calls, c.1 = .object i → c.2.OwnDraws) →
    (((runCalls R calls w).1.filter (fun c => c.1 = .object i)).map Prod.snd) =
      ((runCalls R ((calls.filter (fun c => c.1 = .object i)).map (fun c => (.object j, c.2))) v).1.map Prod.snd) := by
  induction calls with
  | nil => intros; rfl
  | cons c cs ih =>
    intro w v hi hj h hown
    have hi' : i < (c.2.run R c.1 w).2.objects.length := (run_frame c.2 c.1 w).1 ▸ hi
    by_cases hc : c.1 = .object i
    · obtain ⟨h1, h2⟩ := run_own c.2 (r := .object i) (q := .object j) (hown c (List.mem_cons_self ..) hc) hi hj h
      have hj' : j < (c.2.run R (.object j) v).2.objects.length := (run_frame c.2 (.object j) v).1 ▸ hj
      have := ih (w := (c.2.run R c.1 w).2) (v := (c.2.run R (.object j) v).2) hi' hj' (by rw [hc]; exact h2)
        (fun c hc => hown c (List.mem_cons_of_mem _ hc))
      simp only [runCalls, List.filter_cons, hc, decide_true, if_true, List.map_cons]
      rw [hc] at this
      rw [this, h1]
    · have hk : (c.2.run R c.1 w).2.get (.object i) = v.get (.object j) := by
        rw [(run_frame c.2 c.1 w).2 (.object i) hi (fun e => hc e.symm) (Or.inl (by simp)), h]
      have := ih (w := (c.2.run R c.1 w).2) (v := v) hi' hj hk (fun c hc => hown c (List.mem_cons_of_mem _ hc))
      simp only [runCalls, List.filter_cons, hc, decide_false]
      exact this

/-- Without a seed SMOTE draws from the generator of the module: after `np.random.seed(n)` it gives what it gives with the seed `n`. -/
theorem C114_unseeded (par : SmoteParams) (vol : List Row → ℚ) (d : Nat) (knn : Nat → List Row → List (List Nat)) (X : List Row) (y : List Int)
    {n : Int} (h0 : 0 ≤ n) (h1 : n < 2 ^ 32) (w v : RngWorld R) :
    ∃ r w' v', freshRun R .none (smoteProg par vol d knn X y) { w with glob := R.seed n.toNat } = .ok (r, w') ∧
      freshRun R (.int n) (smoteProg par vol d knn X y) v = .ok (r, v') := by
  refine ⟨_, _, ((smoteProg par vol d knn X y).run R (.object v.objects.length) { v with objects := v.objects ++ [R.seed n.toNat] }).2, rfl, ?_⟩
  rw [freshRun_int h0 h1]
  have h := (run_own (smoteProg par vol d knn X y) (r := .glob) (q := .object v.objects.length)
    (w := ({ w with glob := R.seed n.toNat } : RngWorld R)) (v := ({ v with objects := v.objects ++ [R.seed n.toNat] } : RngWorld R))
    (smoteProg_own par vol d knn X y) trivial (by simp [RngWorld.Has]) (by simp [RngWorld.get])).1
  exact congrArg Except.ok (Prod.ext h.symm rfl)

/-- A `RandomState` object is used itself, not copied: the result depends on its state only, and a second oversampler with the object goes on where the
first one stopped. -/
theorem C114_object (p : RProg α) (hp : p.OwnDraws) {i : Nat} {w v : RngWorld R} (hi : i < w.objects.length) (hv : i < v.objects.length)
    (h : w.get (.object i) = v.get (.object i)) : ∃ r w' v', freshRun R (.object i) p w = .ok (r, w') ∧ freshRun R (.object i) p v = .ok (r, v') ∧
      w'.get (.object i) = v'.get (.object i) ∧
      ∀ q : RProg α, q.OwnDraws → freshRun R (.object i) q w' = .ok (q.run R (.object i) w') := by
  have hw' : ∀ (q : RProg α) (u : RngWorld R), i < u.objects.length → freshRun R (.object i) q u = .ok (q.run R (.object i) u) := by
    intro q u hu
    unfold freshRun newGenerator
    simp only
    rw [if_pos hu]
  obtain ⟨h1, h2⟩ := run_own p (r := .object i) (q := .object i) hp hi hv h
  refine ⟨_, _, _, hw' p w hi, ?_, h2, fun q _ => hw' q _ ?_⟩
  · rw [hw' p v hv, h1]
  · rw [(run_frame p (.object i) w).1]; exact hi

/-- A small generator for the witnesses below: a linear congruence modulo 16. -/
def lcg : RngLib where
  State := Nat
  seed n := n % 16
  uniform st := (((st % 16 : Nat) : ℚ) / 16, (5 * st + 3) % 16)
  normal st := ((st : ℚ) / 16 - 1 / 2, (5 * st + 3) % 16)
  below m st := (st % m, (5 * st + 3) % 16)

/-- The result of `sample` with a generator of its own in the state `own`, the generator of the module being in the state `glob`. -/
def lcgRun (glob own : Nat) (p : RProg (List Row × List Int)) : Res (List Row × List Int) × RngWorld lcg :=
  p.run lcg (.object 0) ⟨glob, [own]⟩

/-- Seeds below zero and from `2**32` on, and objects which are no generators, are refused. -/
theorem C114_refused (p : RProg α) (w : RngWorld R) : (∀ n : Int, n < 0 ∨ 2 ^ 32 ≤ n → freshRun R (.int n) p w = .error .valueError) ∧
    freshRun R .other p w = .error .valueError := by
  refine ⟨fun n hn => ?_, rfl⟩
  unfold freshRun newGenerator
  simp only
  rw [if_neg (by omega)]

/-- A second call of `sample` of the same object gives other rows than the first; an object made anew with the seed repeats the first. -/
theorem C114_second_call : ∃ r1 r2, (runCalls lcg [(.object 0, smoteProg exPar (fun _ => 1) 2 bruteKnn exX exY),
      (.object 0, smoteProg exPar (fun _ => 1) 2 bruteKnn exX exY)] ⟨lcg.seed 0, [lcg.seed 7]⟩).1 = [(.object 0, .ok r1), (.object 0, .ok r2)] ∧ r1 ≠ r2 ∧
    ∀ w : RngWorld lcg, ∃ w', freshRun lcg (.int 7) (smoteProg exPar (fun _ => 1) 2 bruteKnn exX exY) w = .ok (.ok r1, w') := by
  have h : (match (runCalls lcg [(.object 0, smoteProg exPar (fun _ => 1) 2 bruteKnn exX exY),
      (.object 0, smoteProg exPar (fun _ => 1) 2 bruteKnn exX exY)] ⟨lcg.seed 0, [lcg.seed 7]⟩).1 with
    | [(.object 0, .ok r1), (.object 0, .ok r2)] => decide (r1 ≠ r2)
    | _ => false) = true := by decide +kernel
  generalize hc : (runCalls lcg [(.object 0, smoteProg exPar (fun _ => 1) 2 bruteKnn exX exY),
      (.object 0, smoteProg exPar (fun _ => 1) 2 bruteKnn exX exY)] ⟨lcg.seed 0, [lcg.seed 7]⟩).1 = c at h
  split at h
  · rename_i r1 r2
    refine ⟨r1, r2, rfl, of_decide_eq_true h, fun w => ?_⟩
    obtain ⟨r, w', v', h1, h2, _, _⟩ := C114_seeded exPar (fun _ => 1) 2 bruteKnn exX exY (n := 7) (by omega) (by omega) w
      (⟨lcg.seed 0, []⟩ : RngWorld lcg)
    rw [freshRun_int (by omega) (by omega)] at h2
    have hr : ((smoteProg exPar (fun _ => 1) 2 bruteKnn exX exY).run lcg (.object 0) ⟨lcg.seed 0, [lcg.seed 7]⟩).1 = .ok r1 := by
      simp only [runCalls] at hc
      injection hc with hc _
      exact congrArg Prod.snd hc
    injection h2 with h2
    have hr' : r = .ok r1 := (congrArg Prod.fst h2).symm.trans hr
    exact ⟨w', by rw [h1, hr']⟩
  · cases h

/-- `E_SMOTE` with one and the same seed gives different data, depending on the generator of the module. -/
theorem C114_esmote : ∃ r1 r2, (lcgRun 0 3 (esProg esEnv0 1 exPar (fun _ => 1) exDraws bruteKnn 2 exX exY)).1 = .ok r1 ∧
    (lcgRun 1 3 (esProg esEnv0 1 exPar (fun _ => 1) exDraws bruteKnn 2 exX exY)).1 = .ok r2 ∧ r1 ≠ r2 := by
  have h : (match (lcgRun 0 3 (esProg esEnv0 1 exPar (fun _ => 1) exDraws bruteKnn 2 exX exY)).1,
      (lcgRun 1 3 (esProg esEnv0 1 exPar (fun _ => 1) exDraws bruteKnn 2 exX exY)).1 with
    | .ok r1, .ok r2 => decide (r1 ≠ r2)
    | _, _ => false) = true := by decide +kernel
  split at h
  · rename_i r1 r2 h1 h2
    exact ⟨r1, r2, h1, h2, of_decide_eq_true h⟩
  · cases h

/-- What `E_SMOTE` gives is settled by the seed and the state of the generator of the module together. -/
theorem C114_esmote_both (env : EsEnv) (m : Nat) (par : SmoteParams) (vol : List Row → ℚ) (dr : Draws) (knn : Nat → List Row → List (List Nat))
    (d : Nat) (X : List Row) (y : List Int) {n : Int} (h0 : 0 ≤ n) (h1 : n < 2 ^ 32) {w v : RngWorld R} (hg : w.glob = v.glob) :
    ∃ r w' v', freshRun R (.int n) (esProg env m par vol dr knn d X y) w = .ok (r, w') ∧
      freshRun R (.int n) (esProg env m par vol dr knn d X y) v = .ok (r, v') ∧ w'.glob = v'.glob := by
  obtain ⟨h2, h3, _⟩ := run_two (esProg env m par vol dr knn d X y) (i := w.objects.length) (j := v.objects.length)
    (w := ({ w with objects := w.objects ++ [R.seed n.toNat] } : RngWorld R)) (v := ({ v with objects := v.objects ++ [R.seed n.toNat] } : RngWorld R))
    (by simp) (by simp) hg (by simp [RngWorld.get])
  refine ⟨_, _, _, freshRun_int h0 h1 _ w, ?_, h3⟩
  rw [freshRun_int h0 h1]
  exact congrArg Except.ok (Prod.ext h2.symm rfl)

/-- The SMOTE which `SMOTEWB` falls back to does not know the seed: with any two seeds the results agree as long as the generator of the module is in the
same state. -/
theorem C114_smotewb (env : WbEnv) (par : WbParams) (vol : List Row → ℚ) (d : Nat) (X : List Row) (y : List Int) (r q : RngRef) (w : RngWorld R) :
    (wbSmoteProg env par vol d X y).run R r w = (wbSmoteProg env par vol d X y).run R q w := by
  unfold wbSmoteProg
  rw [run_unseeded, run_unseeded]

/-- An environment for `SMOTEWB`; only the neighbours matter here. -/
def wbEnvRng : WbEnv where
  tree _ y _ := .ok y
  factor _ := 1
  knn k R _ := bruteKnn k R
  drop _ _ := []
  pick _ _ _ := 0
  u _ _ := 0

/-- And with one seed they differ when that state differs. -/
theorem C114_smotewb_differ : ∃ r1 r2, (lcgRun 7 3 (wbSmoteProg wbEnvRng ⟨1, 1⟩ (fun _ => 1) 2 exX exY)).1 = .ok r1 ∧
    (lcgRun 8 3 (wbSmoteProg wbEnvRng ⟨1, 1⟩ (fun _ => 1) 2 exX exY)).1 = .ok r2 ∧ r1 ≠ r2 := by
  have h : (match (lcgRun 7 3 (wbSmoteProg wbEnvRng ⟨1, 1⟩ (fun _ => 1) 2 exX exY)).1,
      (lcgRun 8 3 (wbSmoteProg wbEnvRng ⟨1, 1⟩ (fun _ => 1) 2 exX exY)).1 with
    | .ok r1, .ok r2 => decide (r1 ≠ r2)
    | _, _ => false) = true := by decide +kernel
  split at h
  · rename_i r1 r2 h1 h2
    exact ⟨r1, r2, h1, h2, of_decide_eq_true h⟩
  · cases h

/-- `DEAGO` with an integer seed, whatever it does after seeding: the result does not depend on what was drawn before, and neither does the generator
of the module afterwards. So an oversampler without a seed gives the same data after every such call. -/
theorem C114_deago (fresh : Nat) (rest : RProg α) {n : Int} (h0 : 0 ≤ n) (h1 : n < 2 ^ 32) (w v : RngWorld R) :
    ∃ r w' v', freshRun R (.int n) (deagoSeeding fresh (.int n) rest) w = .ok (r, w') ∧
      freshRun R (.int n) (deagoSeeding fresh (.int n) rest) v = .ok (r, v') ∧ w'.glob = v'.glob ∧
      ∀ (par : SmoteParams) (vol : List Row → ℚ) (d : Nat) (knn : Nat → List Row → List (List Nat)) (X : List Row) (y : List Int),
        ((smoteProg par vol d knn X y).run R .glob w').1 = ((smoteProg par vol d knn X y).run R .glob v').1 := by
  have hd : deagoSeeding fresh (.int n) rest = .seedGlobal n.toNat rest := by
    unfold deagoSeeding
    simp only
    rw [if_pos ⟨h0, h1⟩]
  obtain ⟨h2, h3, _⟩ := run_two rest (i := w.objects.length) (j := v.objects.length)
    (w := (⟨R.seed n.toNat, w.objects ++ [R.seed n.toNat]⟩ : RngWorld R)) (v := (⟨R.seed n.toNat, v.objects ++ [R.seed n.toNat]⟩ : RngWorld R))
    (by simp) (by simp) rfl (by simp [RngWorld.get])
  rw [hd]
  refine ⟨_, _, _, freshRun_int h0 h1 _ w, ?_, h3, fun par vol d knn X y => ?_⟩
  · rw [freshRun_int h0 h1]
    exact congrArg Except.ok (Prod.ext h2.symm rfl)
  · exact (run_own (smoteProg par vol d knn X y) (r := .glob) (q := .glob) (smoteProg_own par vol d knn X y) trivial trivial h3).1

/-- With a `RandomState` object or the module, which the constructor accepts, `DEAGO` cannot sample. -/
theorem C114_deago_object (fresh : Nat) (rest : RProg α) {v : RsArg} (hv : v = .module ∨ ∃ i, v = .object i) {w w' : RngWorld R} {r : Res α}
    (h : freshRun R v (deagoSeeding fresh v rest) w = .ok (r, w')) : r = .error .typeError := by
  unfold freshRun at h
  cases hg : newGenerator R v w with
  | error e => rw [hg] at h; cases h
  | ok g =>
    rw [hg] at h
    injection h with h
    rcases hv with rfl | ⟨i, rfl⟩
    · exact (congrArg Prod.fst h).symm
    · exact (congrArg Prod.fst h).symm

/-! ## Examples -/

/-- The hypothesis of `C114_model` is met. -/
example : lcg.OK := by
  intro (st : Nat)
  show 0 ≤ ((st % 16 : Nat) : ℚ) / 16 ∧ ((st % 16 : Nat) : ℚ) / 16 < 1
  have h : ((st % 16 : Nat) : ℚ) < 16 := by exact_mod_cast Nat.mod_lt st (by omega)
  constructor
  · positivity
  · rw [div_lt_one (by norm_num)]
    exact h

/-- The seeds 7 and 8 give different data. -/
example : (lcgRun 0 7 (smoteProg exPar (fun _ => 1) 2 bruteKnn exX exY)).1 =
      .ok (exX ++ [[1 / 9, 0], [11 / 21, 0]], exY ++ [1, 1]) ∧
    (lcgRun 0 8 (smoteProg exPar (fun _ => 1) 2 bruteKnn exX exY)).1 = .ok (exX ++ [[2 / 3, 1 / 3], [0, 4 / 9]], exY ++ [1, 1]) := by
  decide +kernel

/-- SMOTE between two calls of a `DEAGO`-like oversampler which seeds the module: its results are those it gives alone. -/
example : ((runCalls lcg [(.object 0, smoteProg exPar (fun _ => 1) 2 bruteKnn exX exY), (.object 1, .seedGlobal 3 (.ret (.ok ([], [])))),
      (.object 0, smoteProg exPar (fun _ => 1) 2 bruteKnn exX exY)] ⟨lcg.seed 0, [lcg.seed 7, lcg.seed 0]⟩).1.filter (fun c => c.1 = .object 0)).map Prod.snd =
    (runCalls lcg [(.object 0, smoteProg exPar (fun _ => 1) 2 bruteKnn exX exY), (.object 0, smoteProg exPar (fun _ => 1) 2 bruteKnn exX exY)]
      ⟨lcg.seed 5, [lcg.seed 7]⟩).1.map Prod.snd :=
  C114_interleaved _ 0 0 (by decide) (by decide) rfl (by
    intro c hc h
    simp only [List.mem_cons, List.not_mem_nil, or_false] at hc
    rcases hc with rfl | rfl | rfl
    · exact smoteProg_own ..
    · cases h
    · exact smoteProg_own ..)

end Verif

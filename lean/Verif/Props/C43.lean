import Verif.Model.Queries
import Verif.Props.C41

/-!
# C43 Generated parameter lists: how many, of what, and when they fail
-/

namespace Verif

/-- What is assumed of `random_state.shuffle`. -/
def IsShuffle (sh : Nat → List (Dict String GV) → List (Dict String GV)) : Prop := ∀ i l, (sh i l).Perm l

theorem mem_sliceTo {τ : Type} {l : List τ} {n : Int} {a : τ} (h : a ∈ sliceTo l n) : a ∈ l := by
  unfold sliceTo at h
  split at h <;> exact List.mem_of_mem_take h

theorem length_sliceTo {τ : Type} {l : List τ} {n : Int} (hn : 0 ≤ n) :
    (sliceTo l (min (l.length : Int) n)).length = min l.length n.toNat := by
  unfold sliceTo
  rw [if_pos (by omega), List.length_take]
  omega

theorem instantiated_ok {s : OsSpec} (hs : s ∈ registry) {c : Dict String GV} (hc : c ∈ s.combinations) :
    s.instantiated c = .ok (s, s.getParams (.obj "constant") (s.bound c)) := by
  unfold OsSpec.instantiated
  rw [(C41_grids_accepted s hs c hc).2, ok_bind]

/-- One class of the table never fails and contributes `min(number of combinations, n_max_comb)` entries, each the
`get_params()` of an object built from one of its combinations. -/
theorem paramRound_ok {sh : List (Dict String GV) → List (Dict String GV)} (hsh : ∀ l, (sh l).Perm l) {nMax : Int}
    (hn : 0 ≤ nMax) {s : OsSpec} (hs : s ∈ registry) :
    ∃ r, paramRound sh nMax s = .ok r ∧ r.length = min s.combinations.length nMax.toNat ∧
      ∀ x ∈ r, ∃ c ∈ s.combinations, x = (s, s.getParams (.obj "constant") (s.bound c)) := by
  have hex : ∃ r, paramRound sh nMax s = .ok r := by
    apply mapM_exists_ok
    intro c hc
    exact ⟨_, instantiated_ok hs ((hsh _).mem_iff.1 (mem_sliceTo hc))⟩
  obtain ⟨r, hr⟩ := hex
  refine ⟨r, hr, ?_, ?_⟩
  · have := mapM_ok_length hr
    have hl := (hsh s.combinations).length_eq
    rw [this, ← hl, length_sliceTo hn]
  · intro x hx
    obtain ⟨c, hc, hcx⟩ := forall₂_mem_right (mapM_ok_iff.1 hr) hx
    have hc' := (hsh _).mem_iff.1 (mem_sliceTo hc)
    rw [instantiated_ok hs hc'] at hcx
    injection hcx with hcx
    exact ⟨c, hc', hcx.symm⟩

theorem paramRounds_ok {nMax : Int} (hn : 0 ≤ nMax) {classes : List OsSpec} (hcl : ∀ s ∈ classes, s ∈ registry)
    {sh : Nat → List (Dict String GV) → List (Dict String GV)} (hsh : IsShuffle sh) :
    ∃ r, paramRounds nMax classes sh = .ok r ∧
      r.length = (classes.map (fun s => min s.combinations.length nMax.toNat)).sum ∧
      ∀ x ∈ r, x.1 ∈ classes ∧ ∃ c ∈ x.1.combinations, x.2 = x.1.getParams (.obj "constant") (x.1.bound c) := by
  induction classes generalizing sh with
  | nil => exact ⟨[], rfl, rfl, by simp⟩
  | cons s ss ih =>
    obtain ⟨r, hr, hl, hx⟩ := paramRound_ok (sh := sh 0) (hsh 0) hn (hcl s (List.mem_cons_self ..))
    obtain ⟨rest, hrest, hl', hx'⟩ := ih (fun t ht => hcl t (List.mem_cons_of_mem _ ht))
      (sh := fun i => sh (i + 1)) (fun i => hsh (i + 1))
    refine ⟨r ++ rest, ?_, ?_, ?_⟩
    · unfold paramRounds
      rw [hr, ok_bind, hrest, ok_bind]
    · rw [List.length_append, hl, hl', List.map_cons, List.sum_cons]
    · intro x hxm
      rcases List.mem_append.1 hxm with hxm | hxm
      · obtain ⟨c, hc, rfl⟩ := hx x hxm
        exact ⟨List.mem_cons_self .., c, hc, rfl⟩
      · obtain ⟨h1, h2⟩ := hx' x hxm
        exact ⟨List.mem_cons_of_mem _ h1, h2⟩

/-- For every list of oversamplers without `SMOTE_AMSR`, every `n_max_comb ≥ 0` and every shuffle, the query returns
`min(n_max_comb, size of the grid)` entries per class, each the parameters of an object built from a combination of the
class's grid. -/
theorem C43_entries {nMax : Int} (hn : 0 ≤ nMax) {classes : List OsSpec} (hcl : ∀ s ∈ classes, s ∈ registry)
    (hno : ∀ s ∈ classes, s.name ≠ "SMOTE_AMSR")
    {sh : Nat → List (Dict String GV) → List (Dict String GV)} (hsh : IsShuffle sh) :
    ∃ r, generateParams nMax classes sh = .ok r ∧
      r.length = (classes.map (fun s => min s.combinations.length nMax.toNat)).sum ∧
      ∀ x ∈ r, ∃ s ∈ classes, x.1 = s.name ∧
        ∃ c ∈ s.combinations, x.2 = s.getParams (.obj "constant") (s.bound c) := by
  obtain ⟨r, hr, hl, hx⟩ := paramRounds_ok hn hcl hsh
  have table : ∀ s ∈ registry, s.name ≠ "SMOTE_AMSR" → s.hasClassName = true := by decide +kernel
  have hex : ∃ out, r.mapM formatResult = .ok out := by
    apply mapM_exists_ok
    intro x hxm
    have h1 := (hx x hxm).1
    unfold formatResult
    rw [if_pos (table _ (hcl _ h1) (hno _ h1))]
    exact ⟨_, rfl⟩
  obtain ⟨out, hout⟩ := hex
  refine ⟨out, ?_, ?_, ?_⟩
  · unfold generateParams
    rw [hr, ok_bind, hout]
  · rw [mapM_ok_length hout, hl]
  · intro x hxm
    obtain ⟨y, hy, hyx⟩ := forall₂_mem_right (mapM_ok_iff.1 hout) hxm
    obtain ⟨h1, c, hc, h2⟩ := hx y hy
    unfold formatResult at hyx
    split at hyx
    · injection hyx with hyx
      subst hyx
      exact ⟨y.1, h1, rfl, c, hc, h2⟩
    · cases hyx

theorem mapM_error_of_mem {α β : Type} {f : α → Res β} {l : List α} {e : PyErr} (hf : ∀ a ∈ l, ∀ e', f a = .error e' → e' = e)
    {a : α} (ha : a ∈ l) (hae : f a = .error e) : l.mapM f = .error e := by
  induction l with
  | nil => simp at ha
  | cons b l ih =>
    rw [List.mapM_cons]
    cases hb : f b with
    | error e' =>
      rw [hf b (List.mem_cons_self ..) e' hb]
      rfl
    | ok v =>
      rw [ok_bind]
      rcases List.mem_cons.1 ha with rfl | ha
      · rw [hb] at hae; cases hae
      · rw [ih (fun c hc => hf c (List.mem_cons_of_mem _ hc)) ha]
        rfl

/-- With `SMOTE_AMSR` in the list, as in `get_all_oversamplers()`, the query always ends with `KeyError`: its
`get_params()` has no `class_name`. -/
theorem C43_key_error {nMax : Int} (hn : 1 ≤ nMax) {classes : List OsSpec} (hcl : ∀ s ∈ classes, s ∈ registry)
    (hin : specSMOTE_AMSR ∈ classes) {sh : Nat → List (Dict String GV) → List (Dict String GV)} (hsh : IsShuffle sh) :
    generateParams nMax classes sh = .error .keyError := by
  have h0 : (0 : Int) ≤ nMax := by omega
  obtain ⟨r, hr, hl, hx⟩ := paramRounds_ok h0 hcl hsh
  -- some result belongs to SMOTE_AMSR
  have hmem : ∃ x ∈ r, x.1 = specSMOTE_AMSR := by
    clear hl hx
    induction classes generalizing sh r with
    | nil => simp at hin
    | cons s ss ih =>
      obtain ⟨r1, hr1, hl1, hx1⟩ := paramRound_ok (sh := sh 0) (hsh 0) h0 (hcl s (List.mem_cons_self ..))
      unfold paramRounds at hr
      rw [hr1, ok_bind, bind_ok] at hr
      obtain ⟨rest, hrest, hr⟩ := hr
      injection hr with hr
      subst hr
      rcases List.mem_cons.1 hin with rfl | hin
      · have : 0 < r1.length := by
          rw [hl1]
          have : specSMOTE_AMSR.combinations.length = 21 := by decide +kernel
          omega
        obtain ⟨x, hxm⟩ := List.exists_mem_of_length_pos this
        obtain ⟨c, -, rfl⟩ := hx1 x hxm
        exact ⟨_, List.mem_append_left _ hxm, rfl⟩
      · obtain ⟨x, hxm, hxe⟩ := ih (fun t ht => hcl t (List.mem_cons_of_mem _ ht)) hin
          (sh := fun i => sh (i + 1)) (fun i => hsh (i + 1)) rest hrest
        exact ⟨x, List.mem_append_right _ hxm, hxe⟩
  obtain ⟨x, hxm, hxe⟩ := hmem
  unfold generateParams
  rw [hr, ok_bind]
  refine mapM_error_of_mem ?_ hxm ?_
  · intro y _ e he
    unfold formatResult at he
    split at he
    · cases he
    · injection he with he; exact he.symm
  · unfold formatResult
    rw [if_neg (by rw [hxe]; decide +kernel)]

/-- Hypotheses met: the identity is a shuffle, and the table contains `SMOTE_AMSR`. -/
example : IsShuffle (fun _ l => l) := fun _ _ => List.Perm.refl _
example : generateParams 5 registry (fun _ l => l) = .error .keyError :=
  C43_key_error (by decide) (fun _ h => h) (by decide +kernel) (fun _ _ => List.Perm.refl _)
example : ∃ r, generateParams 5 [specSMOTE, specAHC] (fun _ l => l) = .ok r ∧ r.length = 8 := by
  obtain ⟨r, h, hl, -⟩ := C43_entries (nMax := 5) (by decide) (classes := [specSMOTE, specAHC]) (by decide +kernel)
    (by decide +kernel) (sh := fun _ l => l) (fun _ _ => List.Perm.refl _)
  refine ⟨r, h, ?_⟩
  rw [hl]
  decide +kernel

end Verif

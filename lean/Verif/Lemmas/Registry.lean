import Verif.Model.Registry
import Verif.Props.C12
import Verif.Lemmas.Basic

/-! # Tables: from values to combinations -/

namespace Verif

/-- Whether a check passes. -/
def Chk.passes (c : Chk) (v : GV) : Bool :=
  match c.run v with
  | .ok _ => true
  | .error _ => false

/-- The finite condition on a table that makes all its combinations acceptable. -/
def OsSpec.gridOK (s : OsSpec) : Bool :=
  s.grids.all (fun g => decide (Dict.keys g).Nodup && (Dict.keys g).all (fun k => (s.params.map Prod.fst).contains k)) &&
  s.checks.all (fun c => c.passes (s.bound [] c.param) &&
    s.grids.all (fun g => match Dict.get g c.param with
      | some vs => vs.all c.passes
      | none => true))

theorem passes_ok {c : Chk} {v : GV} (h : c.passes v = true) : c.run v = .ok () := by
  unfold Chk.passes at h
  cases hr : c.run v with
  | ok u => rfl
  | error e => rw [hr] at h; cases h

theorem runChecks_ok {f : String → GV} {l : List Chk} (h : ∀ c ∈ l, c.run (f c.param) = .ok ()) :
    runChecks f l = .ok () := by
  induction l with
  | nil => rfl
  | cons a l ih =>
    unfold runChecks
    rw [h a (List.mem_cons_self ..), ok_bind]
    exact ih (fun b hb => h b (List.mem_cons_of_mem _ hb))

theorem runChecks_congr {f g : String → GV} {l : List Chk} (h : ∀ c ∈ l, f c.param = g c.param) :
    runChecks f l = runChecks g l := by
  induction l with
  | nil => rfl
  | cons a l ih =>
    unfold runChecks
    rw [h a (List.mem_cons_self ..), ih (fun b hb => h b (List.mem_cons_of_mem _ hb))]

/-- An argument no check looks at does not matter. -/
theorem bound_unchecked {s : OsSpec} {p : String} {v : GV} (hp : ∀ c ∈ s.checks, c.param ≠ p) :
    runChecks (s.bound [(p, v)]) s.checks = runChecks (s.bound []) s.checks := by
  apply runChecks_congr
  intro c hc
  have : Dict.get [(p, v)] c.param = none := by
    simp only [Dict.get, if_neg (fun h : p = c.param => hp c hc h.symm)]
  unfold OsSpec.bound
  rw [this]
  rfl

theorem Dict.get_eq_none {κ V : Type} [DecidableEq κ] {d : Dict κ V} {k : κ} : Dict.get d k = none ↔ k ∉ d.keys := by
  induction d with
  | nil => simp [Dict.get, Dict.keys]
  | cons kv d ih =>
    obtain ⟨k', v⟩ := kv
    rw [Dict.get]
    simp only [Dict.keys, List.map_cons, List.mem_cons, not_or] at ih ⊢
    split
    · rename_i h; subst h; simp
    · rename_i h
      rw [ih]
      exact ⟨fun hn => ⟨fun he => h he.symm, hn⟩, fun hn => hn.2⟩

/-- The lifting: values to combinations. -/
theorem construct_of_gridOK {s : OsSpec} (h : s.gridOK = true) {c : Dict String GV} (hc : c ∈ s.combinations) :
    (∀ k ∈ Dict.keys c, k ∈ s.params.map Prod.fst) ∧ s.construct c = .ok () := by
  unfold OsSpec.gridOK at h
  rw [Bool.and_eq_true, List.all_eq_true, List.all_eq_true] at h
  obtain ⟨h1, h2⟩ := h
  unfold OsSpec.combinations at hc
  rw [List.mem_flatMap] at hc
  obtain ⟨g, hg, hc⟩ := hc
  have hg1 := h1 g hg
  rw [Bool.and_eq_true, decide_eq_true_eq, List.all_eq_true] at hg1
  obtain ⟨hnd, hkeys⟩ := hg1
  obtain ⟨hsorted, hk, hv⟩ := (C12_exact hnd c).1 hc
  have hnames : ∀ k ∈ Dict.keys c, k ∈ s.params.map Prod.fst := by
    intro k hkc
    have := hkeys k ((hk k).1 hkc)
    simpa using this
  refine ⟨hnames, ?_⟩
  unfold OsSpec.construct
  rw [if_neg (by rintro ⟨-, hn⟩; exact hn hnames)]
  apply runChecks_ok
  intro chk hchk
  have h3 := h2 chk hchk
  rw [Bool.and_eq_true, List.all_eq_true] at h3
  obtain ⟨hdef, hgrid⟩ := h3
  apply passes_ok
  cases hget : Dict.get c chk.param with
  | none =>
    have : s.bound c chk.param = s.bound [] chk.param := by
      unfold OsSpec.bound
      rw [hget]
      rfl
    rw [this]
    exact hdef
  | some v =>
    have hb : s.bound c chk.param = v := by
      unfold OsSpec.bound
      rw [hget]
    rw [hb]
    obtain ⟨vs, hvs, hvm⟩ := hv _ _ (mem_of_get hget)
    have := hgrid g hg
    rw [get_of_mem hnd hvs] at this
    exact List.all_eq_true.1 this v hvm

end Verif

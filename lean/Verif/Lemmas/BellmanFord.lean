import Verif.Model.Dbsmote
import Verif.Spec.Graphs
import Verif.Lemmas.Basic
import Mathlib.Data.List.Perm.Subperm
import Mathlib.Tactic.Linarith

/-! # Lemmas on the Bellman-Ford model -/

namespace Verif

/-- `d ≤ q` for a possibly infinite `d`. -/
def distLe (d : Option ℚ) (q : ℚ) : Prop := ∃ x, d = some x ∧ x ≤ q

theorem gtDist_true {a b : Option ℚ} (h : gtDist a b = true) : ∃ y, b = some y ∧ ∀ x, a = some x → y < x := by
  cases a with
  | none => cases b with
    | none => simp [gtDist] at h
    | some y => exact ⟨y, rfl, by simp⟩
  | some x => cases b with
    | none => simp [gtDist] at h
    | some y => exact ⟨y, rfl, by simpa [gtDist] using h⟩

theorem gtDist_false {a : Option ℚ} {y : ℚ} (h : gtDist a (some y) = false) : distLe a y := by
  cases a with
  | none => simp [gtDist] at h
  | some x => exact ⟨x, rfl, by simpa [gtDist] using h⟩

/-- What relaxing an edge does to a distance bound. -/
theorem relax_mono {st : BF} {e : Nat × Nat × ℚ} {v : Nat} {q : ℚ} (h : distLe (st.dist v) q) :
    distLe ((relax st e).dist v) q := by
  unfold relax
  split
  · rename_i hg
    obtain ⟨y, hy, hlt⟩ := gtDist_true hg
    dsimp only
    by_cases hv : v = e.2.1
    · subst hv
      rw [Function.update_self, hy]
      obtain ⟨x, hx, hxq⟩ := h
      exact ⟨y, rfl, (hlt x hx).le.trans hxq⟩
    · rw [Function.update_of_ne hv]; exact h
  · exact h

theorem foldl_relax_mono {edges : List (Nat × Nat × ℚ)} {v : Nat} {q : ℚ} :
    ∀ {st : BF}, distLe (st.dist v) q → distLe ((edges.foldl relax st).dist v) q := by
  induction edges with
  | nil => intro st h; exact h
  | cons e es ih => intro st h; exact ih (relax_mono h)

theorem relax_edge {st : BF} {u v : Nat} {w q : ℚ} (h : distLe (st.dist u) q) :
    distLe ((relax st (u, v, w)).dist v) (q + w) := by
  obtain ⟨x, hx, hxq⟩ := h
  unfold relax
  dsimp only
  rw [hx]
  dsimp only [Option.map_some]
  by_cases hg : gtDist (st.dist v) (some (x + w)) = true
  · rw [if_pos hg]
    dsimp only
    rw [Function.update_self]
    exact ⟨_, rfl, by linarith⟩
  · rw [if_neg hg]
    obtain ⟨z, hz, hz'⟩ := gtDist_false (by simpa using hg)
    exact ⟨z, hz, by linarith⟩

/-- One pass over all edges extends every bound by one edge. -/
theorem pass_edge {edges : List (Nat × Nat × ℚ)} {u v : Nat} {w q : ℚ} (he : (u, v, w) ∈ edges) :
    ∀ {st : BF}, distLe (st.dist u) q → distLe ((edges.foldl relax st).dist v) (q + w) := by
  induction edges with
  | nil => simp at he
  | cons e es ih =>
    intro st h
    rcases List.mem_cons.1 he with rfl | he
    · rw [List.foldl_cons]; exact foldl_relax_mono (relax_edge h)
    · exact ih he (relax_mono h)

theorem bfRounds_mono {edges : List (Nat × Nat × ℚ)} {v : Nat} {q : ℚ} :
    ∀ (r : Nat) {st : BF}, distLe (st.dist v) q → distLe ((bfRounds edges r st).dist v) q := by
  intro r
  induction r with
  | zero => intro st h; exact h
  | succ r ih => intro st h; exact ih (foldl_relax_mono h)

theorem bfRounds_succ (edges : List (Nat × Nat × ℚ)) :
    ∀ (r : Nat) (st : BF), bfRounds edges (r + 1) st = edges.foldl relax (bfRounds edges r st) := by
  intro r
  induction r with
  | zero => intro st; rfl
  | succ r ih => intro st; rw [bfRounds, ih]; rfl

/-- After `r` passes the distance of `v` is at most the weight of any walk with at most `r` edges. -/
theorem bfRounds_walk {edges : List (Nat × Nat × ℚ)} {s v : Nat} {q : ℚ} {k : Nat} (hw : Walk edges s v q k) :
    ∀ r, k ≤ r → distLe ((bfRounds edges r (bfInit s)).dist v) q := by
  induction hw with
  | nil => intro r _; exact bfRounds_mono r ⟨0, by simp [bfInit], le_refl _⟩
  | snoc hw he ih =>
    intro r hr
    obtain ⟨r, rfl⟩ : ∃ r', r = r' + 1 := ⟨r - 1, by omega⟩
    rw [bfRounds_succ]
    exact pass_edge he (ih r (by omega))

/-- The invariant of the passes: every finite distance is the weight of a walk, and a parent pointer goes along an edge
whose relaxation is not violated. -/
structure BFInv (edges : List (Nat × Nat × ℚ)) (s : Nat) (st : BF) : Prop where
  walk : ∀ v x, st.dist v = some x → ∃ k, Walk edges s v x k
  parent : ∀ v u, st.par v = some u → ∃ w x y, (u, v, w) ∈ edges ∧ st.dist u = some x ∧ st.dist v = some y ∧ x + w ≤ y
  orphan : ∀ v, st.par v = none → v ≠ s → st.dist v = none

theorem bfInit_inv (edges : List (Nat × Nat × ℚ)) (s : Nat) : BFInv edges s (bfInit s) := by
  constructor
  · intro v x h
    simp only [bfInit] at h
    split at h
    · rename_i hv
      subst hv
      injection h with h
      subst h
      exact ⟨0, Walk.nil⟩
    · simp at h
  · intro v u h; simp [bfInit] at h
  · intro v _ hv; simp [bfInit, hv]

theorem relax_inv {edges : List (Nat × Nat × ℚ)} {s : Nat} {st : BF} (h : BFInv edges s st) {e : Nat × Nat × ℚ}
    (he : e ∈ edges) (hw : ∀ e ∈ edges, 0 ≤ e.2.2) : BFInv edges s (relax st e) := by
  obtain ⟨u, v, w⟩ := e
  unfold relax
  split
  · rename_i hg
    obtain ⟨y, hy, hlt⟩ := gtDist_true hg
    dsimp only at hy hg hlt ⊢
    obtain ⟨x, hx, rfl⟩ : ∃ x, st.dist u = some x ∧ x + w = y := by
      cases hu : st.dist u with
      | none => rw [hu] at hy; simp at hy
      | some x => rw [hu] at hy; exact ⟨x, rfl, by simpa using hy⟩
    have huv : u ≠ v := by
      rintro rfl
      have := hlt x hx
      have := hw _ he
      dsimp only at this
      linarith
    rw [hx]
    dsimp only [Option.map_some]
    constructor
    · intro z q hz
      dsimp only at hz
      by_cases hzv : z = v
      · subst hzv
        rw [Function.update_self] at hz
        injection hz with hz
        subst hz
        obtain ⟨k, hk⟩ := h.walk u x hx
        exact ⟨k + 1, hk.snoc he⟩
      · rw [Function.update_of_ne hzv] at hz
        exact h.walk z q hz
    · intro z p hz
      dsimp only at hz ⊢
      by_cases hzv : z = v
      · subst hzv
        rw [Function.update_self] at hz
        injection hz with hz
        subst hz
        exact ⟨w, x, x + w, he, by rw [Function.update_of_ne huv]; exact hx, by rw [Function.update_self], le_refl _⟩
      · rw [Function.update_of_ne hzv] at hz ⊢
        obtain ⟨w', x', y', h1, h2, h3, h4⟩ := h.parent z p hz
        by_cases hpv : p = v
        · subst hpv
          exact ⟨w', x + w, y', h1, by rw [Function.update_self], h3, by linarith [hlt x' h2]⟩
        · exact ⟨w', x', y', h1, by rw [Function.update_of_ne hpv]; exact h2, h3, h4⟩
    · intro z hz hzs
      dsimp only at hz ⊢
      by_cases hzv : z = v
      · subst hzv
        rw [Function.update_self] at hz
        simp at hz
      · rw [Function.update_of_ne hzv] at hz ⊢
        exact h.orphan z hz hzs
  · exact h

/-- Following the parents from `x` ends. -/
inductive Ends (par : Nat → Option Nat) : Nat → Prop
  | root {v : Nat} : par v = none → Ends par v
  | step {v u : Nat} : par v = some u → Ends par u → Ends par v

/-- Distances do not grow towards the root. -/
theorem ends_update {st : BF} {edges : List (Nat × Nat × ℚ)} {s : Nat} (h : BFInv edges s st)
    (hw : ∀ e ∈ edges, 0 ≤ e.2.2) {v u' : Nat} {x : ℚ} (hxv : ∀ y, st.dist v = some y → x < y) {z : Nat}
    (hz : Ends st.par z) (hdz : distLe (st.dist z) x) : Ends (Function.update st.par v (some u')) z := by
  induction hz with
  | @root z hroot =>
    have hzv : z ≠ v := by
      rintro rfl
      obtain ⟨y, hy, hyx⟩ := hdz
      exact absurd (hxv y hy) (not_lt.2 hyx)
    exact Ends.root (by rw [Function.update_of_ne hzv]; exact hroot)
  | @step z p hp _ ih =>
    have hzv : z ≠ v := by
      rintro rfl
      obtain ⟨y, hy, hyx⟩ := hdz
      exact absurd (hxv y hy) (not_lt.2 hyx)
    refine Ends.step (u := p) (by rw [Function.update_of_ne hzv]; exact hp) (ih ?_)
    obtain ⟨w, a, b, he, ha, hb, hab⟩ := h.parent z p hp
    obtain ⟨y, hy, hyx⟩ := hdz
    rw [hb] at hy
    injection hy with hy
    have := hw _ he
    dsimp only at this
    exact ⟨a, ha, by linarith⟩

theorem relax_ends {edges : List (Nat × Nat × ℚ)} {s : Nat} {st : BF} (h : BFInv edges s st) {e : Nat × Nat × ℚ}
    (he : e ∈ edges) (hw : ∀ e ∈ edges, 0 ≤ e.2.2) (hall : ∀ z, Ends st.par z) : ∀ z, Ends (relax st e).par z := by
  obtain ⟨u, v, w⟩ := e
  unfold relax
  split
  · rename_i hg
    obtain ⟨y, hy, hlt⟩ := gtDist_true hg
    dsimp only at hy hg hlt ⊢
    obtain ⟨x, hx, rfl⟩ : ∃ x, st.dist u = some x ∧ x + w = y := by
      cases hu : st.dist u with
      | none => rw [hu] at hy; simp at hy
      | some x => rw [hu] at hy; exact ⟨x, rfl, by simpa using hy⟩
    have hw0 := hw _ he
    dsimp only at hw0
    have hu : Ends (Function.update st.par v (some u)) u :=
      ends_update h hw hlt (hall u) ⟨x, hx, by linarith⟩
    have hv : Ends (Function.update st.par v (some u)) v := Ends.step (by rw [Function.update_self]) hu
    intro z
    induction hall z with
    | @root z hroot =>
      by_cases hzv : z = v
      · subst hzv; exact hv
      · exact Ends.root (by rw [Function.update_of_ne hzv]; exact hroot)
    | @step z p hp _ ih =>
      by_cases hzv : z = v
      · subst hzv; exact hv
      · exact Ends.step (by rw [Function.update_of_ne hzv]; exact hp) ih
  · exact hall

theorem foldl_relax_inv {all : List (Nat × Nat × ℚ)} {s : Nat} (hw : ∀ e ∈ all, 0 ≤ e.2.2) :
    ∀ (edges : List (Nat × Nat × ℚ)) {st : BF}, (∀ e ∈ edges, e ∈ all) → BFInv all s st ∧ (∀ z, Ends st.par z) →
      BFInv all s (edges.foldl relax st) ∧ ∀ z, Ends (edges.foldl relax st).par z := by
  intro edges
  induction edges with
  | nil => intro st _ h; exact h
  | cons e es ih =>
    intro st hsub h
    exact ih (fun x hx => hsub x (by simp [hx]))
      ⟨relax_inv h.1 (hsub e (by simp)) hw, relax_ends h.1 (hsub e (by simp)) hw h.2⟩

theorem bfRounds_inv {edges : List (Nat × Nat × ℚ)} {s : Nat} (hw : ∀ e ∈ edges, 0 ≤ e.2.2) (r : Nat) :
    BFInv edges s (bfRounds edges r (bfInit s)) ∧ ∀ z, Ends (bfRounds edges r (bfInit s)).par z := by
  suffices H : ∀ (r : Nat) {st : BF}, BFInv edges s st ∧ (∀ z, Ends st.par z) →
      BFInv edges s (bfRounds edges r st) ∧ ∀ z, Ends (bfRounds edges r st).par z by
    exact H r ⟨bfInit_inv edges s, fun z => Ends.root rfl⟩
  intro r
  induction r with
  | zero => intro st h; exact h
  | succ r ih => intro st h; exact ih (foldl_relax_inv hw edges (fun _ h => h) h)

/-- Walks recorded with their nodes, the end first. -/
inductive NWalk (edges : List (Nat × Nat × ℚ)) (s : Nat) : List Nat → ℚ → Prop
  | nil : NWalk edges s [s] 0
  | snoc {u v : Nat} {p : List Nat} {q w : ℚ} : NWalk edges s (u :: p) q → (u, v, w) ∈ edges →
      NWalk edges s (v :: u :: p) (q + w)

theorem NWalk.walk {edges : List (Nat × Nat × ℚ)} {s : Nat} {p : List Nat} {q : ℚ} (h : NWalk edges s p q) :
    ∃ v t, p = v :: t ∧ Walk edges s v q t.length := by
  induction h with
  | nil => exact ⟨s, [], rfl, Walk.nil⟩
  | snoc _ he ih =>
    obtain ⟨v, t, hp, hw⟩ := ih
    injection hp with h1 h2
    subst h1 h2
    exact ⟨_, _, rfl, hw.snoc he⟩

theorem NWalk.cut {edges : List (Nat × Nat × ℚ)} {s : Nat} (hw : ∀ e ∈ edges, 0 ≤ e.2.2) {p : List Nat} {q : ℚ}
    (h : NWalk edges s p q) {v : Nat} (hv : v ∈ p) :
    ∃ t q', NWalk edges s (v :: t) q' ∧ q' ≤ q ∧ (v :: t) <:+ p := by
  induction h with
  | nil =>
    rw [List.mem_singleton] at hv
    subst hv
    exact ⟨[], 0, NWalk.nil, le_refl _, List.suffix_refl _⟩
  | @snoc u z p q w hq he ih =>
    rcases List.mem_cons.1 hv with rfl | hv
    · exact ⟨_, _, hq.snoc he, le_refl _, List.suffix_refl _⟩
    · obtain ⟨t, q', h1, h2, h3⟩ := ih hv
      have := hw _ he
      dsimp only at this
      exact ⟨t, q', h1, by linarith, h3.trans (List.suffix_cons _ _)⟩

/-- With non-negative weights every walk can be replaced by a simple one that is not heavier. -/
theorem Walk.simple {edges : List (Nat × Nat × ℚ)} {s : Nat} (hw : ∀ e ∈ edges, 0 ≤ e.2.2) {v : Nat} {q : ℚ} {k : Nat}
    (h : Walk edges s v q k) : ∃ t q', NWalk edges s (v :: t) q' ∧ q' ≤ q ∧ (v :: t).Nodup := by
  induction h with
  | nil => exact ⟨[], 0, NWalk.nil, le_refl _, by simp⟩
  | @snoc u v q w k _ he ih =>
    obtain ⟨t, q', h1, h2, h3⟩ := ih
    by_cases hv : v ∈ u :: t
    · obtain ⟨t', q'', g1, g2, g3⟩ := h1.cut hw hv
      have := hw _ he
      dsimp only at this
      exact ⟨t', q'', g1, by linarith, g3.sublist.nodup h3⟩
    · exact ⟨u :: t, q' + w, h1.snoc he, by linarith, List.nodup_cons.2 ⟨hv, h3⟩⟩

theorem NWalk.lt {edges : List (Nat × Nat × ℚ)} {s n : Nat} (hs : s < n) (he : ∀ e ∈ edges, e.2.1 < n) {p : List Nat} {q : ℚ}
    (h : NWalk edges s p q) : ∀ v ∈ p, v < n := by
  induction h with
  | nil => intro v hv; rw [List.mem_singleton] at hv; omega
  | @snoc u z p q w _ hmem ih =>
    intro v hv
    rcases List.mem_cons.1 hv with rfl | hv
    · exact he _ hmem
    · exact ih v hv

theorem nodup_lt_length {l : List Nat} {n : Nat} (hnd : l.Nodup) (hlt : ∀ v ∈ l, v < n) : l.length ≤ n := by
  have : l.Subperm (List.range n) := List.subperm_of_subset hnd (fun v hv => List.mem_range.2 (hlt v hv))
  simpa using this.length_le

/-- Any walk is at least as heavy as one with fewer edges than nodes. -/
theorem Walk.short {edges : List (Nat × Nat × ℚ)} {s n : Nat} (hs : s < n) (he : ∀ e ∈ edges, e.2.1 < n)
    (hw : ∀ e ∈ edges, 0 ≤ e.2.2) {v : Nat} {q : ℚ} {k : Nat} (h : Walk edges s v q k) :
    ∃ q' k', Walk edges s v q' k' ∧ q' ≤ q ∧ k' ≤ n - 1 := by
  obtain ⟨t, q', h1, h2, h3⟩ := h.simple hw
  obtain ⟨v', t', ht, hwalk⟩ := h1.walk
  injection ht with e1 e2
  subst e1 e2
  have := nodup_lt_length h3 (h1.lt hs he)
  simp only [List.length_cons] at this
  exact ⟨q', _, hwalk, h2, by omega⟩

theorem bf_shortest {edges : List (Nat × Nat × ℚ)} {s n : Nat} (hs : s < n) (he : ∀ e ∈ edges, e.2.1 < n)
    (hw : ∀ e ∈ edges, 0 ≤ e.2.2) {v : Nat} {q : ℚ} {k : Nat} (h : Walk edges s v q k) :
    distLe ((bfRounds edges (n - 1) (bfInit s)).dist v) q := by
  obtain ⟨q', k', h1, h2, h3⟩ := h.short hs he hw
  obtain ⟨x, hx, hxq⟩ := bfRounds_walk h1 (n - 1) h3
  exact ⟨x, hx, hxq.trans h2⟩

theorem bf_relaxed {edges : List (Nat × Nat × ℚ)} {s n : Nat} (hs : s < n) (he : ∀ e ∈ edges, e.2.1 < n)
    (hw : ∀ e ∈ edges, 0 ≤ e.2.2) {e : Nat × Nat × ℚ} (hmem : e ∈ edges) :
    gtDist ((bfRounds edges (n - 1) (bfInit s)).dist e.2.1)
      (((bfRounds edges (n - 1) (bfInit s)).dist e.1).map (· + e.2.2)) = false := by
  set st := bfRounds edges (n - 1) (bfInit s) with hst
  cases hu : st.dist e.1 with
  | none => simp only [Option.map_none]; cases st.dist e.2.1 <;> rfl
  | some x =>
    obtain ⟨k, hk⟩ := (bfRounds_inv hw (n - 1)).1.walk e.1 x hu
    obtain ⟨y, hy, hyx⟩ := bf_shortest hs he hw (hk.snoc (v := e.2.1) (w := e.2.2) hmem)
    rw [← hst] at hy
    rw [hy]
    simp only [Option.map_some, gtDist, decide_eq_false_iff_not, not_lt]
    exact hyx

/-- The nodes of the walk along the parents: consecutive entries are linked by the pointers, the last one has none. -/
inductive ParentChain (par : Nat → Option Nat) : List Nat → Prop
  | root {v : Nat} : par v = none → ParentChain par [v]
  | step {v u : Nat} {t : List Nat} : par v = some u → ParentChain par (u :: t) → ParentChain par (v :: u :: t)

theorem Ends.chain {par : Nat → Option Nat} {v : Nat} (h : Ends par v) : ∃ t, ParentChain par (v :: t) := by
  induction h with
  | root h => exact ⟨[], .root h⟩
  | step h _ ih => obtain ⟨t, ht⟩ := ih; exact ⟨_, .step h ht⟩

theorem ParentChain.unique {par : Nat → Option Nat} {p : List Nat} (h : ParentChain par p) :
    ∀ {v : Nat} {t t' : List Nat}, p = v :: t → ParentChain par (v :: t') → t = t' := by
  induction h with
  | @root v hv =>
    intro v' t t' he h'
    injection he with h1 h2
    subst h1 h2
    cases h' with
    | root => rfl
    | step hp _ => rw [hv] at hp; simp at hp
  | @step v u t hv _ ih =>
    intro v' t2 t' he h'
    injection he with h1 h2
    subst h1 h2
    cases h' with
    | root hp => rw [hv] at hp; simp at hp
    | step hp hc =>
      rw [hv] at hp
      injection hp with hp
      subst hp
      rw [ih rfl hc]

theorem ParentChain.suffix {par : Nat → Option Nat} {p : List Nat} (h : ParentChain par p) {v : Nat} (hv : v ∈ p) :
    ∃ t, ParentChain par (v :: t) ∧ (v :: t) <:+ p := by
  induction h with
  | @root z hz =>
    rw [List.mem_singleton] at hv
    subst hv
    exact ⟨[], .root hz, List.suffix_refl _⟩
  | @step z u t hz hc ih =>
    rcases List.mem_cons.1 hv with rfl | hv
    · exact ⟨_, .step hz hc, List.suffix_refl _⟩
    · obtain ⟨t', h1, h2⟩ := ih hv
      exact ⟨t', h1, h2.trans (List.suffix_cons _ _)⟩

theorem ParentChain.nodup {par : Nat → Option Nat} {p : List Nat} (h : ParentChain par p) : p.Nodup := by
  induction h with
  | root => simp
  | @step v u t hv hc ih =>
    rw [List.nodup_cons]
    refine ⟨?_, ih⟩
    intro hmem
    obtain ⟨t', h1, h2⟩ := hc.suffix hmem
    have := (ParentChain.step hv hc).unique rfl h1
    have hl := h2.length_le
    rw [← this] at hl
    simp at hl

theorem parentPath_of_chain {par : Nat → Option Nat} {p : List Nat} (h : ParentChain par p) :
    ∀ {f v : Nat} {t : List Nat}, p = v :: t → p.length ≤ f → parentPath par f v = some p := by
  induction h with
  | @root v hv =>
    intro f v' t he hf
    injection he with h1 h2
    subst h1
    obtain ⟨f, rfl⟩ : ∃ f', f = f' + 1 := ⟨f - 1, by simp at hf; omega⟩
    simp [parentPath, hv]
  | @step v u t hv _ ih =>
    intro f v' t' he hf
    injection he with h1 h2
    subst h1
    obtain ⟨f, rfl⟩ : ∃ f', f = f' + 1 := ⟨f - 1, by simp at hf; omega⟩
    simp only [parentPath, hv]
    rw [ih rfl (by simp at hf ⊢; omega)]
    rfl

theorem chain_of_parentPath {par : Nat → Option Nat} :
    ∀ {f v : Nat} {p : List Nat}, parentPath par f v = some p → ParentChain par p ∧ p.head? = some v := by
  intro f
  induction f with
  | zero => intro v p h; simp [parentPath] at h
  | succ f ih =>
    intro v p h
    simp only [parentPath] at h
    split at h
    · rename_i hv
      injection h with h
      subst h
      exact ⟨.root hv, rfl⟩
    · rename_i u hv
      cases hp : parentPath par f u with
      | none => rw [hp] at h; simp at h
      | some q =>
        rw [hp] at h
        simp only [Option.map_some, Option.some.injEq] at h
        subst h
        obtain ⟨h1, h2⟩ := ih hp
        cases q with
        | nil => simp at h2
        | cons a t =>
          simp only [List.head?_cons, Option.some.injEq] at h2
          subst h2
          exact ⟨.step hv h1, rfl⟩

end Verif

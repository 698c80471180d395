import Verif.Model.RbfNeuron
import Mathlib.Tactic.NormNum
import Mathlib.Tactic.Linarith
import Mathlib.Data.List.GetD
import Mathlib.Data.List.Perm.Subperm
import Mathlib.Algebra.Order.BigOperators.Group.List

/-! C142: what neurons of DSRBF remember when they are cloned, and what a seed does to them. -/

namespace Verif

/-- The answers of a generator are in range and have the right sizes. -/
structure NeuronGen.OK (g : NeuronGen) : Prop where
  sample : ∀ t, 0 ≤ g.sample t ∧ g.sample t < 1
  samples : ∀ t m, (g.samples t m).length = m
  normals : ∀ t c s, (g.normals t c s).length = c.length
  rnd : ∀ t m, 0 < m → g.rnd t m < m

/-- All neurons a network with the initial connections `mask` and `w` may get, by any history of operations: new neurons on rows of any
data, clones, mutations, added and deleted connections and moved centres. -/
inductive RbfHistory (iB oB : ℚ) (mask : List Nat) (w ranges mins : Row) : RbfNeuron → Prop
  | node (g : NeuronGen) (hg : g.OK) (c : Row) (hc : c.length = ranges.length) :
      RbfHistory iB oB mask w ranges mins (RbfNeuron.node g iB oB mask w ranges mins c)
  | clone (g : NeuronGen) (hg : g.OK) {n} (h : RbfHistory iB oB mask w ranges mins n) : RbfHistory iB oB mask w ranges mins (n.clone g)
  | mutate {n} (h : RbfHistory iB oB mask w ranges mins n) : RbfHistory iB oB mask w ranges mins n.mutate
  | add {n} (h : RbfHistory iB oB mask w ranges mins n) : RbfHistory iB oB mask w ranges mins n.addConnection
  | delete {n} (h : RbfHistory iB oB mask w ranges mins n) : RbfHistory iB oB mask w ranges mins n.deleteConnection
  | move {n} (h : RbfHistory iB oB mask w ranges mins n) (c : Row) (hc : c.length = ranges.length) :
      RbfHistory iB oB mask w ranges mins { n with center := c }

theorem RbfHistory.params {iB oB : ℚ} {mask : List Nat} {w ranges mins : Row} {n : RbfNeuron}
    (h : RbfHistory iB oB mask w ranges mins n) : n.params = ⟨iB, oB, mask, w, ranges, mins, none, none⟩ := by
  induction h with
  | node => rfl
  | clone g hg h ih => exact ih
  | mutate h ih => unfold RbfNeuron.mutate; dsimp only; split_ifs <;> exact ih
  | add h ih => unfold RbfNeuron.addConnection; dsimp only; split_ifs <;> exact ih
  | delete h ih => unfold RbfNeuron.deleteConnection; dsimp only; split_ifs <;> exact ih
  | move h c hc ih => exact ih

theorem RbfHistory.gen_ok {iB oB : ℚ} {mask : List Nat} {w ranges mins : Row} {n : RbfNeuron}
    (h : RbfHistory iB oB mask w ranges mins n) : n.gen.OK := by
  induction h with
  | node g hg => exact hg
  | clone g hg h ih => exact hg
  | mutate h ih => unfold RbfNeuron.mutate; dsimp only; split_ifs <;> exact ih
  | add h ih => unfold RbfNeuron.addConnection; dsimp only; split_ifs <;> exact ih
  | delete h ih => unfold RbfNeuron.deleteConnection; dsimp only; split_ifs <;> exact ih
  | move h c hc ih => exact ih

/-- C142: whatever was done to a neuron, the shapes fit when it is evaluated: as many weights as connections, connections to existing
columns only, a centre with all columns, and no negative radius. -/
theorem C142_shapes {iB oB : ℚ} {mask : List Nat} {w ranges mins : Row} (hw : mask.length = w.length)
    (hm : ∀ j ∈ mask, j < ranges.length) (hmins : mins.length = ranges.length) (hr : ∀ v ∈ ranges, 0 ≤ v) {n : RbfNeuron}
    (h : RbfHistory iB oB mask w ranges mins n) :
    n.mask.length = n.weights.length ∧ (∀ j ∈ n.mask, j < ranges.length) ∧ n.center.length = ranges.length ∧ 0 ≤ n.radius := by
  induction h with
  | node g hg c hc => exact ⟨hw, hm, hc, (hg.sample 1).1⟩
  | clone g hg h ih =>
    have hp := h.params
    refine ⟨?_, ?_, ih.2.2.1, ih.2.2.2⟩
    · simp [RbfNeuron.clone, RbfNeuron.make, hp, hw]
    · simpa [RbfNeuron.clone, RbfNeuron.make, hp] using hm
  | @mutate n h ih =>
    have hp := h.params
    have hg := h.gen_ok
    obtain ⟨i1, i2, i3, i4⟩ := ih
    unfold RbfNeuron.mutate
    dsimp only
    split_ifs
    · exact ⟨i1, i2, by rw [hg.normals]; exact i3, i4⟩
    · exact ⟨i1, i2, i3, by dsimp only; linarith⟩
    · exact ⟨i1, i2, i3, i4⟩
    · refine ⟨i1, i2, ?_, i4⟩
      simp [hp, hg.samples, i3, hmins]
    · refine ⟨i1, i2, i3, ?_⟩
      rw [hp]
      exact mul_nonneg (hg.sample _).1 (div_nonneg (List.sum_nonneg hr) (Nat.cast_nonneg _))
    · exact ⟨i1, i2, i3, i4⟩
  | @add n h ih =>
    obtain ⟨i1, i2, i3, i4⟩ := ih
    unfold RbfNeuron.addConnection
    dsimp only
    split_ifs with hlt
    · refine ⟨by simp [i1], ?_, i3, i4⟩
      intro j hj
      rcases List.mem_append.1 hj with hj | hj
      · exact i2 j hj
      · rw [List.mem_singleton] at hj
        subst hj
        by_cases hlen : n.gen.rnd n.calls ((List.range n.center.length).filter (fun j => j ∉ n.mask)).length <
            ((List.range n.center.length).filter (fun j => j ∉ n.mask)).length
        · rw [List.getD_eq_getElem _ _ hlen, ← i3]
          exact List.mem_range.1 (List.mem_filter.1 (List.getElem_mem hlen)).1
        · rw [List.getD_eq_default _ _ (by omega)]
          omega
    · exact ⟨i1, i2, i3, i4⟩
  | @delete n h ih =>
    obtain ⟨i1, i2, i3, i4⟩ := ih
    unfold RbfNeuron.deleteConnection
    dsimp only
    split_ifs with hlt
    · refine ⟨by simp [List.length_eraseIdx, i1], fun j hj => i2 j (List.mem_of_mem_eraseIdx hj), i3, i4⟩
    · exact ⟨i1, i2, i3, i4⟩
  | move h c hc ih => exact ⟨ih.1, ih.2.1, hc, ih.2.2.2⟩

/-- C142: there is always a column to connect: `choice` is never given an empty list, and a new connection is really new. -/
theorem C142_add (n : RbfNeuron) (hg : n.gen.OK) (h : n.mask.length < n.center.length) :
    (∃ j, j < n.center.length ∧ j ∉ n.mask) ∧
    ∃ j v, j < n.center.length ∧ j ∉ n.mask ∧ n.addConnection.mask = n.mask ++ [j] ∧ n.addConnection.weights = n.weights ++ [v] := by
  have hex : ∃ j, j < n.center.length ∧ j ∉ n.mask := by
    by_contra hno
    push Not at hno
    have hsub : List.range n.center.length ⊆ n.mask := fun j hj => hno j (List.mem_range.1 hj)
    have := (List.nodup_range.subperm hsub).length_le
    rw [List.length_range] at this
    omega
  refine ⟨hex, ?_⟩
  obtain ⟨j, hj, hjm⟩ := hex
  have hpos : 0 < ((List.range n.center.length).filter (fun j => j ∉ n.mask)).length :=
    List.length_pos_of_mem (List.mem_filter.2 ⟨List.mem_range.2 hj, by simpa using hjm⟩)
  have hlt := hg.rnd n.calls _ hpos
  have hmem := List.mem_filter.1 (List.getElem_mem hlt)
  refine ⟨_, (n.gen.sample (n.calls + 1) - 1 / 2) * n.params.iB, List.mem_range.1 hmem.1, by simpa using hmem.2, ?_, ?_⟩
  · rw [RbfNeuron.addConnection, if_pos h]
    dsimp only
    rw [List.getD_eq_getElem _ _ hlt]
  · rw [RbfNeuron.addConnection, if_pos h]

/-- C142: a clone has the centre and the radius of the neuron, but the initial connections and weights and a new output weight, whatever
was done to the neuron before. -/
theorem C142_clone {iB oB : ℚ} {mask : List Nat} {w ranges mins : Row} {n : RbfNeuron} (h : RbfHistory iB oB mask w ranges mins n)
    (g : NeuronGen) : (n.clone g).center = n.center ∧ (n.clone g).radius = n.radius ∧ (n.clone g).mask = mask ∧
      (n.clone g).weights = w ∧ (n.clone g).beta = (g.sample 0 - 1 / 2) * oB := by
  simp [RbfNeuron.clone, RbfNeuron.make, h.params]

/-- C142: so a clone does not depend on connections which were added or deleted before, nor on a mutation of the output weight. -/
theorem C142_forgets (n : RbfNeuron) (g : NeuronGen) :
    n.addConnection.clone g = n.clone g ∧ n.deleteConnection.clone g = n.clone g ∧
    (4 / 5 ≤ n.gen.sample n.calls → n.mutate.clone g = n.clone g) := by
  refine ⟨?_, ?_, ?_⟩
  · unfold RbfNeuron.addConnection; dsimp only; split_ifs <;> rfl
  · unfold RbfNeuron.deleteConnection; dsimp only; split_ifs <;> rfl
  · intro h
    unfold RbfNeuron.mutate
    dsimp only
    rw [if_neg (by linarith), if_neg (by linarith), if_neg (by linarith), if_neg (by linarith)]
    rfl

/-- C142: since every operation on a network begins with a clone, the connections of a neuron are never further from the initial ones
than one deletion and one addition. -/
theorem C142_connections {iB oB : ℚ} {mask : List Nat} {w ranges mins : Row} {n : RbfNeuron} (h : RbfHistory iB oB mask w ranges mins n)
    (g : NeuronGen) : ∃ kept, kept.Sublist mask ∧ mask.length ≤ kept.length + 1 ∧
      ((n.clone g).deleteConnection.addConnection.mask = kept ∨ ∃ j, (n.clone g).deleteConnection.addConnection.mask = kept ++ [j]) := by
  have hm := (C142_clone h g).2.2.1
  refine ⟨(n.clone g).deleteConnection.mask, ?_, ?_, ?_⟩
  · unfold RbfNeuron.deleteConnection
    dsimp only
    split_ifs
    · rw [← hm]; exact List.eraseIdx_sublist ..
    · rw [hm]
  · unfold RbfNeuron.deleteConnection
    dsimp only
    split_ifs
    · rw [← hm]; simp only [List.length_eraseIdx]; split_ifs <;> omega
    · rw [hm]; omega
  · generalize (n.clone g).deleteConnection = m
    unfold RbfNeuron.addConnection
    dsimp only
    split_ifs
    · exact Or.inr ⟨_, rfl⟩
    · exact Or.inl rfl

/-- C142: with an integer as `random_state` every neuron starts the same generator again. So all new neurons have the same radius and the
same output weight, all clones have this output weight too, and all clones are mutated in the same way: only the centre, only the radius
or only the output weight, the same for all neurons and all iterations. -/
theorem C142_seed {iB oB : ℚ} {mask : List Nat} {w ranges mins : Row} (g : NeuronGen) :
    (∃ b r, (∀ c, (RbfNeuron.node g iB oB mask w ranges mins c).beta = b ∧ (RbfNeuron.node g iB oB mask w ranges mins c).radius = r) ∧
      ∀ n, RbfHistory iB oB mask w ranges mins n → (n.clone g).beta = b) ∧
    ((∀ n, RbfHistory iB oB mask w ranges mins n → (n.clone g).mutate.radius = n.radius ∧ (n.clone g).mutate.beta = (n.clone g).beta) ∨
     (∀ n, RbfHistory iB oB mask w ranges mins n → (n.clone g).mutate.center = n.center ∧ (n.clone g).mutate.beta = (n.clone g).beta) ∨
     (∃ b, ∀ n, RbfHistory iB oB mask w ranges mins n →
        (n.clone g).mutate.center = n.center ∧ (n.clone g).mutate.radius = n.radius ∧ (n.clone g).mutate.beta = b)) := by
  refine ⟨⟨(g.sample 0 - 1 / 2) * oB, g.sample 1, fun c => ⟨rfl, rfl⟩, fun n h => (C142_clone h g).2.2.2.2⟩, ?_⟩
  have key : ∀ n : RbfNeuron, (n.clone g).gen.sample (n.clone g).calls = g.sample 2 := fun n => rfl
  by_cases h1 : g.sample 2 < 1 / 5
  · left; intro n h
    unfold RbfNeuron.mutate; dsimp only
    rw [key, if_pos h1]; exact ⟨rfl, rfl⟩
  by_cases h2 : g.sample 2 < 2 / 5
  · right; left; intro n h
    unfold RbfNeuron.mutate; dsimp only
    rw [key, if_neg h1, if_pos h2]; exact ⟨rfl, rfl⟩
  by_cases h3 : g.sample 2 < 3 / 5
  · left; intro n h
    unfold RbfNeuron.mutate; dsimp only
    rw [key, if_neg h1, if_neg h2, if_pos h3]; exact ⟨rfl, rfl⟩
  by_cases h4 : g.sample 2 < 4 / 5
  · right; left; intro n h
    unfold RbfNeuron.mutate; dsimp only
    rw [key, if_neg h1, if_neg h2, if_neg h3, if_pos h4]; exact ⟨rfl, rfl⟩
  · right; right
    refine ⟨g.normal 3 ((g.sample 0 - 1 / 2) * oB) oB, ?_⟩
    intro n h
    have hb := (C142_clone h g).2.2.2.2
    unfold RbfNeuron.mutate; dsimp only
    rw [key, if_neg h1, if_neg h2, if_neg h3, if_neg h4]
    refine ⟨rfl, rfl, ?_⟩
    show g.normal 3 (n.clone g).beta n.params.oB = _
    rw [hb, h.params]

/-- A generator for the examples. -/
def nrnGen : NeuronGen := ⟨fun t => if t = 2 then 9 / 10 else 1 / 4, fun _ m => List.replicate m (1 / 2), fun _ m s => m + s, fun _ c _ => c, fun _ _ => 0⟩

theorem nrnGen_ok : nrnGen.OK where
  sample := fun t => by unfold nrnGen; dsimp only; split_ifs <;> norm_num
  samples := fun t m => by simp [nrnGen]
  normals := fun t c s => rfl
  rnd := fun t m hm => hm

/-- A neuron in three dimensions with two connections; one was deleted, one was added and the output weight was changed. -/
def nrnStart : RbfNeuron := RbfNeuron.node nrnGen 2 2 [0, 2] [1 / 3, 1 / 2] [1, 1, 2] [0, 0, 0] [1, 0, 1]

example : RbfHistory 2 2 [0, 2] [1 / 3, 1 / 2] [1, 1, 2] [0, 0, 0] nrnStart.deleteConnection.addConnection :=
  .add (.delete (.node nrnGen nrnGen_ok _ rfl))

/-- C142: a clone is not identical to the neuron: the connections and a mutated output weight are lost. -/
theorem C142_lost :
    nrnStart.deleteConnection.addConnection.mask = [2, 0] ∧ (nrnStart.deleteConnection.addConnection.clone nrnGen).mask = [0, 2] ∧
    nrnStart.mutate.beta = 3 / 2 ∧ (nrnStart.mutate.clone nrnGen).beta = -1 / 2 := by
  decide +kernel

end Verif

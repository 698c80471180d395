import Verif.Model.Queries
import Verif.Lemmas.Basic

/-!
# C28 n_quickest queries return the quickest oversamplers
-/

namespace Verif

variable {τ : Type}

theorem withRuntime_ok {rt : τ → Option Nat} {o : τ} {p : τ × Nat} (h : withRuntime rt o = .ok p) :
    p.1 = o ∧ rt o = some p.2 := by
  unfold withRuntime at h
  cases hr : rt o with
  | none => rw [hr] at h; cases h
  | some r => rw [hr] at h; injection h with h; subst h; exact ⟨rfl, rfl⟩

theorem pairs_of_mapM {rt : τ → Option Nat} {os : List τ} {ps : List (τ × Nat)}
    (h : os.mapM (withRuntime rt) = .ok ps) : ps.map Prod.fst = os ∧ ∀ p ∈ ps, rt p.1 = some p.2 := by
  have h2 := mapM_ok_iff.1 h
  clear h
  induction h2 with
  | nil => simp
  | cons h1 _ ih =>
    obtain ⟨ha, hb⟩ := withRuntime_ok h1
    refine ⟨by rw [List.map_cons, ha, ih.1], ?_⟩
    intro p hp
    rcases List.mem_cons.1 hp with rfl | hp
    · rw [ha]; exact hb
    · exact ih.2 p hp

theorem sliceTo_eq_take (l : List τ) (n : Int) :
    sliceTo l n = l.take (if 0 ≤ n then n.toNat else l.length - n.natAbs) := by
  unfold sliceTo
  split <;> rfl

/-- `n = -1` returns the given list. -/
theorem C28_all {rt : τ → Option Nat} (os : List τ) : determineNQuickest rt os (-1) = .ok os := by
  unfold determineNQuickest
  rw [if_pos rfl]

/-- How many are asked for: `n`, or all but the last `|n|` for `n < -1`. -/
def askedFor (n : Int) (len : Nat) : Nat := if 0 ≤ n then min n.toNat len else len - n.natAbs

/-- The result and the omitted ones make up the given list; no omitted one is quicker than a returned one; the result
is sorted by runtime. For `n ≥ 0` it has `min(n, number of oversamplers)` elements; for `n < -1` the `|n|` slowest are
left out. -/
theorem C28_quickest {rt : τ → Option Nat} {os res : List τ} {n : Int} (hn : n ≠ -1)
    (h : determineNQuickest rt os n = .ok res) :
    res.length = askedFor n os.length ∧
    ∃ omitted, (res ++ omitted).Perm os ∧
      (∀ a ∈ res, ∀ b ∈ omitted, ∃ ra rb, rt a = some ra ∧ rt b = some rb ∧ ra ≤ rb) ∧
      res.Pairwise (fun a b => ∃ ra rb, rt a = some ra ∧ rt b = some rb ∧ ra ≤ rb) := by
  unfold determineNQuickest at h
  rw [if_neg hn, bind_ok] at h
  obtain ⟨ps, hps, h⟩ := h
  injection h with h
  obtain ⟨hfst, hrt⟩ := pairs_of_mapM hps
  have hlen : ps.length = os.length := by rw [← hfst, List.length_map]
  have hperm := List.perm_insertionSort (fun a b : τ × Nat => a.2 ≤ b.2) ps
  have hsort := List.pairwise_insertionSort (r := fun a b : τ × Nat => a.2 ≤ b.2) ps
  generalize ps.insertionSort (fun a b : τ × Nat => a.2 ≤ b.2) = sl at h hperm hsort
  rw [sliceTo_eq_take] at h
  have hsl : sl.length = os.length := by rw [hperm.length_eq, hlen]
  have hm : (sl.take (if 0 ≤ min n (os.length : Int) then (min n (os.length : Int)).toNat
      else sl.length - (min n (os.length : Int)).natAbs)).length = askedFor n os.length := by
    rw [List.length_take, hsl]
    unfold askedFor
    split <;> split <;> omega
  generalize (if 0 ≤ min n (os.length : Int) then (min n (os.length : Int)).toNat
      else sl.length - (min n (os.length : Int)).natAbs) = m at h hm
  have hrt' : ∀ p ∈ sl, rt p.1 = some p.2 := fun p hp => hrt p (hperm.mem_iff.1 hp)
  have hcross : ∀ p ∈ sl.take m, ∀ q ∈ sl.drop m, p.2 ≤ q.2 := by
    rw [← List.take_append_drop m sl, List.pairwise_append] at hsort
    exact hsort.2.2
  subst h
  refine ⟨by rw [List.length_map]; exact hm, (sl.drop m).map Prod.fst, ?_, ?_, ?_⟩
  · rw [← List.map_append, List.take_append_drop, ← hfst]
    exact hperm.map _
  · intro a ha b hb
    obtain ⟨p, hp, rfl⟩ := List.mem_map.1 ha
    obtain ⟨q, hq, rfl⟩ := List.mem_map.1 hb
    exact ⟨p.2, q.2, hrt' p (List.mem_of_mem_take hp), hrt' q (List.mem_of_mem_drop hq), hcross p hp q hq⟩
  · rw [List.pairwise_map]
    have := hsort.sublist (List.take_sublist m sl)
    refine List.Pairwise.imp_of_mem ?_ this
    intro p q hp hq hpq
    exact ⟨p.2, q.2, hrt' p (List.mem_of_mem_take hp), hrt' q (List.mem_of_mem_take hq), hpq⟩

/-- The query fails, with `KeyError`, exactly when one of the oversamplers has no recorded runtime. -/
theorem C28_raises_iff {rt : τ → Option Nat} {os : List τ} {n : Int} (hn : n ≠ -1) :
    (∃ e, determineNQuickest rt os n = .error e) ↔ ∃ o ∈ os, rt o = none := by
  unfold determineNQuickest
  rw [if_neg hn]
  constructor
  · rintro ⟨e, h⟩
    by_contra hcon
    push Not at hcon
    have : ∃ ps, os.mapM (withRuntime rt) = .ok ps := by
      apply mapM_exists_ok
      intro o ho
      unfold withRuntime
      cases hr : rt o with
      | none => exact absurd hr (hcon o ho)
      | some r => exact ⟨_, rfl⟩
    obtain ⟨ps, hps⟩ := this
    rw [hps, ok_bind] at h
    cases h
  · rintro ⟨o, ho, hr⟩
    cases hm : os.mapM (withRuntime rt) with
    | error e => exact ⟨e, rfl⟩
    | ok ps =>
      exfalso
      obtain ⟨hfst, hrt⟩ := pairs_of_mapM hm
      rw [← hfst] at ho
      obtain ⟨p, hp, rfl⟩ := List.mem_map.1 ho
      rw [hrt p hp] at hr
      cases hr

/-- The table: all 91 oversamplers are distinct and all have a recorded runtime. -/
theorem C28_table : registry.length = 91 ∧ (registry.map OsSpec.name).Nodup ∧ ∀ s ∈ registry, s.rt ≠ none := by
  decide +kernel

theorem quickest_subset {l res : List OsSpec} {n : Int} (hd : determineNQuickest OsSpec.rt l n = .ok res) :
    ∀ s ∈ res, s ∈ l := by
  by_cases hn : n = -1
  · rw [hn, C28_all] at hd
    injection hd with hd
    rw [hd]
    exact fun s hs => hs
  · obtain ⟨-, om, hp, -⟩ := C28_quickest hn hd
    exact fun s hs => hp.mem_iff.1 (List.mem_append_left _ hs)

theorem quickest_total (l : List OsSpec) (n : Int) : ∃ res, determineNQuickest OsSpec.rt l n = .ok res := by
  cases hd : determineNQuickest OsSpec.rt l n with
  | ok r => exact ⟨r, rfl⟩
  | error e =>
    exfalso
    by_cases hn : n = -1
    · rw [hn, C28_all] at hd; cases hd
    · obtain ⟨o, _, ho⟩ := (C28_raises_iff hn).1 ⟨e, hd⟩
      cases ho

/-- No query ever raises, whatever the conditions and the number asked for. -/
theorem C28_queries_total (n : Int) (q : SsQuery) (strategy : String) :
    (∃ r, getAllOversamplers n = .ok r) ∧ (∃ r, getProportionOversamplers n = .ok r) ∧
    (∃ r, getMetricLearningOversamplers n = .ok r) ∧ (∃ r, getMulticlassOversamplers strategy n = .ok r) ∧
    (∃ r, getSimplexSamplingOversamplers q n = .ok r) := by
  have hall : getAllOversamplers (-1) = .ok registry := C28_all registry
  refine ⟨quickest_total _ n, ?_, ?_, ?_, ?_⟩
  · unfold getProportionOversamplers; rw [hall, ok_bind]; exact quickest_total _ n
  · unfold getMetricLearningOversamplers; rw [hall, ok_bind]; exact quickest_total _ n
  · unfold getMulticlassOversamplers; rw [hall, ok_bind]; exact quickest_total _ n
  · unfold getSimplexSamplingOversamplers
    rw [hall, ok_bind]
    have : ∃ r, registry.mapM q.step = .ok r := by
      apply mapM_exists_ok
      intro s hs
      have hr : ∀ s ∈ registry, ∀ p ∈ s.ss.toList, p.readable = true := by decide +kernel
      unfold SsQuery.step
      cases h : s.ss with
      | none => exact ⟨_, rfl⟩
      | some p =>
        have := hr s hs p (by rw [h]; simp)
        dsimp only
        rw [if_pos this]
        exact ⟨_, rfl⟩
    obtain ⟨r, hr⟩ := this
    rw [hr, ok_bind]
    exact quickest_total _ n

/-- The multiclass query with a successive or one-vs-many strategy returns only oversamplers that leave the majority
class and the dimensions alone and take a `proportion`. -/
theorem C28_multiclass {n : Int} {res : List OsSpec} {strategy : String}
    (hs : strategy = "eq_1_vs_many_successive" ∨ strategy = "equalize_1_vs_many")
    (h : getMulticlassOversamplers strategy n = .ok res) :
    ∀ s ∈ res, s ∈ registry ∧ "changes_majority" ∉ s.categories ∧ "dim_reduction" ∉ s.categories ∧
      "proportion" ∈ s.getKeys.map Prod.fst := by
  unfold getMulticlassOversamplers at h
  rw [show getAllOversamplers (-1) = .ok registry from C28_all registry, ok_bind] at h
  dsimp only at h
  rw [if_pos hs] at h
  intro s hsm
  have := quickest_subset h s hsm
  rw [List.mem_filter] at this
  obtain ⟨h1, h2⟩ := this
  unfold multiclassFilter OsSpec.hasProportion at h2
  simp only [Bool.and_eq_true, Bool.not_eq_true', List.contains_eq_mem, decide_eq_true_eq, decide_eq_false_iff_not] at h2
  exact ⟨h1, h2.1.1, h2.1.2, h2.2⟩

/-- The simplex query returns only oversamplers whose default parameters satisfy every given condition. -/
theorem C28_simplex {q : SsQuery} {n : Int} {res : List OsSpec} (h : getSimplexSamplingOversamplers q n = .ok res) :
    ∀ s ∈ res, s ∈ registry ∧ ∃ p, s.ss = some p ∧ (∀ l, q.within = some l → p.within ∈ l) ∧
      (∀ l, q.excludeWithin = some l → p.within ∉ l) ∧ (∀ b, q.gaussian = some b → p.gaussian = b) ∧
      (∀ l, q.nDim = some l → p.nDim ∈ l) := by
  unfold getSimplexSamplingOversamplers at h
  rw [show getAllOversamplers (-1) = .ok registry from C28_all registry, ok_bind, bind_ok] at h
  obtain ⟨rs, hrs, h⟩ := h
  intro s hs
  have hm := quickest_subset h s hs
  rw [List.mem_filterMap] at hm
  obtain ⟨o, ho, hos⟩ := hm
  obtain ⟨t, ht, hto⟩ := forall₂_mem_right (mapM_ok_iff.1 hrs) ho
  have hoss : o = some s := hos
  subst hoss
  unfold SsQuery.step at hto
  cases hss : t.ss with
  | none => rw [hss] at hto; cases hto
  | some p =>
    rw [hss] at hto
    dsimp only at hto
    split at hto
    · split at hto
      · rename_i ha
        injection hto with hto
        injection hto with hto
        subst hto
        refine ⟨ht, p, hss, ?_⟩
        unfold SsQuery.accepts at ha
        simp only [Bool.and_eq_true] at ha
        obtain ⟨⟨⟨h1, h2⟩, h3⟩, h4⟩ := ha
        refine ⟨?_, ?_, ?_, ?_⟩
        · intro l hl; rw [hl] at h1; simpa using h1
        · intro l hl; rw [hl] at h2; simpa using h2
        · intro b hb; rw [hb] at h3; simpa using h3
        · intro l hl; rw [hl] at h4; simpa using h4
      · cases hto
    · cases hto

/-- The query for a `proportion` returns, in the order of the table, exactly the oversamplers with a parameter `proportion` (for `n = -1`), and for
every `n` only such. The query for metric learning and the multiclass query likewise. -/
theorem C28_exactly :
    (∃ r, getProportionOversamplers (-1) = .ok r ∧ List.Sublist r registry ∧ ∀ s ∈ registry, s ∈ r ↔ "proportion" ∈ s.getKeys.map Prod.fst) ∧
    (∃ r, getMetricLearningOversamplers (-1) = .ok r ∧ List.Sublist r registry ∧ ∀ s ∈ registry, s ∈ r ↔ "metric_learning" ∈ s.categories) ∧
    (∀ strategy : String, ∃ r, getMulticlassOversamplers strategy (-1) = .ok r ∧ List.Sublist r registry ∧ ∀ s ∈ registry, s ∈ r ↔
      (strategy = "eq_1_vs_many_successive" ∨ strategy = "equalize_1_vs_many" →
        "changes_majority" ∉ s.categories ∧ "dim_reduction" ∉ s.categories ∧ "proportion" ∈ s.getKeys.map Prod.fst)) ∧
    ∀ (n : Int) (res : List OsSpec), getProportionOversamplers n = .ok res → ∀ s ∈ res, s ∈ registry ∧ "proportion" ∈ s.getKeys.map Prod.fst := by
  have hall : getAllOversamplers (-1) = .ok registry := C28_all registry
  refine ⟨?_, ?_, ?_, ?_⟩
  · refine ⟨registry.filter OsSpec.hasProportion, ?_, List.filter_sublist, ?_⟩
    · unfold getProportionOversamplers; rw [hall, ok_bind, C28_all]
    · intro s hs
      rw [List.mem_filter]
      simp [hs, OsSpec.hasProportion]
  · refine ⟨registry.filter (fun s => s.categories.contains "metric_learning"), ?_, List.filter_sublist, ?_⟩
    · unfold getMetricLearningOversamplers; rw [hall, ok_bind, C28_all]
    · intro s hs
      rw [List.mem_filter]
      simp [hs]
  · intro strategy
    by_cases hst : strategy = "eq_1_vs_many_successive" ∨ strategy = "equalize_1_vs_many"
    · refine ⟨registry.filter multiclassFilter, ?_, List.filter_sublist, ?_⟩
      · unfold getMulticlassOversamplers
        rw [hall, ok_bind]
        dsimp only
        rw [if_pos hst, C28_all]
      · intro s hs
        rw [List.mem_filter]
        simp only [hs, hst, multiclassFilter, OsSpec.hasProportion, Bool.and_eq_true, Bool.not_eq_true', List.contains_eq_mem, decide_eq_true_eq,
          decide_eq_false_iff_not, true_and, forall_const, and_assoc]
    · refine ⟨registry, ?_, List.Sublist.refl _, ?_⟩
      · unfold getMulticlassOversamplers
        rw [hall, ok_bind]
        dsimp only
        rw [if_neg hst, C28_all]
      · intro s hs
        simp only [hs, hst, IsEmpty.forall_iff]
  · intro n res h s hs
    unfold getProportionOversamplers at h
    rw [hall, ok_bind] at h
    have := quickest_subset h s hs
    rw [List.mem_filter] at this
    exact ⟨this.1, by simpa [OsSpec.hasProportion] using this.2⟩

/-- Hypotheses met: the three quickest. -/
example : (do let r ← getAllOversamplers 3; pure (r.map OsSpec.name)) =
    (.ok ["polynom_fit_SMOTE_bus", "polynom_fit_SMOTE_star", "ROSE"] : Res (List String)) := by decide +kernel
example : (do let r ← getAllOversamplers (-89); pure (r.map OsSpec.name)) =
    (.ok ["polynom_fit_SMOTE_bus", "polynom_fit_SMOTE_star"] : Res (List String)) := by decide +kernel

end Verif

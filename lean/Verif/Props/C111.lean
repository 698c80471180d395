import Verif.Model.Processing
import Verif.Lemmas.Selection
import Verif.Lemmas.Dict
import Verif.Lemmas.Basic
import Verif.Spec.Distances

/-!
# C111: the summary of evaluation results
-/

namespace Verif

variable {α β : Type} [LinearOrder α]

/-! ## Specification -/

/-- What a record says in a column: wanted scores come from its scores, the rest from its own entries. -/
def cellOf (scores : List α) (r : SumRow α β) (c : α) : β :=
  if c ∈ scores then (r.scores.get c).getD (r.fields c) else r.fields c

/-- The group of a record; `none` if its oversampler has no `ss_params`. -/
def summaryKey (r : SumRow α β) : Option (List α) := r.ss.join.map r.key

/-- All wanted scores are there, and `ss_params`, if there, says how to sample within a simplex. -/
def CompleteRow (scores : List α) (r : SumRow α β) : Prop := (∀ s ∈ scores, ∃ v, r.scores.get s = some v) ∧ r.ss ≠ some none

/-! ## Lemmas -/

theorem extractScore_ok {f : SumFrame α β} {s : α} (h : ∀ r ∈ f.rows, ∃ v, r.scores.get s = some v) :
    extractScore f s = .ok { columns := if s ∈ f.columns then f.columns else f.columns ++ [s],
                             rows := f.rows.map (fun r => { r with fields := cellOf [s] r }) } := by
  unfold extractScore
  rw [mapM_ok_of (g := fun r => { r with fields := cellOf [s] r })]
  · rfl
  · intro r hr
    obtain ⟨v, hv⟩ := h r hr
    rw [hv]
    simp only
    congr 2
    funext c
    by_cases hc : c = s
    · subst hc; simp [cellOf, hv]
    · simp [cellOf, hc]

/-- The columns after the scores were added. -/
def knownCols (scores columns : List α) : List α := scores.foldl (fun cols s => if s ∈ cols then cols else cols ++ [s]) columns

theorem mem_knownCols : ∀ (scores columns : List α) (c : α), c ∈ knownCols scores columns ↔ c ∈ columns ∨ c ∈ scores := by
  intro scores
  induction scores with
  | nil => intro columns c; simp [knownCols]
  | cons s ss ih =>
    intro columns c
    have : knownCols (s :: ss) columns = knownCols ss (if s ∈ columns then columns else columns ++ [s]) := rfl
    rw [this, ih]
    split
    · rename_i hs
      constructor
      · rintro (h | h)
        · exact Or.inl h
        · exact Or.inr (by simp [h])
      · rintro (h | h)
        · exact Or.inl h
        · rcases List.mem_cons.1 h with rfl | h
          · exact Or.inl hs
          · exact Or.inr h
    · simp [or_assoc]

theorem extract_ok : ∀ (scores : List α) (f : SumFrame α β), (∀ r ∈ f.rows, ∀ s ∈ scores, ∃ v, r.scores.get s = some v) →
    scores.foldlM extractScore f =
      .ok { columns := knownCols scores f.columns, rows := f.rows.map (fun r => { r with fields := cellOf scores r }) } := by
  intro scores
  induction scores with
  | nil =>
    intro f _
    have : (fun r : SumRow α β => { r with fields := cellOf [] r }) = id := by
      funext r
      have hf : cellOf [] r = r.fields := by funext c; simp [cellOf]
      rw [hf]
      rfl
    rw [this, List.map_id]
    rfl
  | cons s ss ih =>
    intro f h
    rw [List.foldlM_cons, extractScore_ok (fun r hr => h r hr s (by simp)), ok_bind]
    rw [ih _ (by
      intro r hr t ht
      obtain ⟨q, hq, rfl⟩ := List.mem_map.1 hr
      exact h q hq t (by simp [ht]))]
    congr 2
    rw [List.map_map]
    apply List.map_congr_left
    intro r hr
    obtain ⟨v, hv⟩ := h r hr s (by simp)
    simp only [Function.comp]
    congr 1
    funext c
    unfold cellOf
    by_cases h1 : c ∈ ss
    · obtain ⟨w, hw⟩ := h r hr c (by simp [h1])
      simp [h1, hw]
    · by_cases h2 : c = s
      · subst h2; simp [h1]
      · simp [h1, h2]

/-- The rows with their groups. -/
def keyedRows (scores : List α) (rows : List (SumRow α β)) : List (List α × SumRow α β) :=
  rows.filterMap (fun r => (summaryKey r).map (fun k => (k, { r with fields := cellOf scores r })))

theorem createSummary_keyed {argsort : List Nat → List Nat} {onEmpty : Res (List (SumOut α β))} {scores columns : List α} {f : SumFrame α β}
    (h : ∀ r ∈ f.rows, CompleteRow scores r) :
    createSummary argsort onEmpty scores columns f =
      if (keyedRows scores f.rows).isEmpty then onEmpty else
      (groupBy Prod.fst (keyedRows scores f.rows)).mapM (fun g => match g with
        | [] => .error .indexError
        | kr :: _ => serializeData argsort (knownCols scores f.columns) columns kr.1 kr.2 (g.map Prod.snd)) := by
  have e := extract_ok scores f (fun r hr => (h r hr).1)
  unfold createSummary extractAttributes
  rw [mapM_ok_of (g := fun r => r.ss.join) (by
    intro r hr
    have := (h r hr).2
    unfold isDeterministic
    rcases hs : r.ss with _ | _ | w
    · rfl
    · exact absurd hs this
    · rfl), ok_bind, e, ok_bind]
  have hkey : ((f.rows.map (fun r => { r with fields := cellOf scores r })).zip (f.rows.map (fun r => r.ss.join))).filterMap
      (fun p => p.2.map (fun det => (p.1.key det, p.1))) = keyedRows scores f.rows := by
    rw [List.zip_map', List.filterMap_map]
    unfold keyedRows
    congr 1
    funext r
    simp only [Function.comp, summaryKey, Option.map_map]
    rfl
  show (if (((f.rows.map (fun r => { r with fields := cellOf scores r })).zip (f.rows.map (fun r => r.ss.join))).filterMap
      (fun p => p.2.map (fun det => (p.1.key det, p.1)))).isEmpty then onEmpty else _) = _
  rw [hkey]
  rfl

theorem range_filterMap_get {γ : Type} (g : List γ) : (List.range g.length).filterMap (fun i => g[i]?) = g := by
  induction g using List.reverseRecOn with
  | nil => rfl
  | append_singleton g a ih =>
    rw [List.length_append, List.length_singleton, List.range_succ, List.filterMap_append]
    congr 1
    · conv_rhs => rw [← ih]
      apply List.filterMap_congr
      intro i hi
      rw [List.getElem?_append_left (List.mem_range.1 hi)]
    · simp

/-- The rows of a group in the order of `sort_values`. -/
def inFoldOrder (argsort : List Nat → List Nat) (g : List (SumRow α β)) : List (SumRow α β) :=
  (argsort (g.map (·.fold))).filterMap (fun i => g[i]?)

theorem inFoldOrder_perm {argsort : List Nat → List Nat} (ha : ArgsortSorts argsort) (g : List (SumRow α β)) : (inFoldOrder argsort g).Perm g := by
  have := ((ha (g.map (·.fold))).1.filterMap (fun i => g[i]?))
  rw [List.length_map, range_filterMap_get] at this
  exact this

theorem inFoldOrder_sorted {argsort : List Nat → List Nat} (ha : ArgsortSorts argsort) (g : List (SumRow α β)) :
    (inFoldOrder argsort g).Pairwise (fun r s => r.fold ≤ s.fold) := by
  unfold inFoldOrder
  rw [List.pairwise_filterMap]
  apply (ha (g.map (·.fold))).2.imp
  intro a b h x hx y hy
  exact h _ _ (by rw [List.getElem?_map, hx]; rfl) (by rw [List.getElem?_map, hy]; rfl)

theorem serialize_ok {argsort : List Nat → List Nat} {known columns key : List α} {r : SumRow α β} {g : List (SumRow α β)}
    (hc : ∀ c ∈ columns, c ∈ known) : ∃ o, serializeData argsort known columns key r g = .ok o ∧ o.key = key ∧ o.osParams = r.osParams ∧
      o.clParams = r.clParams ∧ ∀ c, o.cols.get c = if c ∈ columns then some ((inFoldOrder argsort g).map (fun s => s.fields c)) else none := by
  have : ∀ (cs : List α) (d : Dict α (List β)), (∀ c ∈ cs, c ∈ known) → ∃ d', cs.foldlM (init := d) (fun d c =>
      if c ∈ known then Except.ok (Dict.set d c ((argsort (g.map (·.fold))).filterMap (fun i => (g[i]?).map (·.fields c))))
        else .error .keyError) = (.ok d' : Res _) ∧
      ∀ c, d'.get c = if c ∈ cs then some ((inFoldOrder argsort g).map (fun s => s.fields c)) else d.get c := by
    intro cs
    induction cs with
    | nil => intro d _; exact ⟨d, rfl, by simp⟩
    | cons c cs ih =>
      intro d h
      rw [List.foldlM_cons, if_pos (h c (by simp)), ok_bind]
      obtain ⟨d', e, hd⟩ := ih (Dict.set d c ((argsort (g.map (·.fold))).filterMap (fun i => (g[i]?).map (·.fields c))))
        (fun x hx => h x (by simp [hx]))
      refine ⟨d', e, ?_⟩
      intro x
      rw [hd, Dict.get_set]
      by_cases h1 : x ∈ cs
      · simp [h1]
      · by_cases h2 : c = x
        · subst h2
          simp [h1, inFoldOrder, List.map_filterMap]
        · have : x ≠ c := fun h => h2 h.symm
          simp [h1, h2, this]
  obtain ⟨d', e, hd⟩ := this columns [] hc
  refine ⟨{ key := key, cols := d', osParams := r.osParams, clParams := r.clParams }, ?_, rfl, rfl, rfl, ?_⟩
  · unfold serializeData
    rw [e, ok_bind]
    rfl
  · intro c
    rw [hd]
    rfl

theorem mem_keyedRows {scores : List α} {rows : List (SumRow α β)} {k : List α} {s : SumRow α β} :
    (k, s) ∈ keyedRows scores rows ↔ ∃ r ∈ rows, summaryKey r = some k ∧ s = { r with fields := cellOf scores r } := by
  unfold keyedRows
  rw [List.mem_filterMap]
  constructor
  · rintro ⟨r, hr, e⟩
    obtain ⟨k', hk', e⟩ := Option.map_eq_some_iff.1 e
    injection e with e1 e2
    exact ⟨r, hr, by rw [hk', e1], e2.symm⟩
  · rintro ⟨r, hr, hk, rfl⟩
    exact ⟨r, hr, by rw [hk]; rfl⟩

theorem keyedRows_group (scores : List α) (rows : List (SumRow α β)) (k : List α) :
    ((keyedRows scores rows).filter (fun p => p.1 = k)).map Prod.snd =
      (rows.filter (fun r => summaryKey r = some k)).map (fun r => { r with fields := cellOf scores r }) := by
  induction rows with
  | nil => rfl
  | cons r rows ih =>
    have hu : keyedRows scores (r :: rows) =
        ((summaryKey r).map (fun k => (k, { r with fields := cellOf scores r }))).toList ++ keyedRows scores rows := by
      unfold keyedRows
      rw [List.filterMap_cons]
      cases (summaryKey r) <;> rfl
    rw [hu, List.filter_append, List.map_append, ih, List.filter_cons]
    cases hk : summaryKey r with
    | none => simp
    | some k' =>
      by_cases hkk : k' = k
      · simp [hkk]
      · simp [hkk]

/-- What a row of the summary says about its group. -/
def RowOf (columns scores : List α) (rows : List (SumRow α β)) (grp : List (SumRow α β)) (o : SumOut α β) : Prop :=
  grp.Perm (rows.filter (fun r => summaryKey r = some o.key)) ∧ grp ≠ [] ∧ grp.Pairwise (fun r s => r.fold ≤ s.fold) ∧
  (∀ c, o.cols.get c = if c ∈ columns then some (grp.map (fun r => cellOf scores r c)) else none) ∧
  ∃ r, (rows.filter (fun r => summaryKey r = some o.key)).head? = some r ∧ o.osParams = r.osParams ∧ o.clParams = r.clParams

theorem group_ok {argsort : List Nat → List Nat} {known columns scores : List α} {rows : List (SumRow α β)} (ha : ArgsortSorts argsort)
    (hc : ∀ c ∈ columns, c ∈ known) {k : List α} (hk : ∃ r ∈ rows, summaryKey r = some k) :
    ∃ o, (match (keyedRows scores rows).filter (fun p => p.1 = k) with
        | [] => .error .indexError
        | kr :: _ => serializeData argsort known columns kr.1 kr.2 (((keyedRows scores rows).filter (fun p => p.1 = k)).map Prod.snd)) =
          (.ok o : Res _) ∧ o.key = k ∧ ∃ grp, RowOf columns scores rows grp o := by
  have hg := keyedRows_group scores rows k
  cases hl : (keyedRows scores rows).filter (fun p => p.1 = k) with
  | nil =>
    obtain ⟨r, hr, hk⟩ := hk
    have : (k, { r with fields := cellOf scores r }) ∈ (keyedRows scores rows).filter (fun p => p.1 = k) :=
      List.mem_filter.2 ⟨mem_keyedRows.2 ⟨r, hr, hk, rfl⟩, by simp⟩
    rw [hl] at this
    simp at this
  | cons kr t =>
    have hkr : kr.1 = k := by
      have : kr ∈ (keyedRows scores rows).filter (fun p => p.1 = k) := by rw [hl]; simp
      simpa using (List.mem_filter.1 this).2
    rw [hl] at hg
    obtain ⟨o, e, h1, h2, h3, h4⟩ := serialize_ok (argsort := argsort) (key := kr.1) (r := kr.2) (g := (kr :: t).map Prod.snd) hc
    refine ⟨o, e, h1.trans hkr, ?_⟩
    rw [hg] at h4
    set F := rows.filter (fun r => summaryKey r = some k) with hF
    have hfold : (F.map (fun r => { r with fields := cellOf scores r })).map (·.fold) = F.map (·.fold) := by
      rw [List.map_map]; rfl
    have hin : inFoldOrder argsort (F.map (fun r => { r with fields := cellOf scores r })) =
        (inFoldOrder argsort F).map (fun r => { r with fields := cellOf scores r }) := by
      unfold inFoldOrder
      rw [hfold, List.map_filterMap]
      congr 1
      funext i
      rw [List.getElem?_map]
    have hp := inFoldOrder_perm ha F
    have hok : o.key = k := h1.trans hkr
    refine ⟨inFoldOrder argsort F, by rw [hok]; exact hp, ?_, inFoldOrder_sorted ha F, ?_, ?_⟩
    · intro hnil
      rw [hnil] at hp
      have := hp.nil_eq
      rw [← this] at hg
      simp at hg
    · intro c
      rw [h4, hin, List.map_map]
      rfl
    · rw [hok, ← hF]
      cases hFc : F with
      | nil => rw [hFc] at hg; simp at hg
      | cons r F' =>
        rw [hFc] at hg
        injection hg with hg _
        exact ⟨r, rfl, by rw [h2, hg], by rw [h3, hg]⟩

/-! ## The properties -/

/-- **The summary.** For complete records, at least one of an oversampler with `ss_params`, and known columns, the summary has one row per group,
in ascending order of the keys. In a row every asked for column is the list of the values of the records of the group, all columns in the same
order, which is one of ascending fold numbers; the parameters are those of the first record of the group. -/
theorem C111_summary {argsort : List Nat → List Nat} {onEmpty : Res (List (SumOut α β))} {scores columns : List α} {f : SumFrame α β}
    (ha : ArgsortSorts argsort) (h : ∀ r ∈ f.rows, CompleteRow scores r) (hne : ∃ r ∈ f.rows, r.ss.isSome)
    (hc : ∀ c ∈ columns, c ∈ f.columns ∨ c ∈ scores) :
    ∃ out, createSummary argsort onEmpty scores columns f = .ok out ∧ (out.map (·.key)).Pairwise (· < ·) ∧
      (∀ k, k ∈ out.map (·.key) ↔ ∃ r ∈ f.rows, summaryKey r = some k) ∧
      ∀ o ∈ out, ∃ grp, RowOf columns scores f.rows grp o := by
  have e := createSummary_keyed (argsort := argsort) (onEmpty := onEmpty) (columns := columns) h
  have hk := mem_knownCols scores f.columns
  generalize knownCols scores f.columns = known at e hk
  have hmem : ∀ k, k ∈ npUnique ((keyedRows scores f.rows).map Prod.fst) ↔ ∃ r ∈ f.rows, summaryKey r = some k := by
    intro k
    rw [mem_npUnique, List.mem_map]
    constructor
    · rintro ⟨⟨k', s⟩, hp, rfl⟩
      obtain ⟨r, hr, hk, _⟩ := mem_keyedRows.1 hp
      exact ⟨r, hr, hk⟩
    · rintro ⟨r, hr, hk⟩
      exact ⟨_, mem_keyedRows.2 ⟨r, hr, hk, rfl⟩, rfl⟩
  have hempty : (keyedRows scores f.rows).isEmpty = false := by
    obtain ⟨r, hr, hs⟩ := hne
    obtain ⟨w, hw⟩ : ∃ w, r.ss = some (some w) := by
      have := (h r hr).2
      rcases hss : r.ss with _ | _ | w
      · rw [hss] at hs; simp at hs
      · exact absurd hss this
      · exact ⟨w, rfl⟩
    have : (r.key w, { r with fields := cellOf scores r }) ∈ keyedRows scores f.rows :=
      mem_keyedRows.2 ⟨r, hr, by simp [summaryKey, hw], rfl⟩
    cases hl : keyedRows scores f.rows with
    | nil => rw [hl] at this; simp at this
    | cons => rfl
  rw [hempty, if_neg (by simp)] at e
  have hkn : ∀ c ∈ columns, c ∈ known := fun c hc' => (hk c).2 (hc c hc')
  obtain ⟨out, ho⟩ := mapM_exists_ok (l := groupBy Prod.fst (keyedRows scores f.rows)) (f := fun g => match g with
        | [] => .error .indexError
        | kr :: _ => serializeData argsort known columns kr.1 kr.2 (g.map Prod.snd)) (by
    intro g hg
    unfold groupBy at hg
    obtain ⟨k, hk', rfl⟩ := List.mem_map.1 hg
    obtain ⟨o, eo, _⟩ := group_ok (scores := scores) ha hkn ((hmem k).1 hk')
    exact ⟨o, eo⟩)
  have hall : ∀ (i : Nat) k, (npUnique ((keyedRows scores f.rows).map Prod.fst))[i]? = some k →
      ∃ o, out[i]? = some o ∧ o.key = k ∧ ∃ grp, RowOf columns scores f.rows grp o := by
    intro i k hi
    have hg : (groupBy Prod.fst (keyedRows scores f.rows))[i]? = some ((keyedRows scores f.rows).filter (fun p => p.1 = k)) := by
      unfold groupBy
      rw [List.getElem?_map, hi]
      rfl
    obtain ⟨o, hoi, eo⟩ := mapM_ok_get ho hg
    obtain ⟨o', eo', hok, hrow⟩ := group_ok (scores := scores) ha hkn ((hmem k).1 (List.mem_of_getElem? hi))
    have : o = o' := by
      have := eo.symm.trans eo'
      injection this
    subst this
    exact ⟨o, hoi, hok, hrow⟩
  have hlen : out.length = (npUnique ((keyedRows scores f.rows).map Prod.fst)).length := by
    rw [mapM_ok_length ho]; simp [groupBy]
  have hkeys : out.map (·.key) = npUnique ((keyedRows scores f.rows).map Prod.fst) := by
    apply List.ext_getElem?
    intro i
    rw [List.getElem?_map]
    cases hi : (npUnique ((keyedRows scores f.rows).map Prod.fst))[i]? with
    | none =>
      rw [List.getElem?_eq_none_iff] at hi
      rw [List.getElem?_eq_none_iff.2 (by omega)]
      rfl
    | some k =>
      obtain ⟨o, h1, h2, _⟩ := hall i k hi
      rw [h1, ← h2]
      rfl
  refine ⟨out, e.trans ho, by rw [hkeys]; exact npUnique_sorted _, by intro k; rw [hkeys]; exact hmem k, ?_⟩
  intro o hoo
  obtain ⟨i, hi⟩ := List.getElem?_of_mem hoo
  have hlt : i < (npUnique ((keyedRows scores f.rows).map Prod.fst)).length := by
    rw [← hlen]
    exact (List.getElem?_eq_some_iff.1 hi).1
  obtain ⟨o', h1, _, h3⟩ := hall i _ (List.getElem?_eq_getElem hlt)
  rw [hi] at h1
  injection h1 with h1
  rw [h1]
  exact h3

/-- Records of oversamplers without `ss_params` make no difference: they are dropped. -/
theorem C111_dropped {argsort : List Nat → List Nat} {onEmpty : Res (List (SumOut α β))} {scores columns : List α} {f : SumFrame α β}
    (h : ∀ r ∈ f.rows, CompleteRow scores r) :
    createSummary argsort onEmpty scores columns f =
      createSummary argsort onEmpty scores columns { f with rows := f.rows.filter (fun r => r.ss.isSome) } := by
  have hext : ∀ rows : List (SumRow α β), keyedRows scores (rows.filter (fun r => r.ss.isSome)) = keyedRows scores rows := by
    intro rows
    unfold keyedRows
    rw [List.filterMap_filter]
    apply List.filterMap_congr
    intro r _
    cases hs : r.ss with
    | none => simp [summaryKey, hs]
    | some w => simp
  rw [createSummary_keyed h, createSummary_keyed (f := { f with rows := f.rows.filter (fun r => r.ss.isSome) })
    (fun r hr => h r (List.mem_filter.1 hr).1)]
  rw [hext]

/-- Asking for a column that is neither in the data nor a wanted score is a `KeyError`. -/
theorem C111_unknown {argsort : List Nat → List Nat} {onEmpty : Res (List (SumOut α β))} {scores columns : List α} {f : SumFrame α β}
    (h : ∀ r ∈ f.rows, CompleteRow scores r) (hne : ∃ r ∈ f.rows, r.ss.isSome) {c : α} (hc : c ∈ columns) (h1 : c ∉ f.columns) (h2 : c ∉ scores) :
    createSummary argsort onEmpty scores columns f = .error .keyError := by
  rw [createSummary_keyed h]
  obtain ⟨r, hr, hs⟩ := hne
  obtain ⟨w, hw⟩ : ∃ w, r.ss = some (some w) := by
    have := (h r hr).2
    rcases hss : r.ss with _ | _ | w
    · rw [hss] at hs; simp at hs
    · exact absurd hss this
    · exact ⟨w, rfl⟩
  have hin : (r.key w, { r with fields := cellOf scores r }) ∈ keyedRows scores f.rows :=
    mem_keyedRows.2 ⟨r, hr, by simp [summaryKey, hw], rfl⟩
  have hempty : (keyedRows scores f.rows).isEmpty = false := by
    cases hl : keyedRows scores f.rows with
    | nil => rw [hl] at hin; simp at hin
    | cons => rfl
  rw [hempty, if_neg (by simp)]
  have hu : c ∉ knownCols scores f.columns := by rw [mem_knownCols]; tauto
  have hser : ∀ key r g, serializeData argsort (knownCols scores f.columns) columns key r g = (.error .keyError : Res (SumOut α β)) := by
    intro key r g
    unfold serializeData
    have : ∀ (cs : List α) (d : Dict α (List β)), c ∈ cs → cs.foldlM (init := d) (fun d c =>
      if c ∈ knownCols scores f.columns then
        Except.ok (Dict.set d c ((argsort (g.map (·.fold))).filterMap (fun i => (g[i]?).map (·.fields c))))
        else .error .keyError) = (.error .keyError : Res _) := by
      intro cs
      induction cs with
      | nil => intro d h; simp at h
      | cons x cs ih =>
        intro d hx
        rw [List.foldlM_cons]
        by_cases hxk : x ∈ knownCols scores f.columns
        · rw [if_pos hxk, ok_bind]
          apply ih
          rcases List.mem_cons.1 hx with rfl | hx
          · exact absurd hxk hu
          · exact hx
        · rw [if_neg hxk]; rfl
    rw [this columns [] hc]
    rfl
  cases hg : groupBy Prod.fst (keyedRows scores f.rows) with
  | nil =>
    have := (mem_groupBy (key := Prod.fst) (rows := keyedRows scores f.rows)).2 ⟨_, hin, rfl⟩
    rw [hg] at this
    simp at this
  | cons g gs =>
    have hgm : g ∈ groupBy Prod.fst (keyedRows scores f.rows) := by rw [hg]; simp
    obtain ⟨p, hp, rfl⟩ := mem_groupBy.1 hgm
    rw [List.mapM_cons]
    cases hl : (keyedRows scores f.rows).filter (fun s => s.1 = p.1) with
    | nil =>
      have : p ∈ (keyedRows scores f.rows).filter (fun s => s.1 = p.1) := List.mem_filter.2 ⟨hp, by simp⟩
      rw [hl] at this
      simp at this
    | cons kr t =>
      simp only
      rw [hser]
      rfl

/-- An incomplete record is a `KeyError`. -/
theorem C111_incomplete {argsort : List Nat → List Nat} {onEmpty : Res (List (SumOut α β))} {scores columns : List α} {f : SumFrame α β}
    (h : ∃ r ∈ f.rows, ¬ CompleteRow scores r) : createSummary argsort onEmpty scores columns f = .error .keyError := by
  have hmap : ∀ {γ δ : Type} (g : γ → Res δ) (l : List γ), (∀ x ∈ l, ∀ e, g x = .error e → e = .keyError) → (∃ x ∈ l, ∃ e, g x = .error e) →
      l.mapM g = .error .keyError := by
    intro γ δ g l
    induction l with
    | nil => rintro _ ⟨x, hx, _⟩; simp at hx
    | cons a l ih =>
      intro h1 h2
      rw [List.mapM_cons]
      cases ha : g a with
      | error e => rw [h1 a (by simp) e ha]; rfl
      | ok b =>
        rw [ok_bind, ih (fun x hx => h1 x (by simp [hx])) (by
          obtain ⟨x, hx, e, he⟩ := h2
          rcases List.mem_cons.1 hx with rfl | hx
          · rw [ha] at he; cases he
          · exact ⟨x, hx, e, he⟩)]
        rfl
  have hex : extractAttributes f scores = .error .keyError := by
    unfold extractAttributes
    by_cases hss : ∃ r ∈ f.rows, r.ss = some none
    · rw [hmap]
      · rfl
      · intro r _ e he
        unfold isDeterministic at he
        rcases hs : r.ss with _ | _ | w <;> rw [hs] at he
        · cases he
        · injection he with he; exact he.symm
        · cases he
      · obtain ⟨r, hr, hs⟩ := hss
        exact ⟨r, hr, .keyError, by unfold isDeterministic; rw [hs]⟩
    · rw [mapM_ok_of (g := fun r => r.ss.join) (by
        intro r hr
        unfold isDeterministic
        rcases hs : r.ss with _ | _ | w
        · rfl
        · exact absurd ⟨r, hr, hs⟩ hss
        · rfl), ok_bind]
      have hsc : ∀ (ss : List α) (g : SumFrame α β), (∃ r ∈ g.rows, ∃ s ∈ ss, r.scores.get s = none) →
          ss.foldlM extractScore g = .error .keyError := by
        intro ss
        induction ss with
        | nil => rintro g ⟨_, _, s, hs, _⟩; simp at hs
        | cons t ts ih =>
          rintro g ⟨r, hr, s, hs, hn⟩
          rw [List.foldlM_cons]
          by_cases ht : ∀ r ∈ g.rows, ∃ v, r.scores.get t = some v
          · rw [extractScore_ok ht, ok_bind]
            apply ih
            refine ⟨_, List.mem_map_of_mem hr, s, ?_, hn⟩
            rcases List.mem_cons.1 hs with rfl | hs
            · obtain ⟨v, hv⟩ := ht r hr
              rw [hn] at hv; cases hv
            · exact hs
          · have : extractScore g t = .error .keyError := by
              unfold extractScore
              rw [hmap]
              · rfl
              · intro r _ e he
                cases hg : r.scores.get t with
                | some v => rw [hg] at he; cases he
                | none => rw [hg] at he; injection he with he; exact he.symm
              · by_contra hno
                apply ht
                intro r hr
                cases hg : r.scores.get t with
                | some v => exact ⟨v, rfl⟩
                | none => exact absurd ⟨r, hr, .keyError, by rw [hg]⟩ hno
            rw [this]
            rfl
      obtain ⟨r, hr, hc⟩ := h
      rw [hsc scores f (by
        by_contra hno
        apply hc
        refine ⟨?_, fun e => hss ⟨r, hr, e⟩⟩
        intro s hs
        cases hg : r.scores.get s with
        | some v => exact ⟨v, rfl⟩
        | none => exact absurd ⟨r, hr, s, hs, hg⟩ hno)]
      rfl
  unfold createSummary
  rw [hex]
  rfl

/-- Two records (of oversamplers with `ss_params`) are in the same group if and only if data set, module, name and printed parameters of
oversampler and classifier, and the way of sampling within a simplex agree. -/
theorem C111_groups {r s : SumRow α β} {w v : α} (hr : r.ss = some (some w)) (hs : s.ss = some (some v)) :
    summaryKey r = summaryKey s ↔ r.db = s.db ∧ (r.osModule = s.osModule ∧ r.os = s.os ∧ r.osStr = s.osStr) ∧
      (r.clModule = s.clModule ∧ r.cl = s.cl ∧ r.clStr = s.clStr) ∧ w = v := by
  simp only [summaryKey, hr, hs, Option.join_some, Option.map_some, Option.some.injEq, SumRow.key, List.cons.injEq, and_true]
  tauto

/-- The order of the records (of the files in the cache) does not matter, as long as the records of a group have different fold numbers and the
same parameters. -/
theorem C111_order {argsort : List Nat → List Nat} {onEmpty : Res (List (SumOut α β))} {scores columns : List α} {f f' : SumFrame α β}
    (ha : ArgsortSorts argsort) (h : ∀ r ∈ f.rows, CompleteRow scores r) (hne : ∃ r ∈ f.rows, r.ss.isSome)
    (hc : ∀ c ∈ columns, c ∈ f.columns ∨ c ∈ scores) (hp : f'.rows.Perm f.rows) (hcol : f'.columns = f.columns)
    (hdist : ∀ k, ((f.rows.filter (fun r => summaryKey r = some k)).map (·.fold)).Nodup)
    (hpar : ∀ r ∈ f.rows, ∀ s ∈ f.rows, summaryKey r = summaryKey s → r.osParams = s.osParams ∧ r.clParams = s.clParams) :
    ∃ out out', createSummary argsort onEmpty scores columns f = .ok out ∧ createSummary argsort onEmpty scores columns f' = .ok out' ∧
      List.Forall₂ (fun o o' => o.key = o'.key ∧ o.osParams = o'.osParams ∧ o.clParams = o'.clParams ∧ ∀ c, o.cols.get c = o'.cols.get c)
        out out' := by
  obtain ⟨out, e, hs, hk, hr⟩ := C111_summary (onEmpty := onEmpty) ha h hne hc
  obtain ⟨out', e', hs', hk', hr'⟩ := C111_summary (f := f') (onEmpty := onEmpty) (columns := columns) ha
    (fun r hr => h r (hp.mem_iff.1 hr)) (by obtain ⟨r, hr, h⟩ := hne; exact ⟨r, hp.mem_iff.2 hr, h⟩) (by rw [hcol]; exact hc)
  refine ⟨out, out', e, e', ?_⟩
  have hkeys : out.map (·.key) = out'.map (·.key) := by
    apply List.Perm.eq_of_pairwise (le := (· < ·)) _ hs hs'
    · apply (List.perm_ext_iff_of_nodup (hs.imp (fun h => ne_of_lt h)) (hs'.imp (fun h => ne_of_lt h))).2
      intro k
      rw [hk, hk']
      constructor
      · rintro ⟨r, hr, h⟩; exact ⟨r, hp.mem_iff.2 hr, h⟩
      · rintro ⟨r, hr, h⟩; exact ⟨r, hp.mem_iff.1 hr, h⟩
    · intro a b _ _ h1 h2
      exact absurd h1 (lt_asymm h2)
  rw [List.forall₂_iff_get]
  have hlen : out.length = out'.length := by
    have := congrArg List.length hkeys
    simpa using this
  refine ⟨hlen, ?_⟩
  intro i h1 h2
  have hki : (out.get ⟨i, h1⟩).key = (out'.get ⟨i, h2⟩).key := by
    have := congrArg (fun l => l[i]?) hkeys
    simpa [h1, h2] using this
  generalize hoe : out.get ⟨i, h1⟩ = o at hki
  generalize hoe' : out'.get ⟨i, h2⟩ = o' at hki
  have ho : o ∈ out := by rw [← hoe]; exact List.get_mem _ _
  have ho' : o' ∈ out' := by rw [← hoe']; exact List.get_mem _ _
  obtain ⟨g, hg1, hg2, hg3, hg4, r, hr1, hr2, hr3⟩ := hr o ho
  obtain ⟨g', hg1', hg2', hg3', hg4', r', hr1', hr2', hr3'⟩ := hr' o' ho'
  have hgg : g = g' := by
    have hpp : g.Perm g' := hg1.trans (by rw [hki]; exact ((hp.symm.filter _).trans hg1'.symm))
    have hd : (g.map (·.fold)).Nodup := (hg1.map _).nodup_iff.2 (hdist _)
    have hd' : (g'.map (·.fold)).Nodup := (hpp.map _).nodup_iff.1 hd
    have strict : ∀ l : List (SumRow α β), (l.map (·.fold)).Nodup → l.Pairwise (fun r s => r.fold ≤ s.fold) →
        l.Pairwise (fun r s => r.fold < s.fold) := by
      intro l hnd hle
      rw [List.Nodup, List.pairwise_map] at hnd
      exact (hle.and hnd).imp (fun h => lt_of_le_of_ne h.1 h.2)
    apply List.Perm.eq_of_pairwise (le := fun r s : SumRow α β => r.fold < s.fold) _ (strict _ hd hg3) (strict _ hd' hg3') hpp
    intro a b _ _ h1 h2
    exact absurd h1 (lt_asymm h2)
  have hmr := List.mem_filter.1 (List.mem_of_mem_head? hr1)
  have hmr' := List.mem_filter.1 (List.mem_of_mem_head? hr1')
  have hpr := hpar r hmr.1 r' (hp.mem_iff.1 hmr'.1) (by
    rw [of_decide_eq_true hmr.2, of_decide_eq_true hmr'.2, hki])
  refine ⟨hki, by rw [hr2, hr2', hpr.1], by rw [hr3, hr3', hpr.2], ?_⟩
  intro c
  rw [hg4, hg4', hgg]

/-! ## Examples -/

/-- A record of oversampler `os` with `ss_params` (or without), for a fold, with `5` as the name of the score, `6` as a column. -/
def smRow (os : Nat) (ss : Option (Option Nat)) (fold score field : Nat) : SumRow Nat Nat where
  db := 0
  fold := fold
  osModule := 0
  os := os
  osParams := os
  osStr := os
  clModule := 0
  cl := 0
  clParams := 0
  clStr := 0
  ss := ss
  scores := [(5, score)]
  fields := fun c => if c = 6 then field else 0

/-- Positions in the order of the values, earlier ones first. -/
def stableArgsort (l : List Nat) : List Nat := (List.range l.length).insertionSort (fun a b => l.getD a 0 ≤ l.getD b 0)

theorem stableArgsort_ok : ArgsortSorts stableArgsort := by
  intro l
  refine ⟨List.perm_insertionSort _ _, ?_⟩
  have : (stableArgsort l).Pairwise (fun a b => l.getD a 0 ≤ l.getD b 0) := by
    have ht : Std.Total (fun a b : Nat => l.getD a 0 ≤ l.getD b 0) := ⟨fun a b => le_total _ _⟩
    have htr : IsTrans Nat (fun a b : Nat => l.getD a 0 ≤ l.getD b 0) := ⟨fun a b c h1 h2 => le_trans h1 h2⟩
    exact List.pairwise_insertionSort _ _
  apply this.imp
  intro a b h x y hx hy
  simpa [List.getD_eq_getElem?_getD, hx, hy] using h

def smFrame : SumFrame Nat Nat := { columns := [6], rows := [smRow 1 (some (some 9)) 1 71 81, smRow 2 none 0 72 82, smRow 1 (some (some 9)) 0 70 80] }

/-- The hypotheses of `C111_summary`, `C111_dropped` and `C111_order`. -/
example : ArgsortSorts stableArgsort ∧ (∀ r ∈ smFrame.rows, CompleteRow [5] r) ∧ (∃ r ∈ smFrame.rows, r.ss.isSome) ∧
    (∀ c ∈ [5, 6], c ∈ smFrame.columns ∨ c ∈ [5]) := by
  refine ⟨stableArgsort_ok, ?_, ⟨_, List.mem_cons_self .., rfl⟩, by decide⟩
  intro r hr
  simp only [smFrame, List.mem_cons, List.not_mem_nil, or_false] at hr
  rcases hr with rfl | rfl | rfl
  · exact ⟨fun s hs => by rw [List.mem_singleton.1 hs]; exact ⟨71, rfl⟩, by simp [smRow]⟩
  · exact ⟨fun s hs => by rw [List.mem_singleton.1 hs]; exact ⟨72, rfl⟩, by simp [smRow]⟩
  · exact ⟨fun s hs => by rw [List.mem_singleton.1 hs]; exact ⟨70, rfl⟩, by simp [smRow]⟩

/-- Of the results of two oversamplers, the one without `ss_params` is missing in the summary; the other one has its folds in order. -/
theorem C111_lost : (createSummary stableArgsort (.error .keyError) [5] [5, 6] smFrame).map (fun out => out.map (fun o => (o.key, o.cols))) =
    .ok [([0, 1, 0, 0, 1, 0, 0, 9], [(5, [70, 71]), (6, [80, 81])])] := by
  decide +kernel

/-- A record without a score that is wanted. -/
example : ∃ r ∈ smFrame.rows, ¬ CompleteRow [7] r :=
  ⟨_, List.mem_cons_self .., fun h => by obtain ⟨v, hv⟩ := h.1 7 (by simp); simp [smRow, Dict.get] at hv⟩

/-- With repeated foldings the order within a fold number is the order of the files. -/
theorem C111_repeats : ∃ r s : SumRow Nat Nat, r.fold = s.fold ∧
    (createSummary stableArgsort (.error .keyError) [5] [5] { columns := [], rows := [r, s] }).map (fun out => out.map (·.cols)) = .ok [[(5, [70, 71])]] ∧
    (createSummary stableArgsort (.error .keyError) [5] [5] { columns := [], rows := [s, r] }).map (fun out => out.map (·.cols)) = .ok [[(5, [71, 70])]] :=
  ⟨smRow 1 (some (some 9)) 0 70 80, smRow 1 (some (some 9)) 0 71 81, rfl, by decide +kernel, by decide +kernel⟩

/-- The default columns contain the score `auc` (here `5`); asking for other scores only is a `KeyError`. -/
example : (createSummary stableArgsort (.ok []) [] [5, 6] smFrame).map (fun out => out.map (fun o => (o.key, o.cols))) = .error .keyError := by
  decide +kernel

end Verif

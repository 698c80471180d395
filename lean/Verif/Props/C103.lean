import Verif.Model.Ipade
import Verif.Spec.Geometry
import Verif.Spec.Neighbors
import Verif.Props.C33
import Verif.Props.C40
import Verif.Props.C45
import Verif.Props.C63
import Verif.Props.C94
import Verif.Lemmas.Noise
import Verif.Lemmas.Unique
import Verif.Lemmas.Interp
import Mathlib.Tactic.Linarith
import Mathlib.Tactic.Ring
import Mathlib.Tactic.Positivity
import Mathlib.Tactic.FieldSimp

/-!
# C103: IPADE_ID
-/

namespace Verif

/-! ## Specification -/

/-- The values the area under a ROC curve can have with `p` rows of one and `q` rows of the other class: the share of the pairs in the right order,
ties counting one half. -/
def aucValues (p q : Nat) : List ℚ := (List.range (2 * p * q + 1)).map (fun (k : Nat) => (k : ℚ) / (2 * p * q))

/-- The values for all parts of a data set with `P` and `Q` rows. -/
def aucLevels (P Q : Nat) : List ℚ := (List.range (P + 1)).flatMap (fun p => (List.range (Q + 1)).flatMap (fun q => aucValues p q))

/-- What is assumed of the environment: the tree has a leaf for every row; the choices name elements; scores are numbers of the form above or NaN, or
`ValueError` is raised (as for an empty set or one without one of the classes). -/
structure IpEnv.OK (env : IpEnv) : Prop where
  leaf : ∀ X y, (env.leaf X y).length = X.length
  three : ∀ r it i m, 3 ≤ m → (env.three r it i m).1 < m ∧ (env.three r it i m).2.1 < m ∧ (env.three r it i m).2.2 < m
  one : ∀ r m, 0 < m → env.one r m < m
  auc : ∀ G yG V yV, env.auc G yG V yV = .error .valueError ∨ ∃ o, env.auc G yG V yV = .ok o ∧
    ∀ v, o = some v → ∃ l, v ∈ aucValues (yV.count l) (yV.length - yV.count l)
  acc : ∀ G yG V yV, env.acc G yG V yV = .error .valueError ∨ ∃ v, env.acc G yG V yV = .ok v

/-- `Z` is `X` with every column mapped to [0, 1] by its smallest and largest value; constant columns become zero. -/
def MinMaxScaled (d : Nat) (X Z : List Row) : Prop :=
  List.Forall₂ (fun x z => z.length = d ∧ ∀ k, k < d → ∃ lo hi, (∃ p ∈ X, p.getD k 0 = lo) ∧ (∃ p ∈ X, p.getD k 0 = hi) ∧
    (∀ p ∈ X, lo ≤ p.getD k 0 ∧ p.getD k 0 ≤ hi) ∧ z.getD k 0 * (hi - lo) = x.getD k 0 - lo ∧ (lo = hi → z.getD k 0 = 0)) X Z

/-- The labels of the rows in the leaf `l`. -/
def leafLabels (leaf : List Nat) (y : List Int) (l : Nat) : List Int :=
  ((List.range leaf.length).filter (fun i => decide (leaf[i]? = some l))).map (fun i => y.getD i 0)

/-- `labels` are the most frequent labels of the leaves, one for each leaf, in the order of the leaves. -/
def LeafModes (leaf : List Nat) (y labels : List Int) : Prop :=
  ∃ ls : List Nat, ls.Pairwise (· < ·) ∧ (∀ l, l ∈ ls ↔ l ∈ leaf) ∧ List.Forall₂ (fun l v => IsMode v (leafLabels leaf y l)) ls labels

/-! ## Results that are fine or a `ValueError` -/

/-- Either a result with `P`, or `ValueError`. -/
def OkOrValue {α : Type} (m : Res α) (P : α → Prop) : Prop := m = .error .valueError ∨ ∃ v, m = .ok v ∧ P v

theorem OkOrValue.bind {α β : Type} {m : Res α} {f : α → Res β} {P : α → Prop} {Q : β → Prop} (h : OkOrValue m P)
    (hf : ∀ v, m = .ok v → P v → OkOrValue (f v) Q) : OkOrValue (m >>= f) Q := by
  rcases h with h | ⟨v, h, hv⟩
  · left; rw [h]; rfl
  · rw [h, ok_bind]; exact hf v h hv

theorem OkOrValue.ok {α : Type} {P : α → Prop} {v : α} (h : P v) : OkOrValue (.ok v : Res α) P := Or.inr ⟨v, rfl, h⟩

theorem OkOrValue.imp {α : Type} {m : Res α} {P Q : α → Prop} (h : OkOrValue m P) (hf : ∀ v, m = .ok v → P v → Q v) : OkOrValue m Q := by
  rcases h with h | ⟨v, h, hv⟩
  · exact Or.inl h
  · exact Or.inr ⟨v, h, hf v h hv⟩

theorem okOrValue_mapM {α β : Type} {f : α → Res β} {P : β → Prop} {l : List α} (h : ∀ a ∈ l, OkOrValue (f a) P) :
    OkOrValue (l.mapM f) (fun r => r.length = l.length ∧ ∀ b ∈ r, P b) := by
  induction l with
  | nil => exact .ok ⟨rfl, by simp⟩
  | cons a l ih =>
    rw [List.mapM_cons]
    refine (h a (by simp)).bind (fun v _ hv => ?_)
    refine (ih (fun b hb => h b (by simp [hb]))).bind (fun r _ hr => ?_)
    refine .ok ⟨by simp [hr.1], ?_⟩
    intro b hb
    rcases List.mem_cons.1 hb with rfl | hb
    · exact hv
    · exact hr.2 b hb

/-! ## Rows -/

/-- A row of numbers from 0 to 1, zero in the columns `K`. -/
def UnitRow (d : Nat) (K : Nat → Prop) (g : Row) : Prop := g.length = d ∧ ∀ k, k < d → 0 ≤ g.getD k 0 ∧ g.getD k 0 ≤ 1 ∧ (K k → g.getD k 0 = 0)

/-- What is known of the data the search works on. -/
structure IpCtx.OK (c : IpCtx) (K : Nat → Prop) : Prop where
  len : c.X.length = c.y.length
  rows : ∀ r ∈ c.X, UnitRow c.d K r
  two : ∀ l ∈ c.y, l = c.minLabel ∨ l = c.majLabel
  min3 : 3 ≤ c.y.count c.minLabel
  maj3 : 3 ≤ c.y.count c.majLabel

theorem range_map_getD {α : Type} (l : List α) (e : α) : (List.range l.length).map (fun i => l.getD i e) = l := by
  apply List.ext_getElem (by simp)
  intro i h1 h2
  simp [List.getD_eq_getElem?_getD, h2]

theorem mem_ipWhere {y : List Int} {l : Int} {i : Nat} : i ∈ ipWhere y l ↔ y[i]? = some l := by
  unfold ipWhere npWhere
  simp only [List.length_map, List.mem_filter, List.mem_range, List.getD_eq_getElem?_getD, List.getElem?_map]
  constructor
  · rintro ⟨h1, h2⟩
    rw [List.getElem?_eq_getElem h1] at h2 ⊢
    simpa using h2
  · intro h
    have h1 := (List.getElem?_eq_some_iff.1 h).1
    exact ⟨h1, by rw [h]; simp⟩

theorem ipWhere_length (y : List Int) (l : Int) : (ipWhere y l).length = y.count l := by
  conv_rhs => rw [← range_map_getD y 0]
  rw [List.count, List.countP_map, List.countP_eq_length_filter]
  unfold ipWhere npWhere
  rw [List.length_map]
  congr 1
  apply List.filter_congr
  intro i hi
  rw [List.mem_range] at hi
  simp [List.getD_eq_getElem?_getD, hi, beq_eq_decide]

theorem ipIndices_ok {c : IpCtx} {l : Int} (h : l = c.minLabel ∨ l = c.majLabel) : ipIndices c l = .ok (ipWhere c.y l) := by
  unfold ipIndices
  rcases h with h | h
  · rw [if_pos h, h]
  · by_cases h' : l = c.minLabel
    · rw [if_pos h', h']
    · rw [if_neg h', if_pos h, h]

theorem ipClip01 (x : ℚ) : 0 ≤ npClip x 0 1 ∧ npClip x 0 1 ≤ 1 ∧ (x = 0 → npClip x 0 1 = 0) := by
  unfold npClip
  refine ⟨le_min (le_max_right _ _) zero_le_one, min_le_right _ _, ?_⟩
  rintro rfl
  simp

theorem ipElement_ok {env : IpEnv} (henv : env.OK) {par : IpParams} {c : IpCtx} {K : Nat → Prop} (hc : c.OK K) {l : Int}
    (hl : l = c.minLabel ∨ l = c.majLabel) {g : Row} (hg : UnitRow c.d K g) (r it i : Nat) :
    ∃ z, ipElement env par c r it i l g = .ok z ∧ UnitRow c.d K z := by
  have h3 : 3 ≤ (ipWhere c.y l).length := by
    rw [ipWhere_length]
    rcases hl with rfl | rfl
    · exact hc.min3
    · exact hc.maj3
  obtain ⟨t1, t2, t3⟩ := henv.three r it i _ h3
  have hrow : ∀ j, j < (ipWhere c.y l).length → ∃ (s : Nat) (p : Row), getRow (ipWhere c.y l) j = .ok s ∧ getRow c.X s = .ok p ∧ UnitRow c.d K p := by
    intro j hj
    have hm := mem_ipWhere.1 (List.getElem_mem hj)
    have hs := (List.getElem?_eq_some_iff.1 hm).1
    rw [← hc.len] at hs
    exact ⟨_, _, getRow_ok.2 (List.getElem?_eq_getElem hj), getRow_ok.2 (List.getElem?_eq_getElem hs), hc.rows _ (List.getElem_mem hs)⟩
  obtain ⟨s1, p, a1, a2, a3⟩ := hrow _ t1
  obtain ⟨s2, q, b1, b2, b3⟩ := hrow _ t2
  obtain ⟨s3, w, e1, e2, e3⟩ := hrow _ t3
  unfold ipElement
  rw [ipIndices_ok hl, ok_bind, if_neg (by omega)]
  simp only [a1, a2, b1, b2, e1, e2, ok_bind]
  refine ⟨_, rfl, by simp, ?_⟩
  intro k hk
  rw [List.getD_eq_getElem?_getD, List.getElem?_map, List.getElem?_range hk]
  simp only [Option.map_some, Option.getD_some]
  obtain ⟨c1, c2, c3⟩ := ipClip01 (g.getD k 0 + par.G * env.u r it i * (p.getD k 0 - g.getD k 0) + par.F * (q.getD k 0 - w.getD k 0))
  refine ⟨c1, c2, fun hK => c3 ?_⟩
  rw [(hg.2 k hk).2.2 hK, (a3.2 k hk).2.2 hK, (b3.2 k hk).2.2 hK, (e3.2 k hk).2.2 hK]
  ring

/-! ## Scores -/

/-- The prototypes: rows of numbers from 0 to 1, one for every label. -/
def Proto (c : IpCtx) (K : Nat → Prop) (yG : List Int) (G : List Row) : Prop := G.length = yG.length ∧ ∀ g ∈ G, UnitRow c.d K g

/-- The labels of the prototypes are those of the data and include the minority. -/
def ProtoLabels (c : IpCtx) (yG : List Int) : Prop := (∀ l ∈ yG, l = c.minLabel ∨ l = c.majLabel) ∧ c.minLabel ∈ yG

theorem ipAuc_ok {env : IpEnv} (henv : env.OK) {c : IpCtx} {G : List Row} {yG : List Int} (hy : c.minLabel ∈ yG) {val : List Nat}
    (hv : val.Sublist (List.range c.y.length)) :
    OkOrValue (ipAuc env c G yG val) (fun o => ∀ v, o = some v → v ∈ aucLevels c.y.length c.y.length) := by
  unfold ipAuc
  rw [if_pos hy]
  rcases henv.auc G yG (ipRows c val) (ipLabels c val) with h | ⟨o, h, ho⟩
  · exact Or.inl h
  · refine Or.inr ⟨o, h, fun v hv' => ?_⟩
    obtain ⟨l, hl⟩ := ho v hv'
    have h1 : (ipLabels c val).length ≤ c.y.length := by
      unfold ipLabels
      rw [List.length_map]
      simpa using hv.length_le
    have h2 := List.count_le_length (a := l) (l := ipLabels c val)
    unfold aucLevels
    rw [List.mem_flatMap]
    refine ⟨_, List.mem_range.2 (Nat.lt_succ_of_le (h2.trans h1)), ?_⟩
    rw [List.mem_flatMap]
    exact ⟨_, List.mem_range.2 (by omega), hl⟩

theorem ipDe_ok {env : IpEnv} (henv : env.OK) {par : IpParams} {c : IpCtx} {K : Nat → Prop} (hc : c.OK K) {yG : List Int} (hy : ProtoLabels c yG)
    {val : List Nat} (hv : val.Sublist (List.range c.y.length)) (r : Nat) {G : List Row} (hG : Proto c K yG G) :
    OkOrValue (ipDe env par c r G yG val) (fun G' => Proto c K yG G' ∧ ∃ a a', ipAuc env c G yG val = .ok a ∧ ipAuc env c G' yG val = .ok a' ∧
      (G' = G ∨ gtNan a' a = true)) := by
  have hgt : ∀ a b c : Option ℚ, gtNan a b = true → gtNan b c = true → gtNan a c = true := by
    intro a b c h1 h2
    cases a <;> cases b <;> cases c <;> simp [gtNan] at h1 h2 ⊢
    linarith
  unfold ipDe
  refine (ipAuc_ok henv hy.2 hv).bind (fun a ha _ => ?_)
  have step : ∀ (l : List Nat) (st : List Row × Option ℚ), Proto c K yG st.1 → ipAuc env c st.1 yG val = .ok st.2 → (st.1 = G ∨ gtNan st.2 a = true) →
      OkOrValue (l.foldlM (ipDeStep env par c r yG val) st) (fun st' => Proto c K yG st'.1 ∧ ipAuc env c st'.1 yG val = .ok st'.2 ∧
        (st'.1 = G ∨ gtNan st'.2 a = true)) := by
    intro l
    induction l with
    | nil => intro st h1 h2 h3; exact .ok ⟨h1, h2, h3⟩
    | cons it l ih =>
      intro st h1 h2 h3
      rw [List.foldlM_cons]
      refine OkOrValue.bind (P := fun st' => Proto c K yG st'.1 ∧ ipAuc env c st'.1 yG val = .ok st'.2 ∧ (st'.1 = G ∨ gtNan st'.2 a = true)) ?_
        (fun st' _ h => ih st' h.1 h.2.1 h.2.2)
      unfold ipDeStep
      refine (okOrValue_mapM (P := UnitRow c.d K) ?_).bind (fun hat _ hh => ?_)
      · rintro ⟨⟨g, l⟩, i⟩ he
        have hm := List.mem_of_getElem? (List.mem_zipIdx_iff_getElem?.1 he)
        obtain ⟨z, h1', h2'⟩ := ipElement_ok henv (par := par) hc (hy.1 l (List.of_mem_zip hm).2) (h1.2 g (List.of_mem_zip hm).1) r it i
        exact Or.inr ⟨z, h1', h2'⟩
      · refine (ipAuc_ok henv hy.2 hv).bind (fun a' ha' _ => ?_)
        refine .ok ?_
        have hp : Proto c K yG hat := by
          refine ⟨?_, hh.2⟩
          rw [hh.1, List.length_zipIdx, List.length_zip, h1.1, Nat.min_self]
        by_cases hb : gtNan a' st.2 = true
        · rw [if_pos hb]
          refine ⟨hp, ha', Or.inr ?_⟩
          rcases h3 with h3 | h3
          · rw [h3, ha] at h2
            injection h2 with h2
            rw [← h2] at hb
            exact hb
          · exact hgt _ _ _ hb h3
        · rw [if_neg hb]
          exact ⟨h1, h2, h3⟩
  refine (step _ (G, a) hG ha (Or.inl rfl)).bind (fun st _ h => ?_)
  exact .ok ⟨h.1, a, st.2, ha, h.2.1, h.2.2⟩

/-! ## The first phase -/

theorem ipLeaf_labels (c : IpCtx) (leaf : List Nat) (l : Nat) : ipLabels c (ipLeaf leaf l) = leafLabels leaf c.y l := by
  unfold ipLabels ipLeaf leafLabels npWhere
  congr 1
  rw [List.length_map]
  apply List.filter_congr
  intro i hi
  rw [List.mem_range] at hi
  simp [List.getD_eq_getElem?_getD, hi]

theorem ipLeaf_sublist (leaf : List Nat) (l : Nat) : (ipLeaf leaf l).Sublist (List.range leaf.length) := by
  unfold ipLeaf npWhere
  rw [List.length_map]
  exact List.filter_sublist

theorem ipLeaf_ne {leaf : List Nat} {l : Nat} (h : l ∈ leaf) : ipLeaf leaf l ≠ [] := by
  obtain ⟨i, hi, rfl⟩ := List.mem_iff_getElem.1 h
  apply List.ne_nil_of_mem (a := i)
  unfold ipLeaf npWhere
  simp [List.getD_eq_getElem?_getD, hi]

theorem ipValidation_sublist (leaf : List Nat) : (ipValidation leaf).Sublist (List.range leaf.length) := by
  unfold ipValidation npWhere
  rw [List.length_map]
  exact List.filter_sublist

theorem meanRow_unit {d : Nat} {K : Nat → Prop} {rows : List Row} (hne : rows ≠ []) (h : ∀ r ∈ rows, UnitRow d K r) : UnitRow d K (meanRow d rows) := by
  obtain ⟨h1, h2⟩ := meanRow_isMean hne (fun r hr => (h r hr).1)
  refine ⟨h1, fun k hk => ?_⟩
  have hn : (0 : ℚ) < rows.length := by exact_mod_cast List.length_pos_iff.2 hne
  have hs : ∀ rows : List Row, (∀ r ∈ rows, UnitRow d K r) → 0 ≤ (rows.map (fun r => r.getD k 0)).sum ∧ (rows.map (fun r => r.getD k 0)).sum ≤ rows.length ∧
      (K k → (rows.map (fun r => r.getD k 0)).sum = 0) := by
    intro rows
    induction rows with
    | nil => intro _; simp
    | cons r rows ih =>
      intro h
      obtain ⟨i1, i2, i3⟩ := ih (fun q hq => h q (by simp [hq]))
      obtain ⟨e1, e2, e3⟩ := (h r (by simp)).2 k hk
      simp only [List.map_cons, List.sum_cons, List.length_cons]
      push_cast
      exact ⟨by linarith, by linarith, fun hK => by rw [e3 hK, i3 hK]; ring⟩
  obtain ⟨e1, e2, e3⟩ := hs rows h
  have h2 := h2 k hk
  refine ⟨?_, ?_, fun hK => ?_⟩
  · by_contra hneg
    push Not at hneg
    have := mul_neg_of_neg_of_pos hneg hn
    linarith
  · by_contra hbig
    push Not at hbig
    have := mul_lt_mul_of_pos_right hbig hn
    linarith
  · rw [e3 hK] at h2
    rcases mul_eq_zero.1 h2 with h2 | h2
    · exact h2
    · exact absurd h2 (ne_of_gt hn)

theorem ipRows_mem {c : IpCtx} {val : List Nat} (hv : val.Sublist (List.range c.X.length)) {r : Row} (hr : r ∈ ipRows c val) : r ∈ c.X := by
  unfold ipRows at hr
  obtain ⟨i, hi, rfl⟩ := List.mem_map.1 hr
  have := List.mem_range.1 (hv.subset hi)
  simp [List.getD_eq_getElem?_getD, this]

theorem ipLabels_mem {c : IpCtx} {val : List Nat} (hv : val.Sublist (List.range c.y.length)) {l : Int} (hl : l ∈ ipLabels c val) : l ∈ c.y := by
  unfold ipLabels at hl
  obtain ⟨i, hi, rfl⟩ := List.mem_map.1 hl
  have := List.mem_range.1 (hv.subset hi)
  simp [List.getD_eq_getElem?_getD, this]

theorem ipInit_ok {c : IpCtx} {K : Nat → Prop} (hc : c.OK K) {leaf : List Nat} (hleaf : leaf.length = c.X.length) :
    ∃ gs, ipInit c leaf = .ok gs ∧ LeafModes leaf c.y (gs.map Prod.snd) ∧ (∀ g ∈ gs.map Prod.fst, UnitRow c.d K g) ∧
      ∀ l ∈ gs.map Prod.snd, l ∈ c.y := by
  have each : ∀ l ∈ npUnique leaf, ∃ g : Row × Int, (do
      let m ← pyMode (ipLabels c (ipLeaf leaf l))
      return (meanRow c.d (ipRows c (ipLeaf leaf l)), m) : Res (Row × Int)) = .ok g ∧ IsMode g.2 (leafLabels leaf c.y l) ∧ UnitRow c.d K g.1 ∧ g.2 ∈ c.y := by
    intro l hl
    have hne := ipLeaf_ne (mem_npUnique.1 hl)
    have hsub := ipLeaf_sublist leaf l
    rw [hleaf] at hsub
    obtain ⟨m, hm, hmode⟩ := pyMode_isMode (l := ipLabels c (ipLeaf leaf l)) (by unfold ipLabels; simpa using hne)
    refine ⟨(meanRow c.d (ipRows c (ipLeaf leaf l)), m), by rw [hm]; rfl, ?_, ?_, ?_⟩
    · rw [← ipLeaf_labels]; exact hmode
    · exact meanRow_unit (by unfold ipRows; simpa using hne) (fun r hr => hc.rows r (ipRows_mem hsub hr))
    · exact ipLabels_mem (by rw [← hc.len]; exact hsub) hmode.1
  obtain ⟨gs, hgs⟩ := mapM_exists_ok (fun l hl => ⟨_, (each l hl).choose_spec.1⟩)
  have hF := mapM_ok_iff.1 hgs
  have hF' : List.Forall₂ (fun l (g : Row × Int) => IsMode g.2 (leafLabels leaf c.y l) ∧ UnitRow c.d K g.1 ∧ g.2 ∈ c.y) (npUnique leaf) gs := by
    rw [List.forall₂_iff_get] at hF ⊢
    refine ⟨hF.1, fun i h1 h2 => ?_⟩
    obtain ⟨g, e1, e2⟩ := each _ (List.get_mem (npUnique leaf) ⟨i, h1⟩)
    have := hF.2 i h1 h2
    rw [e1] at this
    injection this with this
    rw [← this]
    exact e2
  refine ⟨gs, hgs, ⟨npUnique leaf, npUnique_sorted leaf, fun l => mem_npUnique, ?_⟩, ?_, ?_⟩
  · rw [List.forall₂_map_right_iff]
    exact hF'.imp (fun _ _ h => h.1)
  · intro g hg
    obtain ⟨e, he, rfl⟩ := List.mem_map.1 hg
    obtain ⟨l, _, h⟩ := forall₂_mem_right hF' he
    exact h.2.1
  · intro v hv
    obtain ⟨e, he, rfl⟩ := List.mem_map.1 hv
    obtain ⟨l, _, h⟩ := forall₂_mem_right hF' he
    exact h.2.2

theorem ipCheck_ok {c : IpCtx} {val : List Nat} {yG : List Int} : OkOrValue (ipCheck c val yG) (fun _ => (npUnique (ipLabels c val)).length ≠ 1 ∧
    (npUnique yG).length ≠ 1) := by
  unfold ipCheck
  by_cases h1 : (npUnique (ipLabels c val)).length = 1
  · rw [if_pos h1]; exact Or.inl rfl
  · rw [if_neg h1]
    by_cases h2 : (npUnique yG).length = 1
    · rw [if_pos h2]; exact Or.inl rfl
    · rw [if_neg h2]; exact .ok ⟨h1, h2⟩

/-- Two labels at most, at least one, not exactly one: both. -/
theorem both_labels {a b : Int} {l : List Int} (h : ∀ v ∈ l, v = a ∨ v = b) (hne : l ≠ []) (h1 : (npUnique l).length ≠ 1) : a ∈ l := by
  by_contra ha
  apply h1
  obtain ⟨v, hv⟩ := List.exists_mem_of_ne_nil _ hne
  have hall : ∀ v ∈ npUnique l, v = b := by
    intro v hv
    rw [mem_npUnique] at hv
    rcases h v hv with rfl | h
    · exact absurd hv ha
    · exact h
  have hn := npUnique_nodup l
  have hpos : 0 < (npUnique l).length := List.length_pos_of_mem (mem_npUnique.2 hv)
  rcases hl : npUnique l with _ | ⟨x, _ | ⟨z, t⟩⟩
  · rw [hl] at hpos; simp at hpos
  · rfl
  · rw [hl] at hall hn
    have e1 := hall x (by simp)
    have e2 := hall z (by simp)
    rw [e1, e2] at hn
    simp at hn

theorem ipPhase1_ok {env : IpEnv} (henv : env.OK) {par : IpParams} {c : IpCtx} {K : Nat → Prop} (hc : c.OK K) :
    OkOrValue (ipPhase1 env par c) (fun p => LeafModes (env.leaf c.X c.y) c.y p.2.2.2 ∧ ProtoLabels c p.2.2.2 ∧ Proto c K p.2.2.2 p.2.2.1 ∧
      p.2.1.Sublist (List.range c.y.length) ∧ (∀ v, p.1 = some v → v ∈ aucLevels c.y.length c.y.length) ∧
      ipAuc env c p.2.2.1 p.2.2.2 p.2.1 = .ok p.1) := by
  obtain ⟨gs, h1, h2, h3, h4⟩ := ipInit_ok hc (henv.leaf c.X c.y)
  have hsub := ipValidation_sublist (env.leaf c.X c.y)
  rw [henv.leaf, hc.len] at hsub
  unfold ipPhase1
  simp only [h1, ok_bind]
  refine ipCheck_ok.bind (fun _ _ hck => ?_)
  have hyp : 0 < c.X.length := by
    have := hc.min3
    have := List.count_le_length (a := c.minLabel) (l := c.y)
    have := hc.len
    omega
  have hgs : gs.map Prod.snd ≠ [] := by
    obtain ⟨ls, _, e2, e3⟩ := h2
    intro h0
    rw [h0] at e3
    have : ls = [] := by cases e3; rfl
    have hl : (env.leaf c.X c.y)[0]'(by rw [henv.leaf]; exact hyp) ∈ ls := (e2 _).2 (List.getElem_mem _)
    rw [this] at hl
    simp at hl
  have hy : ProtoLabels c (gs.map Prod.snd) := ⟨fun l hl => hc.two l (h4 l hl), both_labels (fun l hl => hc.two l (h4 l hl)) hgs hck.2⟩
  refine (ipDe_ok henv hc hy hsub 0 ⟨by simp, h3⟩).bind (fun G _ hG => ?_)
  refine (ipAuc_ok henv hy.2 hsub).bind (fun a ha hl => ?_)
  exact .ok ⟨h2, hy, hG.1, hsub, hl, ha⟩

/-! ## The second phase -/

/-- What holds in every state of the second phase. -/
structure IpInv (env : IpEnv) (par : IpParams) (c : IpCtx) (K : Nat → Prop) (yG : List Int) (a0 : Option ℚ) (st : IpState) : Prop where
  G : Proto c K yG st.G
  val : st.val.Sublist (List.range c.y.length)
  auc : ipAuc env c st.G yG st.val = .ok st.auc
  level : ∀ v, st.auc = some v → v ∈ aucLevels c.y.length c.y.length
  n : st.nMin ≤ par.OT
  trial : 0 < st.nMin → Proto c K yG st.trial ∧ st.trialVal.Sublist (List.range c.y.length)
  better : st.auc = a0 ∨ gtNan st.auc a0 = true

/-- The measure that decreases. -/
def ipRank (par : IpParams) (L : List ℚ) (st : IpState) : Nat :=
  L.countP (fun v => gtNan (some v) st.auc) * (par.OT + 3) + (if st.regMin then par.OT + 1 - st.nMin else 0) + if st.regMaj then 1 else 0

theorem ipTarget_ok {env : IpEnv} (henv : env.OK) {c : IpCtx} {yG : List Int} {st : IpState} (h : ipGoes st = true) :
    OkOrValue (ipTarget env c yG st) (fun b => (b = true → st.regMin = true) ∧ (b = false → st.regMaj = true)) := by
  have hacc : ∀ l, OkOrValue (ipAcc env c st.G yG st.val l) (fun _ => True) := by
    intro l
    unfold ipAcc
    rcases henv.acc st.G yG (ipRows c (st.val.filter (fun i => decide (c.y.getD i 0 = l)))) (ipLabels c (st.val.filter (fun i => decide (c.y.getD i 0 = l))))
      with h | ⟨v, h⟩
    · exact Or.inl h
    · exact Or.inr ⟨v, h, trivial⟩
  unfold ipGoes at h
  unfold ipTarget
  cases h1 : st.regMin <;> cases h2 : st.regMaj
  · rw [h1, h2] at h; simp at h
  · exact (hacc _).bind (fun _ _ _ => .ok (by simp))
  · exact (hacc _).bind (fun _ _ _ => .ok (by simp))
  · exact (hacc _).bind (fun _ _ _ => (hacc _).bind (fun _ _ _ => .ok (by simp)))

theorem ipTrial_ok {env : IpEnv} (henv : env.OK) {par : IpParams} {c : IpCtx} {K : Nat → Prop} (hc : c.OK K) {yG : List Int} (hy : ProtoLabels c yG)
    {a0 : Option ℚ} {st : IpState} (hst : IpInv env par c K yG a0 st) (r : Nat) (b : Bool) :
    OkOrValue (ipTrial env par c yG r b st) (fun t => Proto c K yG t.1 ∧ t.2.Sublist (List.range c.y.length)) := by
  unfold ipTrial
  by_cases h : b = true ∧ 0 < st.nMin
  · rw [if_pos h]
    obtain ⟨e1, e2⟩ := hst.trial h.2
    exact (ipDe_ok henv hc hy hst.val r e1).bind (fun G _ hG => .ok ⟨hG.1, e2⟩)
  · rw [if_neg h]
    obtain ⟨l, hl⟩ : ∃ l : Int, l = (if b then c.minLabel else c.majLabel) := ⟨_, rfl⟩
    simp only [← hl]
    have hpos : 0 < (ipWhere c.y l).length := by
      rw [ipWhere_length, hl]
      have := hc.min3
      have := hc.maj3
      split <;> omega
    have hone := henv.one r _ hpos
    rw [getRow_ok.2 (List.getElem?_eq_getElem hone), ok_bind]
    have hsub := (List.filter_sublist (l := st.val) (p := fun j => decide (j ≠ (ipWhere c.y l)[env.one r (ipWhere c.y l).length]))).trans hst.val
    exact (ipDe_ok henv hc hy hsub r hst.G).bind (fun G _ hG => .ok ⟨hG.1, hsub⟩)

theorem ipStep_ok {env : IpEnv} (henv : env.OK) {par : IpParams} {c : IpCtx} {K : Nat → Prop} (hc : c.OK K) {yG : List Int} (hy : ProtoLabels c yG)
    {a0 : Option ℚ} {st : IpState} (hst : IpInv env par c K yG a0 st) (hg : ipGoes st = true) (r : Nat) :
    OkOrValue (ipStep env par c yG r st) (fun st' => IpInv env par c K yG a0 st' ∧
      ipRank par (aucLevels c.y.length c.y.length) st' < ipRank par (aucLevels c.y.length c.y.length) st) := by
  unfold ipStep
  refine (ipTarget_ok henv hg).bind (fun b _ hb => ?_)
  refine (ipTrial_ok henv hc hy hst r b).bind (fun t _ ht => ?_)
  refine (ipAuc_ok henv hy.2 ht.2).bind (fun a ha hlev => ?_)
  by_cases hgt : gtNan a st.auc = true
  · rw [if_pos hgt]
    refine ipCheck_ok.bind (fun _ _ _ => ?_)
    refine .ok ⟨⟨ht.1, ht.2, ha, hlev, ?_, ?_, ?_⟩, ?_⟩
    · simp only
      split
      · omega
      · exact hst.n
    · intro _; exact ht
    · right
      rcases hst.better with h | h
      · rw [← h]; exact hgt
      · exact gtNan_trans hgt h
    · have hc1 : (aucLevels c.y.length c.y.length).countP (fun v => gtNan (some v) a) <
          (aucLevels c.y.length c.y.length).countP (fun v => gtNan (some v) st.auc) := by
        obtain ⟨v, hv⟩ : ∃ v, a = some v := by
          cases a with
          | none => simp [gtNan] at hgt
          | some v => exact ⟨v, rfl⟩
        have hmem := hlev v hv
        obtain ⟨l1, l2, hl⟩ := List.append_of_mem hmem
        have hmono : ∀ l : List ℚ, l.countP (fun v => gtNan (some v) a) ≤ l.countP (fun v => gtNan (some v) st.auc) :=
          fun l => List.countP_mono_left (fun w _ h => gtNan_trans h hgt)
        rw [hl, List.countP_append, List.countP_append, List.countP_cons, List.countP_cons]
        have h1 := hmono l1
        have h2 := hmono l2
        rw [if_neg (by rw [hv]; simp [gtNan]), if_pos (by rw [← hv]; exact hgt)]
        omega
      unfold ipRank
      have hmul : (aucLevels c.y.length c.y.length).countP (fun v => gtNan (some v) a) * (par.OT + 3) + (par.OT + 3) ≤
          (aucLevels c.y.length c.y.length).countP (fun v => gtNan (some v) st.auc) * (par.OT + 3) := by
        rw [← Nat.succ_mul]
        exact Nat.mul_le_mul_right _ hc1
      have e1 : ∀ (b : Bool) (n : Nat), (if b then par.OT + 1 - n else 0) ≤ par.OT + 1 := by intro b n; split <;> omega
      have e2 : ∀ b : Bool, (if b then 1 else 0) ≤ 1 := by intro b; split <;> omega
      have e3 := e1 st.regMin (if b then 0 else st.nMin)
      have e4 := e2 st.regMaj
      simp only
      omega
  · rw [if_neg hgt]
    by_cases h2 : b = true ∧ st.nMin < par.OT
    · rw [if_pos h2]
      refine .ok ⟨⟨hst.G, hst.val, hst.auc, hst.level, h2.2, fun _ => ht, hst.better⟩, ?_⟩
      unfold ipRank
      simp only [hb.1 h2.1, if_true]
      omega
    · rw [if_neg h2]
      cases hbb : b with
      | true =>
        rw [if_pos rfl]
        refine .ok ⟨⟨hst.G, hst.val, hst.auc, hst.level, hst.n, fun _ => ht, hst.better⟩, ?_⟩
        unfold ipRank
        have := hst.n
        rw [hb.1 hbb]
        simp only [if_true, Bool.false_eq_true, if_false]
        omega
      | false =>
        rw [if_neg (by simp)]
        refine .ok ⟨⟨hst.G, hst.val, hst.auc, hst.level, hst.n, fun _ => ht, hst.better⟩, ?_⟩
        unfold ipRank
        rw [hb.2 hbb]
        simp only [if_true, Bool.false_eq_true, if_false]
        omega

theorem ipLoop_ok {env : IpEnv} (henv : env.OK) {par : IpParams} {c : IpCtx} {K : Nat → Prop} (hc : c.OK K) {yG : List Int} (hy : ProtoLabels c yG)
    {a0 : Option ℚ} : ∀ (fuel r : Nat) (st : IpState), IpInv env par c K yG a0 st → ipRank par (aucLevels c.y.length c.y.length) st ≤ fuel →
      OkOrValue (ipLoop env par c yG fuel r st) (fun st' => IpInv env par c K yG a0 st' ∧ ipGoes st' = false) := by
  intro fuel
  induction fuel with
  | zero =>
    intro r st hst hr
    unfold ipLoop
    cases hg : ipGoes st with
    | false => exact .ok ⟨hst, hg⟩
    | true =>
      rcases ipStep_ok henv hc hy hst hg r with _ | ⟨_, _, _, h⟩
      · exfalso
        unfold ipRank at hr
        have hn := hst.n
        unfold ipGoes at hg
        simp only [Bool.and_eq_true, Bool.or_eq_true] at hg
        rcases hg.2 with h | h
        · rw [h] at hr; simp at hr; omega
        · rw [h] at hr; simp at hr
      · omega
  | succ fuel ih =>
    intro r st hst hr
    unfold ipLoop
    cases hg : ipGoes st with
    | false => exact .ok ⟨hst, hg⟩
    | true =>
      rw [if_pos rfl]
      exact (ipStep_ok henv hc hy hst hg r).bind (fun st' _ h => ih (r + 1) st' h.1 (by omega))

/-! ## Scaling -/

theorem ipLow_getD {d k : Nat} (X : List Row) (hk : k < d) : (ipLow d X).getD k 0 = frstMin X k := by
  simp [ipLow, List.getD_eq_getElem?_getD, hk]

theorem ipSpan_getD {d k : Nat} (X : List Row) (hk : k < d) : (ipSpan d X).getD k 0 = frstRange X k := by
  simp [ipSpan, List.getD_eq_getElem?_getD, hk]

/-- The smallest and the largest value of a column, and the width the scaler uses. -/
theorem column_ends {X : List Row} (hX : X ≠ []) (k : Nat) : ∃ hi, (∃ p ∈ X, p.getD k 0 = frstMin X k) ∧ (∃ p ∈ X, p.getD k 0 = hi) ∧
    (∀ p ∈ X, frstMin X k ≤ p.getD k 0 ∧ p.getD k 0 ≤ hi) ∧ frstMin X k ≤ hi ∧ (frstMin X k = hi → frstRange X k = 1) ∧
    (frstMin X k ≠ hi → frstRange X k = hi - frstMin X k) := by
  have hne : X.map (fun r => r.getD k 0) ≠ [] := by simpa using hX
  obtain ⟨a1, a2⟩ := minL_spec hne
  obtain ⟨b1, b2⟩ := maxL_spec hne
  refine ⟨maxL (X.map (fun r => r.getD k 0)), ?_, ?_, ?_, a2 _ b1, ?_, ?_⟩
  · obtain ⟨p, hp, e⟩ := List.mem_map.1 a1; exact ⟨p, hp, e⟩
  · obtain ⟨p, hp, e⟩ := List.mem_map.1 b1; exact ⟨p, hp, e⟩
  · intro p hp
    exact ⟨a2 _ (List.mem_map.2 ⟨p, hp, rfl⟩), b2 _ (List.mem_map.2 ⟨p, hp, rfl⟩)⟩
  · intro h
    unfold frstMin at h
    unfold frstRange
    simp only
    rw [if_pos (by linarith)]
  · intro h
    unfold frstMin at h ⊢
    unfold frstRange
    simp only
    rw [if_neg]
    intro h0
    exact h (by linarith)

/-- The columns with one value only. -/
def ConstCol (X : List Row) (k : Nat) : Prop := ∀ p ∈ X, ∀ q ∈ X, p.getD k 0 = q.getD k 0

theorem scaled_ok {d : Nat} {X : List Row} (hd : ∀ r ∈ X, r.length = d) :
    MinMaxScaled d X (X.map (scaleRow (ipLow d X) (ipSpan d X))) ∧ ∀ z ∈ X.map (scaleRow (ipLow d X) (ipSpan d X)), UnitRow d (ConstCol X) z := by
  have hl : (ipLow d X).length = d := by simp [ipLow]
  have hs : (ipSpan d X).length = d := by simp [ipSpan]
  have key : ∀ x ∈ X, ∀ k, k < d → ∃ hi, (∃ p ∈ X, p.getD k 0 = frstMin X k) ∧ (∃ p ∈ X, p.getD k 0 = hi) ∧
      (∀ p ∈ X, frstMin X k ≤ p.getD k 0 ∧ p.getD k 0 ≤ hi) ∧
      (scaleRow (ipLow d X) (ipSpan d X) x).getD k 0 * (hi - frstMin X k) = x.getD k 0 - frstMin X k ∧
      (frstMin X k = hi → (scaleRow (ipLow d X) (ipSpan d X) x).getD k 0 = 0) ∧ 0 ≤ (scaleRow (ipLow d X) (ipSpan d X) x).getD k 0 ∧
      (scaleRow (ipLow d X) (ipSpan d X) x).getD k 0 ≤ 1 := by
    intro x hx k hk
    obtain ⟨hi, h1, h2, h3, h4, h5, h6⟩ := column_ends (List.ne_nil_of_mem hx) k
    obtain ⟨x1, x2⟩ := h3 x hx
    have e := scaleRow_getD hl hs (hd x hx) hk
    rw [ipLow_getD X hk, ipSpan_getD X hk] at e
    rw [e]
    refine ⟨hi, h1, h2, h3, ?_⟩
    by_cases hc : frstMin X k = hi
    · rw [h5 hc]
      have : x.getD k 0 = frstMin X k := by linarith
      rw [this]
      simp
    · rw [h6 hc]
      have hpos : 0 < hi - frstMin X k := by
        rcases lt_or_eq_of_le h4 with h | h
        · linarith
        · exact absurd h hc
      refine ⟨div_mul_cancel₀ _ (ne_of_gt hpos), fun h => absurd h hc, ?_, ?_⟩
      · exact div_nonneg (by linarith) (le_of_lt hpos)
      · rw [div_le_one hpos]; linarith
  constructor
  · unfold MinMaxScaled
    rw [List.forall₂_map_right_iff, List.forall₂_same]
    intro x hx
    refine ⟨scaleRow_length hl hs (hd x hx), fun k hk => ?_⟩
    obtain ⟨hi, h1, h2, h3, h4, h5, _⟩ := key x hx k hk
    exact ⟨_, hi, h1, h2, h3, h4, h5⟩
  · intro z hz
    obtain ⟨x, hx, rfl⟩ := List.mem_map.1 hz
    refine ⟨scaleRow_length hl hs (hd x hx), fun k hk => ?_⟩
    obtain ⟨hi, ⟨p, hp, h1⟩, ⟨q, hq, h2⟩, h3, h4, h5, h6, h7⟩ := key x hx k hk
    exact ⟨h6, h7, fun hc => h5 (by rw [← h1, ← h2]; exact hc p hp q hq)⟩

theorem unscaled_inBox {d : Nat} {X : List Row} (hX : X ≠ []) {g : Row} (hg : UnitRow d (ConstCol X) g) :
    InBox d X (unscaleRow (ipLow d X) (ipSpan d X) g) := by
  have hl : (ipLow d X).length = d := by simp [ipLow]
  have hs : (ipSpan d X).length = d := by simp [ipSpan]
  refine ⟨unscaleRow_length hl hs hg.1, fun k hk => ?_⟩
  obtain ⟨hi, ⟨p, hp, h1⟩, ⟨q, hq, h2⟩, h3, h4, h5, h6⟩ := column_ends hX k
  obtain ⟨g1, g2, g3⟩ := hg.2 k hk
  rw [unscaleRow_getD hl hs hg.1 hk, ipLow_getD X hk, ipSpan_getD X hk]
  by_cases hc : frstMin X k = hi
  · have : g.getD k 0 = 0 := by
      apply g3
      intro u hu v hv
      have e1 := h3 u hu
      have e2 := h3 v hv
      linarith
    rw [this]
    exact ⟨⟨p, hp, by linarith⟩, ⟨p, hp, by linarith⟩⟩
  · rw [h6 hc]
    have hw : 0 ≤ hi - frstMin X k := by linarith
    refine ⟨⟨p, hp, ?_⟩, ⟨q, hq, ?_⟩⟩
    · rw [h1]; have := mul_nonneg g1 hw; linarith
    · rw [h2]; have := mul_le_mul_of_nonneg_right g2 hw; linarith

/-! ## The theorems -/

/-- A number of iterations of the `while` loop that suffices for `n` rows. -/
def ipFuel (par : IpParams) (n : Nat) : Nat := (aucLevels n n).length * (par.OT + 3) + par.OT + 2

/-- The data the search of IPADE_ID works on. -/
def ipCtx (d : Nat) (X : List Row) (y : List Int) (a b : Int) : IpCtx := ⟨d, X.map (scaleRow (ipLow d X) (ipSpan d X)), y, a, b⟩

theorem ipCtx_ok {d : Nat} {X : List Row} {y : List Int} {a b : Int} (hwf : WF d X y) (hmin : IsMinority y a b) (h4 : 4 < y.count a) :
    (ipCtx d X y a b).OK (ConstCol X) where
  len := by simp [ipCtx, hwf.1]
  rows := (scaled_ok hwf.2).2
  two := hmin.2.2.1
  min3 := by show 3 ≤ y.count a; omega
  maj3 := by
    show 3 ≤ y.count b
    have := hmin.2.2.2
    omega

theorem ipSearch_ok {env : IpEnv} (henv : env.OK) {par : IpParams} {c : IpCtx} {K : Nat → Prop} (hc : c.OK K) (hf : ipFuel par c.y.length ≤ par.fuel) :
    OkOrValue (ipSearch env par c) (fun r => LeafModes (env.leaf c.X c.y) c.y r.2 ∧ Proto c K r.2 r.1 ∧
      ∃ G1 a1 val1 a val, ipPhase1 env par c = .ok (a1, val1, G1, r.2) ∧ ipAuc env c r.1 r.2 val = .ok a ∧ (a = a1 ∨ gtNan a a1 = true)) := by
  unfold ipSearch
  refine (ipPhase1_ok henv hc).bind (fun p hp h => ?_)
  obtain ⟨h1, h2, h3, h4, h5, h6⟩ := h
  have hinv : IpInv env par c K p.2.2.2 p.1
      { G := p.2.2.1, auc := p.1, val := p.2.1, regMin := true, regMaj := true, nMin := 0, trial := [], trialVal := [] } :=
    ⟨h3, h4, h6, h5, Nat.zero_le _, fun h => absurd h (by simp), Or.inl rfl⟩
  refine (ipLoop_ok henv hc h2 par.fuel 1 _ hinv ?_).bind (fun st _ hst => ?_)
  · refine le_trans ?_ hf
    unfold ipRank ipFuel
    have : (aucLevels c.y.length c.y.length).countP (fun v => gtNan (some v) p.1) ≤ (aucLevels c.y.length c.y.length).length := List.countP_le_length
    have := Nat.mul_le_mul_right (par.OT + 3) this
    simp only [if_true]
    omega
  · exact .ok ⟨h1, hst.1.G, p.2.2.1, p.1, p.2.1, st.auc, st.val, hp, hst.1.auc, hst.1.better⟩

/-- **IPADE_ID.** Sampling ends and returns either the data scaled to [0, 1], or exactly one row for every leaf of the decision tree fitted to the scaled
data, with the most frequent label of the leaf, inside the box of the data: the second phase never adds a row. -/
theorem C103_ipade {env : IpEnv} (henv : env.OK) {par : IpParams} {d : Nat} {X : List Row} {y : List Int} {a b : Int} (hwf : WF d X y)
    (hmin : IsMinority y a b) (h4 : 4 < y.count a) (hf : ipFuel par y.length ≤ par.fuel) :
    ∃ (Z X' : List Row) (y' : List Int), MinMaxScaled d X Z ∧ sample ipadeChecks d (ipadeAlg env par d) X y = .ok (X', y') ∧
      ((X' = Z ∧ y' = y) ∨ (LeafModes (env.leaf Z y) y y' ∧ X'.length = y'.length ∧ ∀ r ∈ X', InBox d X r)) := by
  obtain ⟨s, hs, rfl, rfl⟩ := stats_of_isMinority hmin
  have hX : X ≠ [] := by
    intro h0
    have := hwf.1
    rw [h0] at this
    have hy : y = [] := List.length_eq_zero_iff.1 (by simpa using this.symm)
    rw [hy] at h4
    simp at h4
  refine ⟨X.map (scaleRow (ipLow d X) (ipSpan d X)), ?_⟩
  have hsam : sample ipadeChecks d (ipadeAlg env par d) X y = ipadeAlg env par d s X y := by
    have := sample_amsco (d := d) (alg := ipadeAlg env par d) (X := X) hs
    rw [if_neg (by omega)] at this
    exact this
  rw [hsam]
  unfold ipadeAlg
  simp only
  rcases ipSearch_ok (par := par) henv (ipCtx_ok hwf hmin h4) hf with h | ⟨r, h, h1, h2, _⟩
  · unfold ipCtx at h
    rw [h]
    exact ⟨_, _, (scaled_ok hwf.2).1, rfl, Or.inl ⟨rfl, rfl⟩⟩
  · unfold ipCtx at h
    rw [h]
    refine ⟨_, _, (scaled_ok hwf.2).1, rfl, Or.inr ⟨h1, by rw [List.length_map]; exact h2.1, ?_⟩⟩
    intro z hz
    obtain ⟨g, hg, rfl⟩ := List.mem_map.1 hz
    exact unscaled_inBox hX (h2.2 g hg)

/-- Scaling has one result. -/
theorem MinMaxScaled.unique {d : Nat} {X Z Z' : List Row} (h : MinMaxScaled d X Z) (h' : MinMaxScaled d X Z') : Z = Z' := by
  have hl := h.length_eq
  have hl' := h'.length_eq
  apply List.ext_getElem (by omega)
  intro i h1 h2
  unfold MinMaxScaled at h h'
  rw [List.forall₂_iff_get] at h h'
  obtain ⟨e1, e2⟩ := h.2 i (by omega) h1
  obtain ⟨f1, f2⟩ := h'.2 i (by omega) h2
  simp only [List.get_eq_getElem] at e1 e2 f1 f2
  apply row_ext e1 f1
  intro k hk
  obtain ⟨lo, hi, ⟨p, hp, p1⟩, ⟨q, hq, q1⟩, a1, a2, a3⟩ := e2 k hk
  obtain ⟨lo', hi', ⟨p', hp', p1'⟩, ⟨q', hq', q1'⟩, b1, b2, b3⟩ := f2 k hk
  have hlo : lo = lo' := by
    have u := (a1 p' hp').1
    have v := (b1 p hp).1
    linarith
  have hhi : hi = hi' := by
    have u := (a1 q' hq').2
    have v := (b1 q hq).2
    linarith
  by_cases hc : lo = hi
  · rw [a3 hc, b3 (by rw [← hlo, ← hhi]; exact hc)]
  · rw [← hlo, ← hhi, ← a2] at b2
    have hne : hi - lo ≠ 0 := fun h => hc (by linarith)
    exact (mul_right_cancel₀ hne b2).symm

/-- The row `i` is alone in its leaf. -/
def AloneIn (leaf : List Nat) (i : Nat) : Prop := ∀ j : Nat, leaf[j]? = leaf[i]? → j = i

theorem mem_ipLeaf {leaf : List Nat} {l j : Nat} : j ∈ ipLeaf leaf l ↔ leaf[j]? = some l := by
  unfold ipLeaf npWhere
  simp only [List.length_map, List.mem_filter, List.mem_range, List.getD_eq_getElem?_getD, List.getElem?_map]
  constructor
  · rintro ⟨h1, h2⟩
    rw [List.getElem?_eq_getElem h1] at h2 ⊢
    simpa using h2
  · intro h
    exact ⟨(List.getElem?_eq_some_iff.1 h).1, by rw [h]; simp⟩

theorem mem_ipValidation {leaf : List Nat} {i : Nat} : i ∈ ipValidation leaf ↔ i < leaf.length ∧ ¬ AloneIn leaf i := by
  have hnd : ∀ l, (ipLeaf leaf l).Nodup := fun l => (ipLeaf_sublist leaf l).nodup List.nodup_range
  unfold ipValidation npWhere
  simp only [List.length_map, List.mem_filter, List.mem_range, List.getD_eq_getElem?_getD, List.getElem?_map]
  refine and_congr_right (fun hi => ?_)
  have hm : i ∈ ipLeaf leaf leaf[i] := mem_ipLeaf.2 (List.getElem?_eq_getElem hi)
  rw [List.getElem?_eq_getElem hi]
  simp only [Option.map_some, Option.getD_some, decide_eq_true_eq]
  unfold AloneIn
  rw [List.getElem?_eq_getElem hi]
  apply not_congr
  constructor
  · intro h j hj
    obtain ⟨x, hx⟩ := List.length_eq_one_iff.1 h
    have hj' := mem_ipLeaf.2 hj
    rw [hx] at hm hj'
    rw [List.mem_singleton] at hm hj'
    rw [hm, hj']
  · intro h
    have hall : ∀ j ∈ ipLeaf leaf leaf[i], j = i := fun j hj => h j (mem_ipLeaf.1 hj)
    have hn := hnd leaf[i]
    rcases hl : ipLeaf leaf leaf[i] with _ | ⟨x, _ | ⟨z, t⟩⟩
    · rw [hl] at hm; simp at hm
    · rfl
    · rw [hl] at hall hn
      have e1 := hall x (by simp)
      have e2 := hall z (by simp)
      rw [e1, e2] at hn
      simp at hn

/-- **The scaled data is returned.** If the rows that are not alone in their leaf all have the same label (for instance when the tree isolates every
minority row), the returned rows are not those given to `sample` but their images under the scaling. -/
theorem C103_scaled {env : IpEnv} (henv : env.OK) {par : IpParams} {d : Nat} {X Z : List Row} {y : List Int} {a b l : Int} (hwf : WF d X y)
    (hmin : IsMinority y a b) (h4 : 4 < y.count a) (hZ : MinMaxScaled d X Z) {i : Nat} (hi : i < y.length) (hi' : ¬ AloneIn (env.leaf Z y) i)
    (hl : ∀ j, j < y.length → ¬ AloneIn (env.leaf Z y) j → y[j]? = some l) :
    sample ipadeChecks d (ipadeAlg env par d) X y = .ok (Z, y) := by
  have hZe := hZ.unique (scaled_ok hwf.2).1
  have hc := ipCtx_ok hwf hmin h4
  obtain ⟨s, hs, rfl, rfl⟩ := stats_of_isMinority hmin
  have hsam : sample ipadeChecks d (ipadeAlg env par d) X y = ipadeAlg env par d s X y := by
    have := sample_amsco (d := d) (alg := ipadeAlg env par d) (X := X) hs
    rw [if_neg (by omega)] at this
    exact this
  have hlen : (env.leaf Z y).length = y.length := by rw [henv.leaf, ← hZ.length_eq, hwf.1]
  have hkey : ipSearch env par (ipCtx d X y s.minLabel s.majLabel) = .error .valueError := by
    unfold ipSearch ipPhase1
    obtain ⟨gs, h1, _⟩ := ipInit_ok hc (henv.leaf (ipCtx d X y s.minLabel s.majLabel).X y)
    have hX : (ipCtx d X y s.minLabel s.majLabel).X = Z := hZe.symm
    have hy : (ipCtx d X y s.minLabel s.majLabel).y = y := rfl
    rw [hX] at h1
    simp only [hX, hy, h1, ok_bind]
    have : ipCheck (ipCtx d X y s.minLabel s.majLabel) (ipValidation (env.leaf Z y)) (gs.map Prod.snd) = .error .valueError := by
      unfold ipCheck
      rw [if_pos]
      have hall : ∀ v ∈ npUnique (ipLabels (ipCtx d X y s.minLabel s.majLabel) (ipValidation (env.leaf Z y))), v = l := by
        intro v hv
        rw [mem_npUnique] at hv
        obtain ⟨j, hj, rfl⟩ := List.mem_map.1 hv
        obtain ⟨j1, j2⟩ := mem_ipValidation.1 hj
        have := hl j (by omega) j2
        show y.getD j 0 = l
        rw [List.getD_eq_getElem?_getD, this]
        rfl
      have hmem : y.getD i 0 ∈ npUnique (ipLabels (ipCtx d X y s.minLabel s.majLabel) (ipValidation (env.leaf Z y))) := by
        rw [mem_npUnique]
        exact List.mem_map.2 ⟨i, mem_ipValidation.2 ⟨by omega, hi'⟩, rfl⟩
      have hn := npUnique_nodup (ipLabels (ipCtx d X y s.minLabel s.majLabel) (ipValidation (env.leaf Z y)))
      rcases hq : npUnique (ipLabels (ipCtx d X y s.minLabel s.majLabel) (ipValidation (env.leaf Z y))) with _ | ⟨x, _ | ⟨z, t⟩⟩
      · rw [hq] at hmem; simp at hmem
      · rfl
      · rw [hq] at hall hn
        have e1 := hall x (by simp)
        have e2 := hall z (by simp)
        rw [e1, e2] at hn
        simp at hn
    rw [this]
    rfl
  rw [hsam]
  unfold ipadeAlg
  unfold ipCtx at hkey
  simp only
  rw [hkey, ← hZe]

/-- **Scores.** If the search ends with prototypes, they are those of the first phase or score more on the validation set they were accepted with. -/
theorem C103_score {env : IpEnv} (henv : env.OK) {par : IpParams} {d : Nat} {X : List Row} {y : List Int} {a b : Int} (hwf : WF d X y)
    (hmin : IsMinority y a b) (h4 : 4 < y.count a) (hf : ipFuel par y.length ≤ par.fuel) {G : List Row} {yG : List Int}
    (h : ipSearch env par (ipCtx d X y a b) = .ok (G, yG)) :
    ∃ G1 a1 val1 s val, ipPhase1 env par (ipCtx d X y a b) = .ok (a1, val1, G1, yG) ∧
      ipAuc env (ipCtx d X y a b) G yG val = .ok s ∧ (s = a1 ∨ ∃ u v, s = some u ∧ a1 = some v ∧ v < u) := by
  rcases ipSearch_ok (par := par) henv (ipCtx_ok hwf hmin h4) hf with h' | ⟨r, h', _, _, G1, a1, val1, s, val, e1, e2, e3⟩
  · rw [h] at h'; simp at h'
  · rw [h] at h'
    injection h' with h'
    rw [← h'] at e1 e2
    refine ⟨G1, a1, val1, s, val, e1, e2, ?_⟩
    rcases e3 with e3 | e3
    · exact Or.inl e3
    · right
      cases s with
      | none => simp [gtNan] at e3
      | some u =>
        cases a1 with
        | none => simp [gtNan] at e3
        | some v => exact ⟨u, v, rfl, rfl, by simpa [gtNan] using e3⟩

/-! ## Concrete cases -/

/-- Five minority rows and six majority rows of one feature. -/
def ipX : List Row := [[10], [20], [30], [40], [50], [60], [70], [80], [90], [100], [110]]
/-- Their labels. -/
def ipY : List Int := [1, 1, 1, 1, 1, 0, 0, 0, 0, 0, 0]

/-- A perfect classifier, with the leaves given by `f`. -/
def ipEnv (f : List Int → Nat → Nat) : IpEnv where
  leaf := fun X y => (List.range X.length).map (f y)
  auc := fun _ _ _ yV => if yV.count 1 = 0 ∨ yV.length - yV.count 1 = 0 then .error .valueError else .ok (some 1)
  acc := fun _ _ _ _ => .ok 1
  three := fun _ _ _ _ => (0, 1, 2)
  u := fun _ _ _ => 1 / 2
  one := fun _ _ => 0

theorem ipEnv_ok (f : List Int → Nat → Nat) : (ipEnv f).OK where
  leaf := by intro X y; simp [ipEnv]
  three := by intro r it i m h; simp only [ipEnv]; omega
  one := by intro r m h; exact h
  auc := by
    intro G yG V yV
    simp only [ipEnv]
    by_cases h : yV.count 1 = 0 ∨ yV.length - yV.count 1 = 0
    · rw [if_pos h]; exact Or.inl rfl
    · rw [if_neg h]
      right
      refine ⟨_, rfl, fun v hv => ⟨1, ?_⟩⟩
      push Not at h
      unfold aucValues
      refine List.mem_map.2 ⟨2 * yV.count 1 * (yV.length - yV.count 1), by simp, ?_⟩
      have h1 : ((yV.count 1 : Nat) : ℚ) ≠ 0 := by exact_mod_cast h.1
      have h2 : ((yV.length - yV.count 1 : Nat) : ℚ) ≠ 0 := by exact_mod_cast h.2
      injection hv with hv
      rw [← hv]
      rw [Nat.cast_mul, Nat.cast_mul]
      push_cast [-Nat.cast_sub]
      field_simp
  acc := by intro G yG V yV; exact Or.inr ⟨_, rfl⟩

/-- **Not an extension of the input.** With one leaf for each class, eleven rows become two. -/
theorem C103_shrinks : ∃ (env : IpEnv) (par : IpParams) (X : List Row) (y : List Int) (a b : Int), env.OK ∧ WF 1 X y ∧ IsMinority y a b ∧
    4 < y.count a ∧ X.length = 11 ∧ sample ipadeChecks 1 (ipadeAlg env par 1) X y = .ok ([[85], [30]], [b, a]) := by
  refine ⟨ipEnv (fun y i => (y.getD i 0).toNat), ⟨1 / 10, 1 / 10, 20, 2, 1⟩, ipX, ipY, 1, 0, ipEnv_ok _, ⟨rfl, by decide⟩,
    ⟨by decide, by decide, by decide, Or.inl (by decide)⟩, by decide, rfl, ?_⟩
  decide +kernel

/-- **The scaled data is returned.** With every minority row alone in its leaf, the rows 10, 20, … come back as 0, 0.1, …. -/
theorem C103_scaled_witness : ∃ (env : IpEnv) (par : IpParams) (X : List Row) (y : List Int) (a b : Int), env.OK ∧ WF 1 X y ∧ IsMinority y a b ∧
    4 < y.count a ∧ ∃ Z, sample ipadeChecks 1 (ipadeAlg env par 1) X y = .ok (Z, y) ∧ X[1]? = some [20] ∧ Z[1]? = some [1 / 10] := by
  refine ⟨ipEnv (fun y i => if y.getD i 0 = 1 then i + 1 else 0), ⟨1 / 10, 1 / 10, 20, 2, 1⟩, ipX, ipY, 1, 0, ipEnv_ok _, ⟨rfl, by decide⟩,
    ⟨by decide, by decide, by decide, Or.inl (by decide)⟩, by decide, ipX.map (scaleRow (ipLow 1 ipX) (ipSpan 1 ipX)), ?_, rfl, ?_⟩
  · decide +kernel
  · decide +kernel

/-- Hypotheses of the main theorem met. -/
example : ∃ (Z X' : List Row) (y' : List Int), MinMaxScaled 1 ipX Z ∧
    sample ipadeChecks 1 (ipadeAlg (ipEnv (fun y i => (y.getD i 0).toNat)) ⟨1 / 10, 1 / 10, 20, 40, ipFuel ⟨0, 0, 20, 40, 0⟩ 11⟩ 1) ipX ipY = .ok (X', y') := by
  obtain ⟨Z, X', y', h1, h2, _⟩ := C103_ipade (ipEnv_ok (fun y i => (y.getD i 0).toNat)) (par := ⟨1 / 10, 1 / 10, 20, 40, ipFuel ⟨0, 0, 20, 40, 0⟩ 11⟩)
    (d := 1) (X := ipX) (y := ipY) (a := 1) (b := 0) ⟨rfl, by decide⟩ ⟨by decide, by decide, by decide, Or.inl (by decide)⟩ (by decide) (le_refl _)
  exact ⟨Z, X', y', h1, h2⟩

/-- Hypotheses of `C103_score` met. -/
example : ipSearch (ipEnv (fun y i => (y.getD i 0).toNat)) ⟨1 / 10, 1 / 10, 20, 2, 1⟩ (ipCtx 1 ipX ipY 1 0) = .ok ([[3 / 4], [1 / 5]], [0, 1]) := by
  decide +kernel

/-! ## The class which is worked on -/

/-- **The class with the lower accuracy.** If both classes may be worked on, it is the minority exactly if its accuracy is not above that of the
majority; if only one may, that one. If none may, the name is not bound. -/
theorem C103_target {env : IpEnv} {c : IpCtx} {yG : List Int} {st : IpState} :
    (∀ u v, st.regMin = true → st.regMaj = true → ipAcc env c st.G yG st.val c.minLabel = .ok u →
      ipAcc env c st.G yG st.val c.majLabel = .ok v → ∃ t, ipTarget env c yG st = .ok t ∧ (t = true ↔ u ≤ v)) ∧
    (st.regMin ≠ st.regMaj → ∀ t, ipTarget env c yG st = .ok t → (t = true ↔ st.regMin = true)) ∧
    (st.regMin = false → st.regMaj = false → ipTarget env c yG st = .error .nameError) := by
  refine ⟨fun u v h1 h2 hu hv => ⟨_, by unfold ipTarget; rw [h1, h2]; dsimp only; rw [hu, hv]; rfl, by simp⟩, fun hne t ht => ?_, fun h1 h2 => ?_⟩
  · unfold ipTarget at ht
    cases h1 : st.regMin <;> cases h2 : st.regMaj <;> rw [h1, h2] at ht hne
    · exact absurd rfl hne
    · dsimp only at ht
      obtain ⟨_, _, ht⟩ := bind_ok.1 ht
      injection ht with ht
      subst ht
      simp
    · dsimp only at ht
      obtain ⟨_, _, ht⟩ := bind_ok.1 ht
      injection ht with ht
      subst ht
      simp
    · exact absurd rfl hne
  · unfold ipTarget
    rw [h1, h2]

/-- Non-vacuity: accuracy as the share of minority rows among the validated ones; with 1 for the minority and 0 for the majority, the majority is chosen,
and with equal accuracies the minority. -/
example :
    let env : IpEnv := { ipEnv (fun _ i => i) with acc := fun _ _ _ yV => .ok ((yV.count 1 : ℚ) / yV.length) }
    let st : IpState := ⟨ipX, some 0, [0, 1, 5], true, true, 0, [], []⟩
    ipTarget env (ipCtx 1 ipX ipY 1 0) ipY st = .ok false ∧ ipTarget (ipEnv (fun _ i => i)) (ipCtx 1 ipX ipY 1 0) ipY st = .ok true := by
  decide +kernel

end Verif

import Mathlib.Data.List.GetD
import Verif.Lemmas.ClusterTasks
import Verif.Model.SoiCj
import Verif.Props.C58
import Verif.Lemmas.SmoteExample
import Verif.Props.C34

/-!
# C107: SOI_CJ

The clusters are sets of minority rows, disjoint when the loop ends; new rows are made inside clusters of at least three rows. Merged and
bystanding clusters get lost.
-/

namespace Verif

/-! ## Specification -/

/-- Position `q` is listed before the first row of another class, and such a row is listed. -/
def BeforeOthers (y : List Int) (a : Int) (row : List Nat) (q : Nat) : Prop :=
  ∃ m r, row[m]? = some r ∧ y[r]? ≠ some a ∧ q ∈ row.take m ∧ ∀ p ∈ row.take m, y[p]? = some a

/-- Every coordinate of `x` lies between the coordinates of two different rows of the cluster (each coordinate with a share of its own). -/
def BetweenTwo (d : Nat) (X : List Row) (cluster : List Nat) (x : Row) : Prop :=
  ∃ p ∈ cluster, ∃ q ∈ cluster, p ≠ q ∧ x.length = d ∧ ∀ j, j < d → ∃ u : ℚ, 0 ≤ u ∧ u < 1 ∧
    x.getD j 0 = (X.getD p []).getD j 0 + u * ((X.getD q []).getD j 0 - (X.getD p []).getD j 0)

/-- `x` is a simplex of rows of the cluster, moved in every coordinate by a normal draw times the smaller one of the standard deviations of
the minority rows and of the rows of the cluster. -/
def Jittered (env : SoiEnv) (nDim d : Nat) (A rows : List Row) (x : Row) : Prop :=
  ∃ g t i, SimplexOf d (min nDim rows.length) rows rows (env.knn rows.length rows rows) (fun _ => True) g ∧ g.length = d ∧ x.length = d ∧
    ∀ j, j < d → x.getD j 0 = g.getD j 0 + (env.drs t).normalU i j * min ((env.std A).getD j 0) ((env.std rows).getD j 0)

/-- What the two methods make of a cluster. -/
def SoiMade (method : SoiMethod) (env : SoiEnv) (nDim d : Nat) (X A : List Row) (cluster : List Nat) (x : Row) : Prop :=
  match method with
  | .interpolation => BetweenTwo d X cluster x
  | .jittering => Jittered env nDim d A (cluster.map (fun q => X.getD q [])) x

/-! ## The loop -/

/-- The references are valid, the sets have no duplicates and elements with a property only. -/
def SoiInv (U : Nat → Prop) (s : SoiState) : Prop :=
  (∀ r ∈ s.refs, r < s.objs.length) ∧ ∀ o ∈ s.objs, o.Nodup ∧ ∀ e ∈ o, U e

theorem getD_mem_or {α : Type} (l : List (List α)) (i : Nat) : l.getD i [] ∈ l ∨ l.getD i [] = [] := by
  by_cases h : i < l.length
  · left; rw [List.getD_eq_getElem?_getD, List.getElem?_eq_getElem h]; exact List.getElem_mem h
  · right; rw [List.getD_eq_getElem?_getD, List.getElem?_eq_none (by omega)]; rfl

theorem SoiInv.obj {U : Nat → Prop} {s : SoiState} (h : SoiInv U s) (i : Nat) :
    (s.objs.getD i []).Nodup ∧ ∀ e ∈ s.objs.getD i [], U e := by
  rcases getD_mem_or s.objs i with h' | h'
  · exact h.2 _ h'
  · rw [h']; simp

theorem SoiInv.event {U : Nat → Prop} {join : List Nat → List Nat → Bool} {idx cur jdx cj : Nat} {s : SoiState} (h : SoiInv U s)
    (hc : cur < s.objs.length) (hj : cj < s.objs.length) :
    SoiInv U (soiEvent join idx cur jdx cj s) ∧ s.objs.length ≤ (soiEvent join idx cur jdx cj s).objs.length := by
  have o1 := h.obj cur
  have o2 := h.obj cj
  have hset : ∀ r x y, r ∈ (s.refs.set idx x).set jdx y → r ∈ s.refs ∨ r = x ∨ r = y := by
    intro r x y hr
    rcases List.mem_or_eq_of_mem_set hr with hr | hr
    · rcases List.mem_or_eq_of_mem_set hr with hr | hr
      · exact .inl hr
      · exact .inr (.inl hr)
    · exact .inr (.inr hr)
  unfold soiEvent
  dsimp only
  split
  · exact ⟨h, le_refl _⟩
  split
  · refine ⟨⟨fun r hr => ?_, fun o ho => ?_⟩, by simp⟩
    · simp only [List.length_append, List.length_set, List.length_cons, List.length_nil]
      rcases hset r _ _ hr with hr | hr | hr
      · have := h.1 r hr; omega
      · omega
      · omega
    · rw [List.mem_append] at ho
      rcases ho with ho | ho
      · rcases List.mem_or_eq_of_mem_set ho with ho | rfl
        · exact h.2 o ho
        · refine ⟨List.Nodup.append o1.1 (o2.1.filter _) ?_, ?_⟩
          · intro e he he'
            have := (List.mem_filter.1 he').2
            simp only [decide_eq_true_eq] at this
            exact this he
          · intro e he
            rcases List.mem_append.1 he with he | he
            · exact o1.2 e he
            · exact o2.2 e (List.mem_filter.1 he).1
      · rw [List.mem_singleton.1 ho]; simp
  split
  · refine ⟨⟨fun r hr => ?_, fun o ho => ?_⟩, by simp⟩
    · simp only [List.length_set]
      rcases hset r _ _ hr with hr | hr | hr
      · exact h.1 r hr
      · omega
      · omega
    · rcases List.mem_or_eq_of_mem_set ho with ho | rfl
      · exact h.2 o ho
      · exact ⟨o2.1.filter _, fun e he => o2.2 e (List.mem_filter.1 he).1⟩
  · refine ⟨⟨fun r hr => ?_, fun o ho => ?_⟩, by simp⟩
    · simp only [List.length_set]
      rcases hset r _ _ hr with hr | hr | hr
      · exact h.1 r hr
      · omega
      · omega
    · rcases List.mem_or_eq_of_mem_set ho with ho | rfl
      · exact h.2 o ho
      · exact ⟨o1.1.filter _, fun e he => o1.2 e (List.mem_filter.1 he).1⟩

theorem soiEvent_refs_length {join : List Nat → List Nat → Bool} {idx cur jdx cj : Nat} {s : SoiState} :
    (soiEvent join idx cur jdx cj s).refs.length = s.refs.length := by
  unfold soiEvent
  dsimp only
  split
  · rfl
  split
  · simp
  split <;> simp

theorem SoiInv.inner {U : Nat → Prop} {join : List Nat → List Nat → Bool} {idx cur : Nat} (l : List Nat) :
    ∀ {jdx : Nat} {s : SoiState}, SoiInv U s → cur < s.objs.length → (∀ r ∈ l, r < s.objs.length) →
      SoiInv U (soiInner join idx cur jdx l s) ∧ (soiInner join idx cur jdx l s).refs.length = s.refs.length := by
  induction l with
  | nil => intro jdx s h _ _; exact ⟨h, rfl⟩
  | cons cj l ih =>
    intro jdx s h hc hl
    obtain ⟨h1, h2⟩ := h.event (join := join) (idx := idx) (jdx := jdx) hc (hl cj (by simp))
    obtain ⟨h3, h4⟩ := ih (jdx := jdx + 1) h1 (by omega) (fun r hr => by have := hl r (by simp [hr]); omega)
    exact ⟨h3, by rw [← soiEvent_refs_length (join := join) (idx := idx) (cur := cur) (jdx := jdx) (cj := cj) (s := s)]; exact h4⟩

theorem SoiInv.outer {U : Nat → Prop} {join : List Nat → List Nat → Bool} (m : Nat) :
    ∀ {idx : Nat} {s : SoiState}, SoiInv U s → idx + m ≤ s.refs.length → SoiInv U (soiOuter join m idx s) := by
  induction m with
  | zero => intro idx s h _; exact h
  | succ m ih =>
    intro idx s h hm
    have hi : idx < s.refs.length := by omega
    have hcur : s.refs.getD idx 0 ∈ s.refs := by
      rw [List.getD_eq_getElem?_getD, List.getElem?_eq_getElem hi]; exact List.getElem_mem hi
    obtain ⟨h1, h2⟩ := h.inner (join := join) (idx := idx) (jdx := 0) (s.refs.drop (idx + 1)) (h.1 _ hcur)
      (fun r hr => h.1 r (List.mem_of_mem_drop hr))
    exact ih h1 (by omega)

theorem SoiInv.round {U : Nat → Prop} {join : List Nat → List Nat → Bool} {s : SoiState} (h : SoiInv U s) :
    SoiInv U (soiRound join s) := by
  have h0 : SoiInv U { s with hit := false } := h
  have := h0.outer (join := join) s.refs.length (idx := 0) (by simp)
  exact ⟨fun r hr => this.1 r (List.mem_filter.1 hr).1, this.2⟩

theorem soiEvent_hit {join : List Nat → List Nat → Bool} {idx cur jdx cj : Nat} {s : SoiState}
    (h : (soiEvent join idx cur jdx cj s).hit = false) :
    soiEvent join idx cur jdx cj s = s ∧ (s.objs.getD cur []).Disjoint (s.objs.getD cj []) := by
  unfold soiEvent at h ⊢
  dsimp only at h ⊢
  by_cases hi : ((s.objs.getD cur []).filter (fun e => decide (e ∈ s.objs.getD cj []))).length = 0
  · rw [if_pos hi]
    refine ⟨rfl, fun e he he' => ?_⟩
    have : e ∈ (s.objs.getD cur []).filter (fun e => decide (e ∈ s.objs.getD cj [])) :=
      List.mem_filter.2 ⟨he, decide_eq_true he'⟩
    rw [List.length_eq_zero_iff.1 hi] at this
    simp at this
  · rw [if_neg hi] at h
    split at h
    · simp at h
    · split at h <;> simp at h

theorem soiEvent_keeps_hit {join : List Nat → List Nat → Bool} {idx cur jdx cj : Nat} {s : SoiState} (h : s.hit = true) :
    (soiEvent join idx cur jdx cj s).hit = true := by
  unfold soiEvent
  dsimp only
  split
  · exact h
  split
  · rfl
  split <;> rfl

theorem soiInner_keeps_hit {join : List Nat → List Nat → Bool} {idx cur : Nat} (l : List Nat) :
    ∀ {jdx : Nat} {s : SoiState}, s.hit = true → (soiInner join idx cur jdx l s).hit = true := by
  induction l with
  | nil => intro jdx s h; exact h
  | cons cj l ih => intro jdx s h; exact ih (soiEvent_keeps_hit h)

theorem soiOuter_keeps_hit {join : List Nat → List Nat → Bool} (m : Nat) :
    ∀ {idx : Nat} {s : SoiState}, s.hit = true → (soiOuter join m idx s).hit = true := by
  induction m with
  | zero => intro idx s h; exact h
  | succ m ih => intro idx s h; exact ih (soiInner_keeps_hit _ h)

theorem soiInner_hit {join : List Nat → List Nat → Bool} {idx cur : Nat} (l : List Nat) :
    ∀ {jdx : Nat} {s : SoiState}, (soiInner join idx cur jdx l s).hit = false →
      soiInner join idx cur jdx l s = s ∧ ∀ r ∈ l, (s.objs.getD cur []).Disjoint (s.objs.getD r []) := by
  induction l with
  | nil => intro jdx s _; exact ⟨rfl, by simp⟩
  | cons cj l ih =>
    intro jdx s h
    have hev : (soiEvent join idx cur jdx cj s).hit = false := by
      by_contra hc
      have := soiInner_keeps_hit (join := join) (idx := idx) (cur := cur) l (jdx := jdx + 1) ((Bool.not_eq_false _).mp hc)
      have h' : (soiInner join idx cur (jdx + 1) l (soiEvent join idx cur jdx cj s)).hit = false := h
      rw [this] at h'
      cases h'
    obtain ⟨e1, e2⟩ := soiEvent_hit hev
    have h' : (soiInner join idx cur (jdx + 1) l (soiEvent join idx cur jdx cj s)).hit = false := h
    rw [e1] at h'
    obtain ⟨i1, i2⟩ := ih h'
    refine ⟨?_, ?_⟩
    · show soiInner join idx cur (jdx + 1) l (soiEvent join idx cur jdx cj s) = s
      rw [e1, i1]
    · intro r hr
      rcases List.mem_cons.1 hr with rfl | hr
      · exact e2
      · exact i2 r hr

theorem soiOuter_hit {join : List Nat → List Nat → Bool} (m : Nat) :
    ∀ {idx : Nat} {s : SoiState}, idx + m = s.refs.length → (soiOuter join m idx s).hit = false →
      soiOuter join m idx s = s ∧ (s.refs.drop idx).Pairwise (fun p q => (s.objs.getD p []).Disjoint (s.objs.getD q [])) := by
  induction m with
  | zero =>
    intro idx s hm _
    refine ⟨rfl, ?_⟩
    rw [List.drop_of_length_le (by omega)]
    exact .nil
  | succ m ih =>
    intro idx s hm h
    have hi : idx < s.refs.length := by omega
    have hin : (soiInner join idx (s.refs.getD idx 0) 0 (s.refs.drop (idx + 1)) s).hit = false := by
      by_contra hc
      have := soiOuter_keeps_hit (join := join) m (idx := idx + 1) ((Bool.not_eq_false _).mp hc)
      have h' : (soiOuter join m (idx + 1) (soiInner join idx (s.refs.getD idx 0) 0 (s.refs.drop (idx + 1)) s)).hit = false := h
      rw [this] at h'
      cases h'
    obtain ⟨e1, e2⟩ := soiInner_hit _ hin
    have h' : (soiOuter join m (idx + 1) (soiInner join idx (s.refs.getD idx 0) 0 (s.refs.drop (idx + 1)) s)).hit = false := h
    rw [e1] at h'
    obtain ⟨i1, i2⟩ := ih (by omega) h'
    refine ⟨?_, ?_⟩
    · show soiOuter join m (idx + 1) (soiInner join idx (s.refs.getD idx 0) 0 (s.refs.drop (idx + 1)) s) = s
      rw [e1, i1]
    · rw [List.drop_eq_getElem_cons hi, List.pairwise_cons]
      refine ⟨fun r hr => ?_, i2⟩
      have := e2 r hr
      rwa [List.getD_eq_getElem?_getD (l := s.refs), List.getElem?_eq_getElem hi] at this

/-- A round without an intersection leaves the sets alone, and they are disjoint. -/
theorem soiRound_hit {join : List Nat → List Nat → Bool} {s : SoiState} (h : (soiRound join s).hit = false) :
    (soiRound join s).objs = s.objs ∧
    (soiRound join s).refs = s.refs.filter (fun r => decide (0 < (s.objs.getD r []).length)) ∧
    s.refs.Pairwise (fun p q => (s.objs.getD p []).Disjoint (s.objs.getD q [])) := by
  obtain ⟨h1, h2⟩ := soiOuter_hit (join := join) s.refs.length (idx := 0) (s := { s with hit := false }) (by simp) h
  unfold soiRound
  rw [h1]
  exact ⟨rfl, rfl, by simpa using h2⟩

theorem soiLoop_spec {U : Nat → Prop} {join : List Nat → List Nat → Bool} (fuel : Nat) :
    ∀ {s out : SoiState}, SoiInv U s → soiLoop join fuel s = some out →
      (∀ c ∈ out.refs.map (fun r => out.objs.getD r []), c.Nodup ∧ c ≠ [] ∧ ∀ e ∈ c, U e) ∧
      (out.refs.map (fun r => out.objs.getD r [])).Pairwise List.Disjoint := by
  induction fuel with
  | zero => intro s out _ h; cases h
  | succ fuel ih =>
    intro s out hs h
    unfold soiLoop at h
    dsimp only at h
    by_cases hh : (soiRound join s).hit = true
    · rw [if_pos hh] at h
      exact ih hs.round h
    · rw [if_neg hh] at h
      injection h with h
      subst h
      obtain ⟨h1, h2, h3⟩ := soiRound_hit ((Bool.not_eq_true _).mp hh)
      have hr := hs.round (join := join)
      refine ⟨fun c hc => ?_, ?_⟩
      · obtain ⟨r, hr', rfl⟩ := List.mem_map.1 hc
        refine ⟨(hr.obj r).1, ?_, (hr.obj r).2⟩
        rw [h2] at hr'
        have := (List.mem_filter.1 hr').2
        rw [h1]
        simp only [decide_eq_true_eq] at this
        exact List.length_pos_iff.1 this
      · rw [List.pairwise_map, h1, h2]
        exact h3.filter _

/-! ## The start -/

theorem soiStart_spec {y : List Int} {a : Int} {row : List Nat} (hr : ∀ j ∈ row, j < y.length) :
    (soiStart y a row).Nodup ∧ ∀ q ∈ soiStart y a row, BeforeOthers y a row q := by
  unfold soiStart
  dsimp only
  refine ⟨List.nodup_dedup _, fun q hq => ?_⟩
  rw [List.mem_dedup] at hq
  set m := row.findIdx (fun j => decide (y.getD j 0 ≠ a)) with hm
  by_cases hl : m < row.length
  · rw [if_pos hl] at hq
    have hy : ∀ j, j < y.length → (y[j]? = some a ↔ y.getD j 0 = a) := by
      intro j hj
      rw [List.getD_eq_getElem?_getD, List.getElem?_eq_getElem hj]
      simp
    refine ⟨m, row[m], List.getElem?_eq_getElem hl, ?_, hq, fun p hp => ?_⟩
    · rw [Ne, hy _ (hr _ (List.getElem_mem hl))]
      have := List.findIdx_getElem (p := fun j => decide (y.getD j 0 ≠ a)) (w := hl)
      exact of_decide_eq_true this
    · rw [hy p (hr p (List.mem_of_mem_take hp))]
      obtain ⟨i, hi, rfl⟩ := List.mem_iff_getElem.1 hp
      rw [List.length_take] at hi
      rw [List.getElem_take]
      have := List.not_of_lt_findIdx (p := fun j => decide (y.getD j 0 ≠ a)) (xs := row) (i := i) (by omega)
      simpa using this
  · rw [if_neg hl] at hq
    simp at hq

/-! ## The generation -/

theorem eachCluster_sound {gen : Nat → Nat → Nat → Res (List Row)} {sel : List Nat} {m : Nat} {P : Nat → Row → Prop}
    (hsel : ∀ c ∈ sel, c < m)
    (hP : ∀ c i, c ∈ sel → ∃ out, gen c (sel.count c) i = .ok out ∧ out.length = sel.count c ∧ ∀ x ∈ out, P c x) :
    ∃ out, eachCluster gen sel = .ok out ∧ ByCluster m sel P out := by
  unfold eachCluster
  obtain ⟨pl, hpl⟩ := mapM_exists_ok (l := (npUniqueCounts sel).zipIdx) (f := fun p => gen p.1.1 p.1.2 p.2) (by
      rintro ⟨⟨c, k⟩, i⟩ hp
      have hp' := List.mem_zipIdx_iff_getElem?.1 hp
      have hm := List.mem_of_getElem? hp'
      simp only [npUniqueCounts, List.mem_map, Prod.mk.injEq] at hm
      obtain ⟨c', hc', rfl, rfl⟩ := hm
      obtain ⟨o, ho, _⟩ := hP c' i (mem_npUnique.1 hc')
      exact ⟨o, ho⟩)
  rw [hpl, ok_bind]
  refine ⟨_, rfl, ?_⟩
  have hu := npUnique_eq_filter_range hsel
  have hlen : pl.length = (npUnique sel).length := by
    rw [mapM_ok_length hpl]; simp [npUniqueCounts]
  have hget : ∀ (i : Nat) (c : Nat), (npUnique sel)[i]? = some c → ∃ o, pl[i]? = some o ∧
      o.length = sel.count c ∧ ∀ x ∈ o, P c x := by
    intro i c hc
    obtain ⟨o, ho, ho2⟩ := mapM_ok_get (i := i) (a := ((c, sel.count c), i)) hpl (by
      rw [List.getElem?_zipIdx]; simp [npUniqueCounts, hc])
    refine ⟨o, ho, ?_⟩
    obtain ⟨o', ho', h⟩ := hP c i (mem_npUnique.1 (List.mem_of_getElem? hc))
    dsimp only at ho2
    rw [ho'] at ho2
    injection ho2 with ho2
    subst ho2
    exact h
  refine ⟨fun c => if c ∈ sel then pl.getD ((npUnique sel).idxOf c) [] else [], ?_, ?_⟩
  · rw [← flatMap_filter_of_nil (p := fun c => decide (c ∈ sel)) (by intro c _ hc; simp at hc; simp [hc]), ← hu,
      List.flatMap_def]
    congr 1
    apply List.ext_getElem?
    intro i
    rw [List.getElem?_map]
    by_cases hi : i < (npUnique sel).length
    · rw [List.getElem?_eq_getElem hi, List.getElem?_eq_getElem (by omega)]
      have hmem : (npUnique sel)[i] ∈ sel := mem_npUnique.1 (List.getElem_mem hi)
      simp only [Option.map_some, if_pos hmem]
      rw [(npUnique_nodup sel).idxOf_getElem i hi, List.getD_eq_getElem?_getD, List.getElem?_eq_getElem (by omega)]
      rfl
    · rw [List.getElem?_eq_none (by omega), List.getElem?_eq_none (by omega)]
      rfl
  · intro c _
    dsimp only
    by_cases hc : c ∈ sel
    · rw [if_pos hc]
      have hc' := mem_npUnique.2 hc
      obtain ⟨o, ho, h1, h2⟩ := hget ((npUnique sel).idxOf c) c (by
        rw [List.getElem?_eq_getElem (List.idxOf_lt_length_iff.2 hc'), List.getElem_idxOf])
      rw [List.getD_eq_getElem?_getD, ho]
      exact ⟨h1, h2⟩
    · rw [if_neg hc, List.count_eq_zero_of_not_mem hc]
      simp

/-- The noise comes last. -/
theorem sampleSimplex_noise (ss : SSParams) (vol : List Row → ℚ) (dr : Draws) (d : Nat) (X : List Row) (indices : List (List Nat))
    (k n : Nat) (a : SSArgs) : sampleSimplex ss vol dr d X indices k n a =
      sampleSimplex { ss with gaussian := .none } vol dr d X indices k n a >>= fun r => .ok (addGaussianNoise ss.gaussian dr.normalU r) := by
  unfold sampleSimplex
  by_cases hn : n = 0
  · rw [if_pos hn, if_pos hn]
    cases ss.gaussian <;> rfl
  · rw [if_neg hn, if_neg hn]
    dsimp only
    cases simplicesSel ss.simplexSampling vol dr.choiceU X n a.baseWeights indices k a.Xv a.simplexWeights (min ss.nDim k) with
    | error e => rfl
    | ok sel =>
      simp only [ok_bind]
      cases ss.within with
      | random =>
        dsimp only
        cases randomSamplesFromSimplices d X sel a.Xv a.vertexWeights dr.simplexU <;> rfl
      | deterministic =>
        dsimp only
        cases deterministicSamples X sel a.Xv a.sameVertices a.vertexWeights (min ss.nDim k) <;> rfl
      | unknown => rfl

theorem zipIdx_map_getD {α : Type} (l : List α) (f : α → Nat → ℚ) (j : Nat) (dflt : α) (hj : j < l.length) :
    (l.zipIdx.map (fun t => f t.1 t.2)).getD j 0 = f (l.getD j dflt) j := by
  rw [List.getD_eq_getElem?_getD, List.getElem?_map, List.getElem?_zipIdx, List.getD_eq_getElem?_getD, List.getElem?_eq_getElem hj]
  simp

theorem getD_zip {p q : Row} {j : Nat} (hp : j < p.length) (hq : j < q.length) : (p.zip q).getD j (0, 0) = (p.getD j 0, q.getD j 0) := by
  rw [List.getD_eq_getElem?_getD, List.getD_eq_getElem?_getD, List.getD_eq_getElem?_getD, List.getElem?_eq_getElem (by simp; omega),
    List.getElem?_eq_getElem hp, List.getElem?_eq_getElem hq]
  simp

theorem soiInterpolate_spec {env : SoiEnv} {d : Nat} {X : List Row} (hX : ∀ r ∈ X, r.length = d) (hpick : ∀ i, PickOK (env.pick i))
    (hunif : ∀ t i j, 0 ≤ env.unif t i j ∧ env.unif t i j < 1) {cluster : List Nat} (hnd : cluster.Nodup)
    (hlt : ∀ q ∈ cluster, q < X.length) (h2 : 2 ≤ cluster.length) (n i : Nat) :
    ∃ out, soiInterpolate env X cluster n i = .ok out ∧ out.length = n ∧ ∀ x ∈ out, BetweenTwo d X cluster x := by
  unfold soiInterpolate
  dsimp only
  set combs := combinations (List.range cluster.length) 2 with hcombs
  have hpos : 0 < combs.length := by
    rw [hcombs, length_combinations, List.length_range]
    exact Nat.choose_pos h2
  obtain ⟨hl, hmem⟩ := hpick i combs.length n hpos
  have hrow : ∀ q ∈ cluster, getRow X q = .ok (X.getD q []) := by
    intro q hq
    rw [getRow_ok.2 (List.getElem?_eq_getElem (hlt q hq)), List.getD_eq_getElem?_getD, List.getElem?_eq_getElem (hlt q hq)]
    rfl
  have hlen : ∀ q ∈ cluster, (X.getD q []).length = d := by
    intro q hq
    rw [List.getD_eq_getElem?_getD, List.getElem?_eq_getElem (hlt q hq)]
    exact hX _ (List.getElem_mem _)
  have hone : ∀ t ∈ (env.pick i combs.length n).zipIdx, ∃ x, (do
      let c ← getRow combs t.1
      let p ← edgeOf c
      let p0 ← getRow cluster p.1
      let p1 ← getRow cluster p.2
      let r0 ← getRow X p0
      let r1 ← getRow X p1
      return soiBetween (env.unif i t.2) r0 r1 : Res Row) = .ok x ∧ BetweenTwo d X cluster x := by
    rintro ⟨k, l⟩ ht
    have hk := hmem k (List.mem_of_getElem? (List.mem_zipIdx_iff_getElem?.1 ht))
    have hc : combs[k] ∈ combinations (List.range cluster.length) 2 := List.getElem_mem hk
    rw [mem_combinations] at hc
    obtain ⟨hsub, hc2⟩ := hc
    obtain ⟨p, q, hpq⟩ := List.length_eq_two.1 hc2
    have hpq' : combs[k] = [p, q] := hpq
    rw [hpq] at hsub
    have hne : p ≠ q := by
      have := List.nodup_range.sublist hsub
      simpa using this
    have hp : p < cluster.length := List.mem_range.1 (hsub.subset (by simp))
    have hq : q < cluster.length := List.mem_range.1 (hsub.subset (by simp))
    have m1 := List.getElem_mem hp
    have m2 := List.getElem_mem hq
    refine ⟨soiBetween (env.unif i l) (X.getD cluster[p] []) (X.getD cluster[q] []), ?_, ?_⟩
    · dsimp only
      rw [getRow_ok.2 (List.getElem?_eq_getElem hk), ok_bind, hpq']
      simp only [edgeOf, ok_bind]
      rw [getRow_ok.2 (List.getElem?_eq_getElem hp), ok_bind, getRow_ok.2 (List.getElem?_eq_getElem hq), ok_bind, hrow _ m1, ok_bind,
        hrow _ m2, ok_bind]
      rfl
    · have hz : (List.zip (X.getD cluster[p] []) (X.getD cluster[q] [])).length = d := by
        rw [List.length_zip, hlen _ m1, hlen _ m2, min_self]
      refine ⟨_, m1, _, m2, fun he => hne ((List.Nodup.getElem_inj_iff hnd).1 he), ?_, fun j hj => ?_⟩
      · unfold soiBetween
        rw [List.length_map, List.length_zipIdx, hz]
      · refine ⟨env.unif i l j, (hunif i l j).1, (hunif i l j).2, ?_⟩
        unfold soiBetween
        rw [zipIdx_map_getD (f := fun t j => t.1 + (t.2 - t.1) * env.unif i l j) (dflt := (0, 0)) (hj := by omega),
          getD_zip (by rw [hlen _ m1]; exact hj) (by rw [hlen _ m2]; exact hj)]
        ring
  obtain ⟨out, hout⟩ := mapM_exists_ok (fun t ht => ⟨_, (hone t ht).choose_spec.1⟩)
  refine ⟨out, hout, ?_, fun x hx => ?_⟩
  · rw [mapM_ok_length hout, List.length_zipIdx, hl]
  · obtain ⟨t, ht, htx⟩ := mapM_ok_mem hout hx
    obtain ⟨x', h1, h2⟩ := hone t ht
    rw [h1] at htx
    injection htx with htx
    subst htx
    exact h2

theorem soiJitter_spec {env : SoiEnv} {ss : SSParams} {vol : List Row → ℚ} {d : Nat} {X A : List Row} (hX : ∀ r ∈ X, r.length = d)
    (hk : KnnQueryOK env.knn) (hdr : ∀ i, (env.drs i).OK) (hu : ∀ t i j, 0 < (env.drs t).simplexU i j)
    (hstd : ∀ rows, (env.std rows).length = d) (hvol : ∀ vs, 0 < vol vs) (hd : 1 ≤ ss.nDim) (hmode : ss.simplexSampling ≠ .unknown)
    (hwi : ss.within = .random ∨ (ss.within = .deterministic ∧ ss.nDim ≤ 2)) {cluster : List Nat}
    (hlt : ∀ q ∈ cluster, q < X.length) (h1 : 1 ≤ cluster.length) (n i : Nat) :
    ∃ out, soiJitter env ss vol d X A cluster n i = .ok out ∧ out.length = n ∧
      ∀ x ∈ out, Jittered env ss.nDim d A (cluster.map (fun q => X.getD q [])) x := by
  unfold soiJitter
  rw [takeRows_map_getD [] hlt, ok_bind]
  set rows := cluster.map (fun q => X.getD q []) with hrows
  have hrl : rows.length = cluster.length := by rw [hrows, List.length_map]
  have hrd : ∀ r ∈ rows, r.length = d := by
    intro r hr
    obtain ⟨q, hq, rfl⟩ := List.mem_map.1 hr
    rw [List.getD_eq_getElem?_getD, List.getElem?_eq_getElem (hlt q hq)]
    exact hX _ (List.getElem_mem _)
  obtain ⟨q1, q2⟩ := hk rows.length rows rows (le_refl _)
  dsimp only
  obtain ⟨g, hg⟩ := sampleSimplex_ok (ss := { ss with gaussian := .none }) (vol := vol) (dr := env.drs i) (d := d) (X := rows)
    (indices := env.knn rows.length rows rows) (k := rows.length) (n := n) (a := {}) q2 (by rw [q1])
    (by intro he; rw [he, List.length_nil] at q1; omega) (by omega) hd rfl (by intro ws hws; cases hws) (by intro h; cases h)
    (by
      show ss.simplexSampling = .random ∨ ss.simplexSampling = .deterministic ∨ (ss.simplexSampling = .volume ∧ ∀ vs, 0 < vol vs)
      cases hm : ss.simplexSampling with
      | random => exact .inl rfl
      | deterministic => exact .inr (.inl rfl)
      | volume => exact .inr (.inr ⟨rfl, hvol⟩)
      | unknown => exact absurd hm hmode) (hdr i).choice (hu i) (by
        rcases hwi with h | ⟨h, h'⟩
        · exact .inl h
        · exact .inr ⟨h, by dsimp only; omega⟩)
  obtain ⟨g1, g2⟩ := sampleSimplex_simplexOf (ss := { ss with gaussian := .none }) hrd (by intro V hV; cases hV) rfl
    (by intro h; cases h) (hdr i) (by rw [q1]) rfl (by intro w hw; cases hw) rfl (fun vs => (hvol vs).le) hg
  rw [sampleSimplex_noise]
  simp only at hg ⊢
  rw [hg, ok_bind]
  refine ⟨_, rfl, by rw [addGaussianNoise_length, g1], fun x hx => ?_⟩
  simp only [addGaussianNoise, List.mem_map, Prod.exists] at hx
  obtain ⟨r, l, hr, rfl⟩ := hx
  have hrm := List.mem_of_getElem? (List.mem_zipIdx_iff_getElem?.1 hr)
  have hs := g2 r hrm
  have hrlen : r.length = d := by
    obtain ⟨b, base, row, nbIdx, nbrs, w, _, _, _, _, _, _, hc⟩ := hs
    exact hc.2.2.2.1
  set sig := List.zipWith min (env.std A) (env.std rows) with hsig
  have hsl : sig.length = d := by rw [hsig, List.length_zipWith, hstd, hstd, min_self]
  refine ⟨r, i, l, ?_, hrlen, ?_, fun j hj => ?_⟩
  · obtain ⟨b, base, row, nbIdx, nbrs, w, e1, _, e3⟩ := hs
    exact ⟨b, base, row, nbIdx, nbrs, w, e1, trivial, e3⟩
  · rw [List.length_zipWith, List.length_map, List.length_zipIdx, hsl, hrlen, min_self]
  · have e2 := zipIdx_map_getD sig (fun s j => (env.drs i).normalU l j * s) j 0 (by omega)
    have hm : (sig.zipIdx.map (fun t => (env.drs i).normalU l t.2 * t.1)).length = d := by rw [List.length_map, List.length_zipIdx, hsl]
    rw [List.getD_eq_getElem?_getD, List.getElem?_zipWith, List.getElem?_eq_getElem (by omega), List.getElem?_eq_getElem (by omega)]
    rw [List.getD_eq_getElem?_getD, List.getElem?_eq_getElem (by omega)] at e2
    simp only [Option.getD_some] at e2 ⊢
    rw [e2, hsig, List.getD_eq_getElem?_getD, List.getElem?_zipWith, List.getElem?_eq_getElem (by rw [hstd]; exact hj),
      List.getElem?_eq_getElem (by rw [hstd]; exact hj), List.getD_eq_getElem?_getD, List.getElem?_eq_getElem (by omega),
      List.getD_eq_getElem?_getD, List.getElem?_eq_getElem (by rw [hstd]; exact hj),
      List.getD_eq_getElem?_getD, List.getElem?_eq_getElem (by rw [hstd]; exact hj)]
    simp

/-! ## Sets without a common element -/

theorem soiEvent_disjoint {join : List Nat → List Nat → Bool} {idx cur jdx cj : Nat} {s : SoiState}
    (h : (s.objs.getD cur []).Disjoint (s.objs.getD cj [])) : soiEvent join idx cur jdx cj s = s := by
  unfold soiEvent
  dsimp only
  rw [if_pos]
  rw [List.length_eq_zero_iff, List.filter_eq_nil_iff]
  intro e he he'
  exact h he (of_decide_eq_true he')

theorem soiInner_disjoint {join : List Nat → List Nat → Bool} {idx cur : Nat} {s : SoiState} (l : List Nat) :
    ∀ {jdx : Nat}, (∀ r ∈ l, (s.objs.getD cur []).Disjoint (s.objs.getD r [])) → soiInner join idx cur jdx l s = s := by
  induction l with
  | nil => intro jdx _; rfl
  | cons cj l ih =>
    intro jdx h
    show soiInner join idx cur (jdx + 1) l (soiEvent join idx cur jdx cj s) = s
    rw [soiEvent_disjoint (h cj (by simp)), ih (fun r hr => h r (by simp [hr]))]

theorem soiOuter_disjoint {join : List Nat → List Nat → Bool} {s : SoiState} (m : Nat) :
    ∀ {idx : Nat}, idx + m = s.refs.length →
      (s.refs.drop idx).Pairwise (fun p q => (s.objs.getD p []).Disjoint (s.objs.getD q [])) → soiOuter join m idx s = s := by
  induction m with
  | zero => intro idx _ _; rfl
  | succ m ih =>
    intro idx hm h
    have hi : idx < s.refs.length := by omega
    rw [List.drop_eq_getElem_cons hi, List.pairwise_cons] at h
    show soiOuter join m (idx + 1) (soiInner join idx (s.refs.getD idx 0) 0 (s.refs.drop (idx + 1)) s) = s
    rw [soiInner_disjoint _ (by
      rw [List.getD_eq_getElem?_getD (l := s.refs), List.getElem?_eq_getElem hi]
      exact h.1), ih (by omega) h.2]

/-- Disjoint sets are kept, without the empty ones. -/
theorem soiLoop_disjoint {join : List Nat → List Nat → Bool} {fuel : Nat} {s : SoiState}
    (h : s.refs.Pairwise (fun p q => (s.objs.getD p []).Disjoint (s.objs.getD q []))) :
    soiLoop join (fuel + 1) s =
      some { s with refs := s.refs.filter (fun r => decide (0 < (s.objs.getD r []).length)), hit := false } := by
  have : soiRound join s = { s with refs := s.refs.filter (fun r => decide (0 < (s.objs.getD r []).length)), hit := false } := by
    unfold soiRound
    rw [soiOuter_disjoint (s := { s with hit := false }) s.refs.length (by simp) (by simpa using h)]
  unfold soiLoop
  dsimp only
  rw [this, if_neg (by simp)]

/-! ## Theorems -/

/-- SOI_CJ on every two-class data set with at least three minority rows, whatever the generator gives: if the clustering comes to an end,
the clusters are disjoint, and consist of minority rows which some minority row has nearer than every row of another class. Without a
cluster of three rows the data set is returned; otherwise as many minority rows as requested are appended, the clusters are drawn in
proportion to their sizes, and every draw of a cluster gives a row between two of its rows (interpolation), or a row near a simplex of its
rows (jittering). -/
theorem C107_soi {par : NbParams} {method : SoiMethod} {env : SoiEnv} {vol : List Row → ℚ} {fuel d : Nat} {X : List Row} {y : List Int}
    {a b : Int} (hwf : WF d X y) (hk : KnnQueryOK env.knn) (hord : ∀ c, (env.order c).Perm c) (hpick : ∀ i, PickOK (env.pick i))
    (hunif : ∀ t i j, 0 ≤ env.unif t i j ∧ env.unif t i j < 1) (hcu : ∀ i, 0 ≤ env.cu i ∧ env.cu i < 1) (hdr : ∀ i, (env.drs i).OK)
    (hu : ∀ t i j, 0 < (env.drs t).simplexU i j) (hstd : ∀ rows, (env.std rows).length = d) (hmin : IsMinority y a b)
    (hvol : ∀ vs, 0 < vol vs) (hd : 1 ≤ par.ss.nDim) (hmode : par.ss.simplexSampling ≠ .unknown)
    (hwi : par.ss.within = .random ∨ (par.ss.within = .deterministic ∧ par.ss.nDim ≤ 2)) (h3 : 2 < y.count a)
    (hn : 0 < requested par.proportion (y.count b) (y.count a)) :
    let A := classRows X y a
    let n := requested par.proportion (y.count b) (y.count a)
    let r := sample defaultChecks d (soiAlg par method env vol fuel d) X y
    r = .error .runtimeError ∨
    ∃ clusters : List (List Nat), clusters.Pairwise List.Disjoint ∧
      (∀ c ∈ clusters, c.Nodup ∧ c ≠ [] ∧ ∀ q ∈ c, y[q]? = some a ∧ ∃ row ∈ env.knn A.length X A, BeforeOthers y a row q) ∧
      let big := clusters.filter (fun c => decide (3 ≤ c.length))
      if big = [] then r = .ok (X, y)
      else ∃ (selected : List Nat) (new : List Row), r = .ok (X ++ new, y ++ List.replicate n a) ∧ new.length = n ∧
        DrawnByShares (shares (big.map (fun c => (c.length : ℚ)))) env.cu n selected ∧
        ByCluster big.length selected (fun c => SoiMade method env par.ss.nDim d X A (big.getD c [])) new := by
  intro A n r
  obtain ⟨s, hs, rfl, rfl⟩ := stats_of_isMinority hmin
  obtain ⟨hm, hM, hab⟩ := stats_min_mem hs
  have hA : A.length = y.count s.minLabel := classRows_length hwf.1 s.minLabel
  have hAX : A.length ≤ X.length := by
    rw [hA, hwf.1]
    exact List.count_le_length
  have hr : r = sample defaultChecks d (soiAlg par method env vol fuel d) X y := rfl
  rw [sample_default hs, if_neg (by omega)] at hr
  unfold soiAlg at hr
  rw [stats_count hs hm, stats_count hs hM, detN_eq_requested, ok_bind, if_neg (by omega)] at hr
  simp only [selectLabel_eq_classRows] at hr
  cases hcl : soiClusters env fuel X y s.minLabel with
  | error e =>
    rw [hcl] at hr
    left
    rw [hr]
    unfold soiClusters at hcl
    dsimp only at hcl
    split at hcl
    · injection hcl with hcl
      rw [← hcl]
      rfl
    · cases hcl
  | ok raw =>
    right
    rw [hcl, ok_bind] at hr
    obtain ⟨q1, q2⟩ := hk A.length X A hAX
    have hspec : (∀ c ∈ raw, c.Nodup ∧ c ≠ [] ∧ ∀ e ∈ c, ∃ row ∈ env.knn A.length X A, BeforeOthers y s.minLabel row e) ∧
        raw.Pairwise List.Disjoint := by
      unfold soiClusters at hcl
      dsimp only at hcl
      split at hcl
      · cases hcl
      · rename_i out hout
        injection hcl with hcl
        rw [← hcl]
        refine soiLoop_spec (U := fun e => ∃ row ∈ env.knn A.length X A, BeforeOthers y s.minLabel row e) fuel ⟨?_, ?_⟩ hout
        · intro r hr
          exact List.mem_range.1 hr
        · intro o ho
          simp only [selectLabel_eq_classRows] at ho
          obtain ⟨row, hrow, rfl⟩ := List.mem_map.1 ho
          have hs := soiStart_spec (y := y) (a := s.minLabel) (row := row) (fun j hj => by rw [← hwf.1]; exact (q2 row hrow).2 j hj)
          exact ⟨hs.1, fun e he => ⟨row, hrow, hs.2 e he⟩⟩
    refine ⟨raw.map env.order, ?_, ?_, ?_⟩
    · rw [List.pairwise_map]
      refine hspec.2.imp ?_
      intro c c' h e he he'
      exact h ((hord c).mem_iff.1 he) ((hord c').mem_iff.1 he')
    · intro c hc
      obtain ⟨c, hc0, rfl⟩ := List.mem_map.1 hc
      obtain ⟨g1, g2, g3⟩ := hspec.1 c hc0
      refine ⟨(hord c).nodup_iff.2 g1, ?_, fun q hq => ?_⟩
      · intro he
        have := hord c
        rw [he] at this
        exact g2 this.nil_eq.symm
      · obtain ⟨row, hrow, hb⟩ := g3 q ((hord c).mem_iff.1 hq)
        refine ⟨?_, row, hrow, hb⟩
        obtain ⟨m, r, _, _, hq, hall⟩ := hb
        exact hall q hq
    · intro big
      have hbig : (raw.filter (fun c => decide (2 < c.length))).map env.order = big := by
        show _ = (raw.map env.order).filter _
        rw [List.filter_map]
        congr 1
        apply List.filter_congr
        intro c _
        simp only [Function.comp, (hord c).length_eq]
        rfl
      rw [hbig] at hr
      by_cases he : big = []
      · rw [if_pos he]
        rw [if_pos (by rw [he]; rfl)] at hr
        exact hr
      rw [if_neg he]
      rw [if_neg (fun h => he (List.length_eq_zero_iff.1 h))] at hr
      have hbm : ∀ c ∈ big, c.Nodup ∧ 3 ≤ c.length ∧ ∀ q ∈ c, q < X.length := by
        intro c hc
        obtain ⟨hc1, hc2⟩ := List.mem_filter.1 hc
        obtain ⟨c, hc0, rfl⟩ := List.mem_map.1 hc1
        obtain ⟨g1, _, g3⟩ := hspec.1 c hc0
        refine ⟨(hord c).nodup_iff.2 g1, of_decide_eq_true hc2, fun q hq => ?_⟩
        obtain ⟨row, hrow, m, r, _, _, hq, _⟩ := g3 q ((hord c).mem_iff.1 hq)
        exact (q2 row hrow).2 q (List.mem_of_mem_take hq)
      set ws := big.map (fun c => (c.length : ℚ)) with hws
      have hw0 : ∀ x ∈ ws, 0 < x := by
        intro x hx
        obtain ⟨c, hc, rfl⟩ := List.mem_map.1 hx
        have := (hbm c hc).2.1
        exact_mod_cast (by omega : 0 < c.length)
      have hpos : 0 < ws.sum := sum_pos_of_all (by rw [hws, Ne, List.map_eq_nil_iff]; exact he) hw0
      have hsh := shares_nonzero hpos.ne'
      have hnorm : normalize ws = .ok (shares ws) := by unfold normalize; rw [if_neg hpos.ne', hsh]
      have hwl : (shares ws).length = big.length := by rw [shares_len, hws, List.length_map]
      obtain ⟨sel, hsel, hl, hmem⟩ := npChoice_ok (n := n) (p := shares ws) hwl (by
          intro x hx
          rw [hsh] at hx
          obtain ⟨q, hq, rfl⟩ := List.mem_map.1 hx
          exact div_nonneg (hw0 q hq).le hpos.le) (by rw [hsh, sum_map_div, div_self hpos.ne']) hcu
      have hlt : ∀ c ∈ sel, c < big.length := by
        intro c hc
        obtain ⟨x, hx, _⟩ := hmem c hc
        rw [← hwl]
        exact (List.getElem?_eq_some_iff.1 hx).1
      rw [hnorm, ok_bind] at hr
      rw [hsel, ok_bind] at hr
      have hcm : ∀ c, c ∈ sel → getRow big c = .ok (big.getD c []) ∧ big.getD c [] ∈ big := by
        intro c hc
        rw [List.getD_eq_getElem?_getD, List.getElem?_eq_getElem (hlt c hc)]
        exact ⟨getRow_ok.2 (List.getElem?_eq_getElem (hlt c hc)), List.getElem_mem _⟩
      obtain ⟨out, hout, hby⟩ := eachCluster_sound (m := big.length) (P := fun c => SoiMade method env par.ss.nDim d X A (big.getD c []))
        (gen := fun c n i => do
          let cluster ← getRow big c
          match method with
          | .interpolation => soiInterpolate env X cluster n i
          | .jittering => soiJitter env par.ss vol d X A cluster n i) hlt (by
          intro c i hc
          obtain ⟨e1, e2⟩ := hcm c hc
          obtain ⟨g1, g2, g3⟩ := hbm _ e2
          rw [e1, ok_bind]
          cases method with
          | interpolation => exact soiInterpolate_spec hwf.2 hpick hunif g1 g3 (by omega) _ i
          | jittering => exact soiJitter_spec hwf.2 hk hdr hu hstd hvol hd hmode hwi g3 (by omega) _ i)
      have hlen : out.length = n := by rw [ByCluster.length hby hlt, hl]
      refine ⟨sel, out, ?_, hlen, npChoice_drawn hcu hsel, hby⟩
      rw [hr]
      erw [hout]
      rw [ok_bind, ← hlen]
      rfl

/-- When the rows listed for the minority rows (as many as there are minority rows) are minority rows only, all clusters start empty, and
nothing is generated. -/
theorem C107_island {par : NbParams} {method : SoiMethod} {env : SoiEnv} {vol : List Row → ℚ} {fuel d : Nat} {X : List Row} {y : List Int}
    {a b : Int} (hwf : WF d X y) (hmin : IsMinority y a b)
    (hisl : ∀ row ∈ env.knn (y.count a) X (classRows X y a), ∀ j ∈ row, y[j]? = some a) :
    sample defaultChecks d (soiAlg par method env vol (fuel + 1) d) X y = .ok (X, y) := by
  obtain ⟨s, hs, rfl, rfl⟩ := stats_of_isMinority hmin
  obtain ⟨hm, hM, hab⟩ := stats_min_mem hs
  have hA : (classRows X y s.minLabel).length = y.count s.minLabel := classRows_length hwf.1 s.minLabel
  rw [sample_default hs]
  by_cases h3 : y.count s.minLabel ≤ 2
  · rw [if_pos (by omega)]
  rw [if_neg (by omega)]
  unfold soiAlg
  rw [stats_count hs hm, stats_count hs hM, detN_eq_requested, ok_bind]
  by_cases hreq : requested par.proportion (y.count s.majLabel) (y.count s.minLabel) = 0
  · rw [if_pos hreq]; rfl
  rw [if_neg hreq]
  have hemp : ∀ o ∈ (env.knn (classRows X y s.minLabel).length X (classRows X y s.minLabel)).map (soiStart y s.minLabel), o = [] := by
    intro o ho
    obtain ⟨row, hrow, rfl⟩ := List.mem_map.1 ho
    rw [hA] at hrow
    unfold soiStart
    dsimp only
    rw [if_neg]
    · simp
    · rw [not_lt, List.findIdx_eq_length.2]
      intro j hj
      have := hisl row hrow j hj
      rw [List.getD_eq_getElem?_getD, this]
      simp
  have hcl : soiClusters env (fuel + 1) X y s.minLabel = .ok [] := by
    unfold soiClusters
    simp only [selectLabel_eq_classRows]
    set start := (env.knn (classRows X y s.minLabel).length X (classRows X y s.minLabel)).map (soiStart y s.minLabel) with hst
    have hg : ∀ r, start.getD r [] = [] := by
      intro r
      rcases getD_mem_or start r with h | h
      · exact hemp _ h
      · exact h
    rw [soiLoop_disjoint (s := { refs := List.range start.length, objs := start, hit := true }) (by
      rw [List.pairwise_iff_forall_sublist]
      intro p q _
      show (start.getD p []).Disjoint (start.getD q [])
      rw [hg]
      simp)]
    dsimp only
    rw [List.filter_eq_nil_iff.2 (by intro r _; rw [hg]; simp)]
    rfl
  rw [hcl, ok_bind]
  rfl

/-! ## The loop ends if no clusters are merged -/

/-- All elements of all sets together. -/
def soiTotal (s : SoiState) : Nat := (s.objs.map List.length).sum

theorem soiTotal_set : ∀ (objs : List (List Nat)) (i : Nat) (x : List Nat), i < objs.length →
    ((objs.set i x).map List.length).sum + (objs.getD i []).length = (objs.map List.length).sum + x.length
  | [], i, x, h => by simp at h
  | c :: objs, 0, x, h => by simp; omega
  | c :: objs, i + 1, x, h => by
    have := soiTotal_set objs i x (by simpa using h)
    simp only [List.set_cons_succ, List.map_cons, List.sum_cons, List.getD_cons_succ]
    omega

/-- What an event does to the total when no clusters are merged. -/
def SoiShrinks (s s' : SoiState) : Prop :=
  soiTotal s' ≤ soiTotal s ∧ (s'.hit = true → s.hit = true ∨ soiTotal s' < soiTotal s)

theorem SoiShrinks.refl (s : SoiState) : SoiShrinks s s := ⟨le_refl _, Or.inl⟩

theorem SoiShrinks.trans {s s' s'' : SoiState} (h : SoiShrinks s s') (h' : SoiShrinks s' s'') : SoiShrinks s s'' := by
  refine ⟨h'.1.trans h.1, fun hh => ?_⟩
  rcases h'.2 hh with h1 | h1
  · rcases h.2 h1 with h2 | h2
    · exact Or.inl h2
    · exact Or.inr (lt_of_le_of_lt h'.1 h2)
  · exact Or.inr (lt_of_lt_of_le h1 h.1)

theorem soiEvent_shrinks {join : List Nat → List Nat → Bool} (hj : ∀ c c', join c c' = false) (idx cur jdx cj : Nat) (s : SoiState) :
    SoiShrinks s (soiEvent join idx cur jdx cj s) := by
  unfold soiEvent
  dsimp only
  split_ifs with h0 h1 h2
  · exact SoiShrinks.refl s
  · rw [hj] at h1; exact absurd h1 (by simp)
  all_goals
    obtain ⟨e, he⟩ := List.exists_mem_of_length_pos (Nat.pos_of_ne_zero h0)
    have hei := (List.mem_filter.1 he).1
    have hec : e ∈ s.objs.getD cj [] := by simpa using (List.mem_filter.1 he).2
  · have hlt : cj < s.objs.length := by
      by_contra hno
      rw [List.getD_eq_default _ _ (by omega)] at hec
      simp at hec
    have ht := soiTotal_set s.objs cj ((s.objs.getD cj []).filter (fun e => decide (e ∉
      (s.objs.getD cur []).filter (fun e => decide (e ∈ s.objs.getD cj []))))) hlt
    have hl := List.length_filter_lt_length_iff_exists (p := fun e => decide (e ∉
      (s.objs.getD cur []).filter (fun e => decide (e ∈ s.objs.getD cj [])))) |>.2 ⟨e, hec, show ¬ (decide (e ∉
      (s.objs.getD cur []).filter (fun e => decide (e ∈ s.objs.getD cj []))) = true) by simpa using he⟩
    refine ⟨?_, fun _ => Or.inr ?_⟩ <;> unfold soiTotal <;> dsimp only <;> omega
  · have hlt : cur < s.objs.length := by
      by_contra hno
      rw [List.getD_eq_default _ _ (by omega)] at hei
      simp at hei
    have ht := soiTotal_set s.objs cur ((s.objs.getD cur []).filter (fun e => decide (e ∉
      (s.objs.getD cur []).filter (fun e => decide (e ∈ s.objs.getD cj []))))) hlt
    have hl := List.length_filter_lt_length_iff_exists (p := fun e => decide (e ∉
      (s.objs.getD cur []).filter (fun e => decide (e ∈ s.objs.getD cj [])))) |>.2 ⟨e, hei, show ¬ (decide (e ∉
      (s.objs.getD cur []).filter (fun e => decide (e ∈ s.objs.getD cj []))) = true) by simpa using he⟩
    refine ⟨?_, fun _ => Or.inr ?_⟩ <;> unfold soiTotal <;> dsimp only <;> omega

theorem soiInner_shrinks {join : List Nat → List Nat → Bool} (hj : ∀ c c', join c c' = false) (idx cur : Nat) :
    ∀ (slice : List Nat) (jdx : Nat) (s : SoiState), SoiShrinks s (soiInner join idx cur jdx slice s)
  | [], _, s => SoiShrinks.refl s
  | cj :: rest, jdx, s => (soiEvent_shrinks hj idx cur jdx cj s).trans (soiInner_shrinks hj idx cur rest (jdx + 1) _)

theorem soiOuter_shrinks {join : List Nat → List Nat → Bool} (hj : ∀ c c', join c c' = false) :
    ∀ (m idx : Nat) (s : SoiState), SoiShrinks s (soiOuter join m idx s)
  | 0, _, s => SoiShrinks.refl s
  | m + 1, idx, s => (soiInner_shrinks hj idx _ _ 0 s).trans (soiOuter_shrinks hj m (idx + 1) _)

/-- If no two clusters are merged, the loop ends: after at most as many rounds with an intersection as all clusters together have
elements. -/
theorem C107_ends {join : List Nat → List Nat → Bool} (hj : ∀ c c', join c c' = false) :
    ∀ (fuel : Nat) (s : SoiState), (s.objs.map List.length).sum < fuel → ∃ s', soiLoop join fuel s = some s'
  | 0, _, h => absurd h (by omega)
  | fuel + 1, s, h => by
    unfold soiLoop
    dsimp only
    have hs := soiOuter_shrinks hj s.refs.length 0 { s with hit := false }
    split_ifs with hh
    · apply C107_ends hj fuel
      have h1 := hs.2 hh
      simp only [Bool.false_eq_true, false_or] at h1
      have h2 : (s.objs.map List.length).sum = soiTotal { s with hit := false } := rfl
      have h3 : ((soiRound join s).objs.map List.length).sum = soiTotal (soiOuter join s.refs.length 0 { s with hit := false }) := rfl
      omega
    · exact ⟨_, rfl⟩

/-- Two clusters which are joined: only the second one is left, as it was. The rows of the first one are in no cluster any more. -/
theorem C107_joined {join : List Nat → List Nat → Bool} {c c' : List Nat} {fuel : Nat} (h : ¬ c.Disjoint c') (hj : join c c' = true) :
    ∃ s, soiLoop join (fuel + 2) { refs := [0, 1], objs := [c, c'], hit := true } = some s ∧
      s.refs.map (fun r => s.objs.getD r []) = [c'] := by
  have hi : (c.filter (fun e => decide (e ∈ c'))).length ≠ 0 := by
    intro h0
    apply h
    intro e he he'
    have : e ∈ c.filter (fun e => decide (e ∈ c')) := List.mem_filter.2 ⟨he, decide_eq_true he'⟩
    rw [List.length_eq_zero_iff.1 h0] at this
    simp at this
  have hc' : 0 < c'.length := by
    rw [List.length_pos_iff]
    rintro rfl
    exact h (by simp)
  have h1 : soiRound join { refs := [0, 1], objs := [c, c'], hit := true } =
      { refs := [1], objs := [c ++ c'.filter (fun e => decide (e ∉ c)), c', []], hit := true } := by
    unfold soiRound
    have : soiOuter join 2 0 { refs := [0, 1], objs := [c, c'], hit := false } =
        { refs := [2, 1], objs := [c ++ c'.filter (fun e => decide (e ∉ c)), c', []], hit := true } := by
      have he : soiEvent join 0 0 0 1 { refs := [0, 1], objs := [c, c'], hit := false } =
          { refs := [2, 1], objs := [c ++ c'.filter (fun e => decide (e ∉ c)), c', []], hit := true } := by
        show (if (c.filter (fun e => decide (e ∈ c'))).length = 0 then _ else if join c c' = true then _ else _) = _
        rw [if_neg hi, if_pos hj]
        rfl
      show soiOuter join 1 1 (soiEvent join 0 0 0 1 { refs := [0, 1], objs := [c, c'], hit := false }) = _
      rw [he]
      rfl
    simp only [List.length_cons, List.length_nil, Nat.zero_add, Nat.reduceAdd]
    rw [this]
    simp [hc']
  refine ⟨{ refs := [1], objs := [c ++ c'.filter (fun e => decide (e ∉ c)), c', []], hit := false }, ?_, ?_⟩
  · show (if (soiRound join { refs := [0, 1], objs := [c, c'], hit := true }).hit then
      soiLoop join (fuel + 1) (soiRound join { refs := [0, 1], objs := [c, c'], hit := true }) else _) = _
    rw [h1, if_pos rfl, soiLoop_disjoint (by simp)]
    simp [hc']
  · rfl

/-! ## Concrete data sets -/

/-- The rows in the ball between two rows. -/
def cjBall (X : List Row) (p q : Row) : List Nat :=
  let m := List.zipWith (fun s t => (s + t) / 2) p q
  (List.range X.length).filter (fun i => decide (sqDist (X.getD i []) m ≤ sqDist p m))

def cjEnv (X : List Row) : SoiEnv :=
  { knn := bruteQuery, dist := sqDist, ball := cjBall X, order := id, std := fun _ => [1 / 2],
    pick := fun _ m n => (List.range n).map (· % m), unif := fun _ i _ => 1 / (i + 2), drs := fun _ => { exDraws with normalU := fun i _ => i },
    cu := fun i => if i = 0 then 0 else 1 / 2 }

def cjPar : NbParams :=
  { proportion := 1, nNeighbors := 2, ss := { nDim := 1, simplexSampling := .random, within := .random, gaussian := .none } }

/-- One group of three minority rows next to the majority. -/
def cjX : List Row := [[0], [1], [2], [5], [6], [7], [8], [9]]
def cjY : List Int := [1, 1, 1, 0, 0, 0, 0, 0]

/-- Two such groups. -/
def cjX2 : List Row := [[0], [1], [2], [6], [7], [8], [9], [100], [101], [102], [106], [107], [108], [109]]
def cjY2 : List Int := [1, 1, 1, 0, 0, 0, 0, 1, 1, 1, 0, 0, 0, 0]

/-- The same groups, with the majority closer. -/
def cjX3 : List Row := [[0], [1], [2], [3], [4], [5], [6], [100], [101], [102], [103], [104], [105], [106]]

theorem cjEnv_ok (X : List Row) : KnnQueryOK (cjEnv X).knn ∧ (∀ c, ((cjEnv X).order c).Perm c) ∧ (∀ i, PickOK ((cjEnv X).pick i)) ∧
    (∀ t i j, 0 ≤ (cjEnv X).unif t i j ∧ (cjEnv X).unif t i j < 1) ∧ (∀ i, 0 ≤ (cjEnv X).cu i ∧ (cjEnv X).cu i < 1) := by
  refine ⟨bruteQuery_ok, fun c => List.Perm.refl _, fun i m n hm => ⟨by simp [cjEnv], fun j hj => ?_⟩, fun t i j => ⟨?_, ?_⟩, fun i => ?_⟩
  · obtain ⟨k, _, rfl⟩ := List.mem_map.1 hj
    exact Nat.mod_lt _ hm
  · show (0 : ℚ) ≤ 1 / ((i : ℚ) + 2)
    positivity
  · show 1 / ((i : ℚ) + 2) < 1
    rw [div_lt_one (by positivity)]
    have : (0 : ℚ) ≤ (i : ℚ) := Nat.cast_nonneg i
    linarith
  · show 0 ≤ (if i = 0 then (0 : ℚ) else 1 / 2) ∧ (if i = 0 then (0 : ℚ) else 1 / 2) < 1
    split <;> norm_num

example : WF 1 cjX2 cjY2 ∧ IsMinority cjY2 1 0 ∧ 2 < cjY2.count 1 ∧ requested cjPar.proportion (cjY2.count 0) (cjY2.count 1) = 2 :=
  ⟨⟨rfl, by decide +kernel⟩, ⟨by decide, by decide, by decide, Or.inl (by decide)⟩, by decide, by decide +kernel⟩

/-- A single group, apart from the majority: nothing is generated (`C107_island`). -/
example : (∀ row ∈ (cjEnv cjX).knn (cjY.count 1) cjX (classRows cjX cjY 1), ∀ j ∈ row, cjY[j]? = some 1) ∧
    sample defaultChecks 1 (soiAlg cjPar .jittering (cjEnv cjX) (fun _ => 1) 5 1) cjX cjY = .ok (cjX, cjY) := by
  constructor <;> decide +kernel

/-- Two groups of three minority rows far from each other, every row with its whole group as its cluster: the first group gets lost, all
new rows belong to the second. With the majority closer, both groups get lost, and nothing is generated. -/
theorem C107_lost :
    ((cjEnv cjX2).knn 6 cjX2 (classRows cjX2 cjY2 1)).map (soiStart cjY2 1) =
      [[0, 1, 2], [1, 0, 2], [2, 1, 0], [7, 8, 9], [8, 7, 9], [9, 8, 7]] ∧
    soiClusters (cjEnv cjX2) 10 cjX2 cjY2 1 = .ok [[9, 8, 7]] ∧
    sample defaultChecks 1 (soiAlg cjPar .interpolation (cjEnv cjX2) (fun _ => 1) 10 1) cjX2 cjY2 =
      .ok (cjX2 ++ [[203 / 2], [304 / 3]], cjY2 ++ [1, 1]) ∧
    sample defaultChecks 1 (soiAlg cjPar .jittering (cjEnv cjX2) (fun _ => 1) 10 1) cjX2 cjY2 =
      .ok (cjX2 ++ [[101], [203 / 2]], cjY2 ++ [1, 1]) ∧
    ((cjEnv cjX3).knn 6 cjX3 (classRows cjX3 cjY2 1)).map (soiStart cjY2 1) =
      [[0, 1, 2], [1, 0, 2], [2, 1], [7, 8, 9], [8, 7, 9], [9, 8]] ∧
    sample defaultChecks 1 (soiAlg cjPar .interpolation (cjEnv cjX3) (fun _ => 1) 10 1) cjX3 cjY2 = .ok (cjX3, cjY2) := by
  refine ⟨?_, ?_, ?_, ?_, ?_, ?_⟩ <;> decide +kernel

example : ¬ [0, 1, 2].Disjoint [2, 3] := fun h => h (a := 2) (by simp) (by simp)

end Verif

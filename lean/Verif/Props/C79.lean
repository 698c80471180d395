import Verif.Model.Ahc
import Verif.Props.C54
import Verif.Props.C19
import Verif.Lemmas.Clusters
import Verif.Lemmas.SmoteExample

/-! # C79: AHC -/

namespace Verif

/-! ## Specification -/

/-- What `AgglomerativeClustering` returns for `n` rows: `n - 1` merges; merge `k` joins two nodes made before it, the smaller number
first, into node `n + k`; every node but the last is joined to something. -/
structure Dendrogram (n : Nat) (children : List (Nat × Nat)) : Prop where
  size : children.length + 1 = n
  order : ∀ k a b : Nat, children[k]? = some (a, b) → a < b ∧ b < n + k
  joined : ∀ m, m + 2 < 2 * n → ∃ k a b : Nat, children[k]? = some (a, b) ∧ (m = a ∨ m = b)

/-- The rows below a node of the dendrogram. -/
inductive ClusterOf (n : Nat) (children : List (Nat × Nat)) : Nat → List Nat → Prop
  | leaf {i : Nat} (h : i < n) : ClusterOf n children i [i]
  | node {k a b : Nat} {l m : List Nat} (h : children[k]? = some (a, b)) (ha : ClusterOf n children a l) (hb : ClusterOf n children b m) :
      ClusterOf n children (n + k) (l ++ m)

/-- `z` is the mean of the rows of the cluster. -/
def MeanOfCluster (d : Nat) (A : List Row) (children : List (Nat × Nat)) (node : Nat) (z : Row) : Prop :=
  ∃ l, ClusterOf A.length children node l ∧ IsMean d (l.map (fun i => A.getD i [])) z

/-! ## Means -/

theorem isMean_append {d : Nat} {l m : List Row} {x y : Row} (hl : l ≠ []) (hx : IsMean d l x) (hy : IsMean d m y) :
    IsMean d (l ++ m) (Row.smul (1 / ((l.length : ℚ) + m.length)) (Row.add (Row.smul l.length x) (Row.smul m.length y))) := by
  have hp : (0 : ℚ) < l.length := by exact_mod_cast List.length_pos_iff.2 hl
  have hq : (0 : ℚ) ≤ m.length := by positivity
  refine ⟨by simp [hx.1, hy.1], fun k hk => ?_⟩
  rw [Row.smul_getD, Row.add_getD (by simp [hx.1, hk]) (by simp [hy.1, hk]), Row.smul_getD, Row.smul_getD, List.length_append,
    List.map_append, List.sum_append, ← hx.2 k hk, ← hy.2 k hk]
  push_cast
  field_simp

theorem ClusterOf.ne_nil {n : Nat} {children : List (Nat × Nat)} {i : Nat} {l : List Nat} (h : ClusterOf n children i l) : l ≠ [] := by
  induction h with
  | leaf _ => simp
  | node _ _ _ iha _ => simp [iha]

theorem ClusterOf.lt {n : Nat} {children : List (Nat × Nat)} {i : Nat} {l : List Nat} (h : ClusterOf n children i l) : ∀ j ∈ l, j < n := by
  induction h with
  | leaf h => intro j hj; simp only [List.mem_singleton] at hj; omega
  | node _ _ _ iha ihb =>
    intro j hj
    rcases List.mem_append.1 hj with h | h
    · exact iha j h
    · exact ihb j h

/-! ## The recursion -/

/-- A node is a row or its entry has been computed. -/
def NodeDone (n : Nat) (st : List (Option (Row × ℚ))) (m : Nat) : Prop := m < n ∨ ∃ v, st[m - n]? = some (some v)

/-- A computed centre with its weight. -/
def CentreOf (d : Nat) (A : List Row) (children : List (Nat × Nat)) (node : Nat) (v : Row × ℚ) : Prop :=
  ∃ l, ClusterOf A.length children node l ∧ IsMean d (l.map (fun i => A.getD i [])) v.1 ∧ v.2 = l.length

/-- The entries computed so far are right, and with a node its children are computed. -/
structure AhcInv (d : Nat) (A : List Row) (children : List (Nat × Nat)) (st : List (Option (Row × ℚ))) : Prop where
  size : st.length = children.length
  right : ∀ (k : Nat) (v : Row × ℚ), st[k]? = some (some v) → CentreOf d A children (A.length + k) v
  closed : ∀ (k : Nat) (v : Row × ℚ) (a b : Nat), st[k]? = some (some v) → children[k]? = some (a, b) → NodeDone A.length st a ∧ NodeDone A.length st b

theorem ahcCenters_spec {d : Nat} {A : List Row} {children : List (Nat × Nat)} (hA : ∀ r ∈ A, r.length = d)
    (hord : ∀ k a b : Nat, children[k]? = some (a, b) → a < b ∧ b < A.length + k) :
    ∀ (f idx : Nat) (st : List (Option (Row × ℚ))), AhcInv d A children st → idx < A.length + children.length →
      (idx < A.length ∧ 1 ≤ f ∨ A.length ≤ idx ∧ idx + 2 ≤ f + A.length) →
      ∃ v st', ahcCenters A children f idx st = .ok (v, st') ∧ AhcInv d A children st' ∧
        (∀ (k : Nat) (w : Row × ℚ), st[k]? = some (some w) → st'[k]? = some (some w)) ∧ CentreOf d A children idx v ∧
        (A.length ≤ idx → st'[idx - A.length]? = some (some v)) := by
  intro f
  induction f with
  | zero => intro idx st _ _ h; exfalso; omega
  | succ f ih =>
    intro idx st hinv hlt hf
    unfold ahcCenters
    by_cases hc : idx < A.length
    · rw [if_pos hc, getRow_ok.2 (List.getElem?_eq_getElem hc), ok_bind]
      refine ⟨_, _, rfl, hinv, fun _ _ h => h, ⟨[idx], .leaf hc, ⟨hA _ (List.getElem_mem hc), fun k _ => ?_⟩, by simp⟩, fun h => by omega⟩
      simp [List.getD_eq_getElem?_getD, List.getElem?_eq_getElem hc]
    · rw [if_neg hc]
      set k := idx - A.length with hk
      have hkl : k < children.length := by omega
      have hks : k < st.length := by rw [hinv.size]; exact hkl
      have hidx : idx = A.length + k := by omega
      rw [getRow_ok.2 (List.getElem?_eq_getElem hks), ok_bind]
      cases hv : st[k] with
      | some v =>
        have hv' : st[k]? = some (some v) := by rw [List.getElem?_eq_getElem hks, hv]
        exact ⟨v, st, rfl, hinv, fun _ _ h => h, hidx ▸ hinv.right k v hv', fun _ => hv'⟩
      | none =>
        dsimp only
        have hch := List.getElem?_eq_getElem hkl
        obtain ⟨o1, o2⟩ := hord k children[k].1 children[k].2 hch
        rw [getRow_ok.2 hch, ok_bind]
        obtain ⟨va, s1, a1, a2, a3, a4, a5⟩ := ih children[k].1 st hinv (by omega) (by omega)
        obtain ⟨vb, s2, b1, b2, b3, b4, b5⟩ := ih children[k].2 s1 a2 (by omega) (by omega)
        rw [a1, ok_bind]
        dsimp only
        rw [b1, ok_bind]
        dsimp only
        obtain ⟨la, c1, c2, c3⟩ := a4
        obtain ⟨lb, e1, e2, e3⟩ := b4
        set v : Row × ℚ := (Row.smul (1 / (va.2 + vb.2)) (Row.add (Row.smul va.2 va.1) (Row.smul vb.2 vb.1)), va.2 + vb.2) with hvd
        have hcv : CentreOf d A children (A.length + k) v := by
          refine ⟨la ++ lb, .node hch c1 e1, ?_, ?_⟩
          · have := isMean_append (d := d) (by simpa using c1.ne_nil) c2 e2
            rw [List.length_map, List.length_map, ← c3, ← e3] at this
            rw [List.map_append]
            exact this
          · rw [hvd, List.length_append]
            push_cast
            rw [c3, e3]
        have hks2 : k < s2.length := by rw [b2.size]; exact hkl
        have hset : ∀ j w, s2[j]? = some (some w) → (s2.set k (some v))[j]? = some (some w) ∨ j = k := by
          intro j w hj
          by_cases hjk : j = k
          · exact Or.inr hjk
          · left
            rw [List.getElem?_set_ne (by omega)]
            exact hj
        have hself : (s2.set k (some v))[k]? = some (some v) := by
          rw [List.getElem?_set_self hks2]
        have hdone : ∀ m, NodeDone A.length s2 m → NodeDone A.length (s2.set k (some v)) m := by
          rintro m (h | ⟨w, h⟩)
          · exact Or.inl h
          · rcases hset _ _ h with h' | h'
            · exact Or.inr ⟨w, h'⟩
            · exact Or.inr ⟨v, by rw [h']; exact hself⟩
        have hsk : ∀ w, st[k]? ≠ some (some w) := by
          intro w h
          rw [List.getElem?_eq_getElem hks, hv] at h
          injection h with h
          cases h
        refine ⟨v, _, rfl, ⟨by rw [List.length_set]; exact b2.size, ?_, ?_⟩, ?_, hidx ▸ hcv, fun _ => hself⟩
        · intro j w hj
          by_cases hjk : j = k
          · subst hjk
            rw [hself] at hj
            injection hj with hj
            injection hj with hj
            subst hj
            exact hcv
          · rw [List.getElem?_set_ne (by omega)] at hj
            exact b2.right j w hj
        · intro j w a b hj hab
          by_cases hjk : j = k
          · subst hjk
            rw [hch] at hab
            injection hab with hab
            constructor
            · apply hdone
              have : a = children[k].1 := by rw [hab]
              rw [this]
              by_cases hl : children[k].1 < A.length
              · exact Or.inl hl
              · exact Or.inr ⟨va, b3 _ _ (a5 (by omega))⟩
            · apply hdone
              have : b = children[k].2 := by rw [hab]
              rw [this]
              by_cases hl : children[k].2 < A.length
              · exact Or.inl hl
              · exact Or.inr ⟨vb, b5 (by omega)⟩
          · rw [List.getElem?_set_ne (by omega)] at hj
            obtain ⟨h1, h2⟩ := b2.closed j w a b hj hab
            exact ⟨hdone _ h1, hdone _ h2⟩
        · intro j w hj
          have := b3 j w (a3 j w hj)
          rcases hset _ _ this with h | h
          · exact h
          · exact absurd (h ▸ hj) (hsk w)

/-! ## The new rows -/

/-- **The new rows**: one for every merge, the mean of the merged cluster. -/
theorem ahcMinority_spec {d depth : Nat} {A : List Row} {children : List Row → List (Nat × Nat)} (hA : ∀ r ∈ A, r.length = d)
    (hD : Dendrogram A.length (children A)) (h2 : 2 ≤ A.length) (hdep : A.length ≤ depth) :
    ∃ new, ahcMinority children depth A = .ok new ∧ new.length + 1 = A.length ∧
      ∀ k z, new[k]? = some z → MeanOfCluster d A (children A) (A.length + k) z := by
  set ch := children A with hch
  set n := A.length with hn
  have hsz := hD.size
  have hne : ch ≠ [] := by intro h; rw [h] at hsz; simp at hsz; omega
  have hlast : ∃ a, ch.getLast? = some (a, 2 * n - 3) := by
    obtain ⟨k, a, b, h1, h3⟩ := hD.joined (2 * n - 3) (by omega)
    obtain ⟨o1, o2⟩ := hD.order k a b h1
    have hk : k < ch.length := (List.getElem?_eq_some_iff.1 h1).1
    have hb : b = 2 * n - 3 := by omega
    refine ⟨a, ?_⟩
    rw [List.getLast?_eq_getElem?, ← hb, ← h1]
    congr 1
    omega
  obtain ⟨a0, hlast⟩ := hlast
  have hinv : AhcInv d A ch (List.replicate ch.length none) := by
    refine ⟨by simp, ?_, ?_⟩
    · intro k v h
      rw [List.getElem?_replicate] at h
      split at h <;> simp at h
    · intro k v a b h
      rw [List.getElem?_replicate] at h
      split at h <;> simp at h
  obtain ⟨v, st, r1, r2, r3, r4, r5⟩ := ahcCenters_spec hA hD.order depth (2 * n - 3 + 1) _ hinv (by omega) (by omega)
  have hall : ∀ m, n + m ≤ 2 * n - 2 → ∃ w, st[2 * n - 2 - n - m]? = some (some w) := by
    intro m
    induction m using Nat.strong_induction_on with
    | _ m ih =>
      intro hm
      rcases Nat.eq_zero_or_pos m with rfl | hp
      · refine ⟨v, ?_⟩
        have := r5 (by omega)
        rw [← this]
        congr 1
        omega
      · obtain ⟨k, a, b, h1, h3⟩ := hD.joined (2 * n - 2 - m) (by omega)
        obtain ⟨o1, o2⟩ := hD.order k a b h1
        have hk : k < ch.length := (List.getElem?_eq_some_iff.1 h1).1
        obtain ⟨w, hw⟩ := ih (n - 2 - k) (by omega) (by omega)
        have e : 2 * n - 2 - n - (n - 2 - k) = k := by omega
        rw [e] at hw
        obtain ⟨d1, d2⟩ := r2.closed k w a b hw h1
        have hd : NodeDone n st (2 * n - 2 - m) := by
          rcases h3 with h | h
          · rw [h]; exact d1
          · rw [h]; exact d2
        rcases hd with h | ⟨u, hu⟩
        · omega
        · refine ⟨u, ?_⟩
          rw [← hu]
          congr 1
          omega
  have hall' : ∀ c ∈ st, ∃ w, c = some w := by
    intro c hc
    obtain ⟨k, hk, e⟩ := List.getElem_of_mem hc
    have hkc : k < ch.length := by rw [← r2.size]; exact hk
    obtain ⟨w, hw⟩ := hall (n - 2 - k) (by omega)
    have e2 : 2 * n - 2 - n - (n - 2 - k) = k := by omega
    rw [e2, List.getElem?_eq_getElem hk, e] at hw
    exact ⟨w, by injection hw⟩
  obtain ⟨new, hnew⟩ := mapM_exists_ok (l := st) (f := fun c => match c with
      | none => (.error .valueError : Res Row)
      | some v => .ok v.1) (by
    intro c hc
    obtain ⟨w, rfl⟩ := hall' c hc
    exact ⟨_, rfl⟩)
  have hf := mapM_ok_iff.1 hnew
  refine ⟨new, ?_, ?_, ?_⟩
  · unfold ahcMinority
    dsimp only
    rw [← hch, hlast]
    dsimp only
    rw [r1, ok_bind]
    exact hnew
  · rw [← hf.length_eq, r2.size]
    exact hsz
  · intro k z hz
    obtain ⟨hk, e⟩ := List.getElem?_eq_some_iff.1 hz
    have hk' : k < st.length := by rw [hf.length_eq]; exact hk
    have hfk := hf.get hk' hk
    simp only [List.get_eq_getElem] at hfk
    obtain ⟨w, hw⟩ := hall' _ (List.getElem_mem hk')
    rw [hw] at hfk
    injection hfk with hfk
    obtain ⟨l, l1, l2, _⟩ := r2.right k w (by rw [List.getElem?_eq_getElem hk', hw])
    refine ⟨l, l1, ?_⟩
    rw [← e, ← hfk]
    exact l2

/-- The sizes of both classes after the run. -/
def ClassSizes (y' : List Int) (a b : Int) (p q : Nat) : Prop := y'.count a = p ∧ y'.count b = q ∧ y'.length = p + q

theorem classSizes_replicate {a b : Int} (h : a ≠ b) (p q : Nat) :
    ClassSizes (List.replicate p a ++ List.replicate q b) a b p q := by
  refine ⟨?_, ?_, by simp⟩
  · rw [List.count_append, List.count_replicate_self, List.count_replicate]
    simp [h.symm]
  · rw [List.count_append, List.count_replicate_self, List.count_replicate]
    simp [h]

/-- **AHC, strategy `min`**: the minority class grows to `2 m - 1` rows, whatever the size of the majority class is. The output is not
the input with rows appended: the new rows come first, then the minority rows, then the majority rows. -/
theorem C79_min {children : List Row → List (Nat × Nat)} {kmeans : Nat → List Row → List Row} {depth d : Nat} {X : List Row} {y : List Int}
    {a b : Int} (hwf : WF d X y) (hmin : IsMinority y a b) (h3 : 2 < y.count a)
    (hD : Dendrogram (y.count a) (children (classRows X y a))) (hdep : y.count a ≤ depth) :
    ∃ new y', sample defaultChecks d (ahcAlg .min children kmeans depth) X y =
        .ok (new ++ classRows X y a ++ classRows X y b, y') ∧ new.length + 1 = y.count a ∧
      (∀ k z, new[k]? = some z → MeanOfCluster d (classRows X y a) (children (classRows X y a)) (y.count a + k) z) ∧
      y' = List.replicate (2 * y.count a - 1) a ++ List.replicate (y.count b) b := by
  obtain ⟨s, hs, rfl, rfl⟩ := stats_of_isMinority hmin
  have hA : (classRows X y s.minLabel).length = y.count s.minLabel := classRows_length hwf.1 _
  have hB : (classRows X y s.majLabel).length = y.count s.majLabel := classRows_length hwf.1 _
  have hlen : ∀ r ∈ classRows X y s.minLabel, r.length = d := fun r hr => hwf.2 r (mem_of_mem_classRows hr)
  rw [← hA] at hD hdep
  obtain ⟨new, n1, n2, n3⟩ := ahcMinority_spec hlen hD (by omega) hdep
  rw [hA] at n2 n3
  refine ⟨new, _, ?_, n2, n3, rfl⟩
  rw [sample_default hs, if_neg (by omega)]
  unfold ahcAlg
  simp only [selectLabel_eq_classRows]
  rw [n1, ok_bind, hA, hB, show new.length + y.count s.minLabel = 2 * y.count s.minLabel - 1 by omega]
  rfl

/-- **AHC, strategy `maj`**: both classes have as many rows as the minority class had; the majority rows are centres. -/
theorem C79_maj {children : List Row → List (Nat × Nat)} {kmeans : Nat → List Row → List Row} {depth d : Nat} {X : List Row} {y : List Int}
    {a b : Int} (hwf : WF d X y) (hmin : IsMinority y a b) (h3 : 2 < y.count a) (hkm : ∀ n rows, n ≤ rows.length → (kmeans n rows).length = n) :
    sample defaultChecks d (ahcAlg .maj children kmeans depth) X y =
      .ok (classRows X y a ++ kmeans (y.count a) (classRows X y b), List.replicate (y.count a) a ++ List.replicate (y.count a) b) := by
  have hle : y.count a ≤ y.count b := by have := hmin.2.2.2; omega
  obtain ⟨s, hs, rfl, rfl⟩ := stats_of_isMinority hmin
  have hA : (classRows X y s.minLabel).length = y.count s.minLabel := classRows_length hwf.1 _
  have hB : (classRows X y s.majLabel).length = y.count s.majLabel := classRows_length hwf.1 _
  rw [sample_default hs, if_neg (by omega)]
  unfold ahcAlg
  simp only [selectLabel_eq_classRows]
  rw [hA, hkm _ _ (by omega)]
  rfl

/-- **AHC, strategy `minmaj`**: as `min`, but a majority class larger than the new minority class is replaced by as many centres. -/
theorem C79_minmaj {children : List Row → List (Nat × Nat)} {kmeans : Nat → List Row → List Row} {depth d : Nat} {X : List Row}
    {y : List Int} {a b : Int} (hwf : WF d X y) (hmin : IsMinority y a b) (h3 : 2 < y.count a)
    (hkm : ∀ n rows, n ≤ rows.length → (kmeans n rows).length = n)
    (hD : Dendrogram (y.count a) (children (classRows X y a))) (hdep : y.count a ≤ depth) :
    ∃ new y', sample defaultChecks d (ahcAlg .minmaj children kmeans depth) X y =
        .ok (new ++ classRows X y a ++ kmeans (min (y.count b) (2 * y.count a - 1)) (classRows X y b), y') ∧ new.length + 1 = y.count a ∧
      (∀ k z, new[k]? = some z → MeanOfCluster d (classRows X y a) (children (classRows X y a)) (y.count a + k) z) ∧
      y' = List.replicate (2 * y.count a - 1) a ++ List.replicate (min (y.count b) (2 * y.count a - 1)) b := by
  obtain ⟨s, hs, rfl, rfl⟩ := stats_of_isMinority hmin
  have hA : (classRows X y s.minLabel).length = y.count s.minLabel := classRows_length hwf.1 _
  have hB : (classRows X y s.majLabel).length = y.count s.majLabel := classRows_length hwf.1 _
  have hlen : ∀ r ∈ classRows X y s.minLabel, r.length = d := fun r hr => hwf.2 r (mem_of_mem_classRows hr)
  rw [← hA] at hD hdep
  obtain ⟨new, n1, n2, n3⟩ := ahcMinority_spec hlen hD (by omega) hdep
  rw [hA] at n2 n3
  refine ⟨new, _, ?_, n2, n3, rfl⟩
  rw [sample_default hs, if_neg (by omega)]
  unfold ahcAlg
  simp only [selectLabel_eq_classRows]
  rw [n1, ok_bind, hA, hB, show new.length + y.count s.minLabel = 2 * y.count s.minLabel - 1 by omega, hkm _ _ (by omega)]
  rfl

/-- **New rows are in the hull** of the minority class. -/
theorem C79_hull {d : Nat} {A : List Row} {children : List (Nat × Nat)} {node : Nat} {z : Row}
    (h : MeanOfCluster d A children node z) : InHull d A z := by
  obtain ⟨l, h1, h2⟩ := h
  refine (isMean_inHull (by simpa using h1.ne_nil) h2).mono ?_
  intro r hr
  obtain ⟨i, hi, rfl⟩ := List.mem_map.1 hr
  have := h1.lt i hi
  rw [List.getD_eq_getElem?_getD, List.getElem?_eq_getElem this]
  exact List.getElem_mem this

/-- **The minority class may outgrow the majority class**: it does whenever the majority class has fewer than `2 m - 1` rows. Nothing
is checked before, a balanced data set becomes unbalanced. -/
theorem C79_outgrows {children : List Row → List (Nat × Nat)} {kmeans : Nat → List Row → List Row} {depth d : Nat} {X X' : List Row}
    {y y' : List Int} {a b : Int} (hwf : WF d X y) (hmin : IsMinority y a b) (h3 : 2 < y.count a)
    (hD : Dendrogram (y.count a) (children (classRows X y a))) (hdep : y.count a ≤ depth) (hb : y.count b < 2 * y.count a - 1)
    (h : sample defaultChecks d (ahcAlg .min children kmeans depth) X y = .ok (X', y')) : y'.count b < y'.count a := by
  obtain ⟨new, y'', e1, _, _, e2⟩ := C79_min (kmeans := kmeans) hwf hmin h3 hD hdep
  rw [h] at e1
  injection e1 with e1
  obtain ⟨_, rfl⟩ := Prod.mk.inj e1
  have hab : a ≠ b := by
    rintro rfl
    rcases hmin.2.2.2 with h | h
    · omega
    · exact absurd h.2 (lt_irrefl _)
  have := classSizes_replicate hab (2 * y.count a - 1) (y.count b)
  rw [← e2] at this
  rw [this.1, this.2.1]
  exact hb

/-! ## The depth of the recursion -/

/-- The dendrogram in which every merge adds one row to the cluster of the merge before. -/
def chainTree (n : Nat) : List (Nat × Nat) := (List.range (n - 1)).map (fun k => if k = 0 then (0, 1) else (k + 1, n + k - 1))

theorem chainTree_get {n k : Nat} (h : k < n - 1) :
    (chainTree n)[k]? = some (if k = 0 then (0, 1) else (k + 1, n + k - 1)) := by
  unfold chainTree
  rw [List.getElem?_map, List.getElem?_range h]
  rfl

theorem chainTree_dendrogram {n : Nat} (h : 2 ≤ n) : Dendrogram n (chainTree n) := by
  refine ⟨by simp [chainTree]; omega, ?_, ?_⟩
  · intro k a b hk
    have hl : k < n - 1 := by
      have := (List.getElem?_eq_some_iff.1 hk).1
      simpa [chainTree] using this
    rw [chainTree_get hl] at hk
    injection hk with hk
    split at hk
    · obtain ⟨rfl, rfl⟩ := Prod.mk.inj hk; omega
    · obtain ⟨rfl, rfl⟩ := Prod.mk.inj hk; omega
  · intro m hm
    by_cases h0 : m ≤ 1
    · exact ⟨0, 0, 1, by rw [chainTree_get (by omega)]; rfl, by omega⟩
    · by_cases h1 : m < n
      · exact ⟨m - 1, m - 1 + 1, n + (m - 1) - 1, by rw [chainTree_get (by omega), if_neg (by omega)], by omega⟩
      · exact ⟨m - n + 1, m - n + 1 + 1, n + (m - n + 1) - 1, by rw [chainTree_get (by omega), if_neg (by omega)], by omega⟩

theorem chain_recursion {A : List Row} : ∀ (f k : Nat) (st : List (Option (Row × ℚ))), k < A.length - 1 → f < k + 2 →
    st = List.replicate (A.length - 1) none → ahcCenters A (chainTree A.length) f (A.length + k) st = .error .recursionError := by
  intro f
  induction f with
  | zero => intro k st _ _ _; rfl
  | succ f ih =>
    intro k st hk hf hst
    unfold ahcCenters
    rw [if_neg (by omega), Nat.add_sub_cancel_left]
    have hg : st[k]? = some none := by rw [hst, List.getElem?_replicate, if_pos hk]
    rw [getRow_ok.2 hg, ok_bind]
    dsimp only
    rw [getRow_ok.2 (chainTree_get hk), ok_bind]
    cases f with
    | zero => rfl
    | succ f =>
      rw [if_neg (by omega)]
      dsimp only
      have hleaf : ahcCenters A (chainTree A.length) (f + 1) (k + 1) st = .ok ((A[k + 1], 1), st) := by
        unfold ahcCenters
        rw [if_pos (by omega), getRow_ok.2 (List.getElem?_eq_getElem (by omega)), ok_bind]
        rfl
      rw [hleaf, ok_bind]
      dsimp only
      rw [show A.length + k - 1 = A.length + (k - 1) by omega, ih (k - 1) st (by omega) (by omega) hst]
      rfl

/-- **A chain deeper than the recursion limit raises.** Such a dendrogram meets the contract of the clustering. -/
theorem C79_recursion {children : List Row → List (Nat × Nat)} {kmeans : Nat → List Row → List Row} {depth d : Nat} {X : List Row}
    {y : List Int} {a b : Int} (hwf : WF d X y) (hmin : IsMinority y a b) (h3 : 2 < y.count a)
    (hD : children (classRows X y a) = chainTree (y.count a)) (hdep : depth < y.count a) :
    sample defaultChecks d (ahcAlg .min children kmeans depth) X y = .error .recursionError := by
  obtain ⟨s, hs, rfl, rfl⟩ := stats_of_isMinority hmin
  have hA : (classRows X y s.minLabel).length = y.count s.minLabel := classRows_length hwf.1 _
  rw [sample_default hs, if_neg (by omega)]
  unfold ahcAlg
  simp only [selectLabel_eq_classRows]
  have : ahcMinority children depth (classRows X y s.minLabel) = .error .recursionError := by
    unfold ahcMinority
    dsimp only
    rw [hD, ← hA]
    set A := classRows X y s.minLabel with hAd
    have hl : (chainTree A.length).getLast? = some (A.length - 2 + 1, A.length + (A.length - 2) - 1) := by
      rw [List.getLast?_eq_getElem?]
      have : (chainTree A.length).length = A.length - 1 := by simp [chainTree]
      rw [this, chainTree_get (by omega), if_neg (by omega)]
      congr 2
    rw [hl]
    dsimp only
    rw [show A.length + (A.length - 2) - 1 + 1 = A.length + (A.length - 2) by omega,
      chain_recursion depth (A.length - 2) _ (by omega) (by omega) (by simp [chainTree])]
    rfl
  rw [this]
  rfl

/-! ## Examples -/

example : sample defaultChecks 2 (ahcAlg .min (fun A => chainTree A.length) (fun n rows => rows.take n) 1000) exX exY =
    .ok ([[1 / 2, 0], [1 / 3, 1 / 3], [0, 0], [1, 0], [0, 1], [5, 5], [6, 5], [5, 6], [6, 6], [7, 7]], [1, 1, 1, 1, 1, 0, 0, 0, 0, 0]) := by
  decide +kernel

example : WF 2 exX exY ∧ IsMinority exY 1 0 ∧ 2 < exY.count 1 ∧ Dendrogram (exY.count 1) (chainTree (exY.count 1)) ∧
    (∀ (n : Nat) (rows : List Row), n ≤ rows.length → (rows.take n).length = n) :=
  ⟨⟨by decide, by decide +kernel⟩, ⟨by decide, by decide, by decide, Or.inl (by decide)⟩, by decide, chainTree_dendrogram (by decide),
    fun n rows h => by rw [List.length_take]; omega⟩

/-- Four minority and four majority rows, a case of `C79_outgrows`. -/
example : (sample defaultChecks 1 (ahcAlg .min (fun A => chainTree A.length) (fun n rows => rows.take n) 1000)
    [[0], [1], [2], [3], [4], [5], [6], [7]] [1, 1, 1, 1, 0, 0, 0, 0]).toOption.map (fun r => (r.2.count 1, r.2.count 0)) = some (7, 4) := by
  decide +kernel

end Verif

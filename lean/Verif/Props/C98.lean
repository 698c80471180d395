import Verif.Model.DeOver
import Verif.Props.C51
import Verif.Spec.Neighbors
import Verif.Lemmas.Noise
import Verif.Lemmas.Unique
import Verif.Lemmas.Interp
import Verif.Lemmas.Clusters
import Verif.Lemmas.SmoteExample
import Mathlib.Tactic.Linarith
import Mathlib.Tactic.Ring

/-!
# C98: DE_oversampling
-/

namespace Verif

/-! ## Specification -/

/-- What is assumed of the environment. -/
structure DeEnv.OK (env : DeEnv) : Prop where
  knn : KnnOK env.knn
  pick : ∀ t m, 0 < m → env.pick t m < m
  pair : ∀ t m, 2 ≤ m → (env.pair t m).1 < m ∧ (env.pair t m).2 < m ∧ (env.pair t m).1 ≠ (env.pair t m).2
  u : ∀ t, 0 ≤ env.u t ∧ env.u t < 1
  coord : ∀ t d, 0 < d → env.coord t d < d
  v : ∀ t k, 0 ≤ env.v t k ∧ env.v t k < 1
  kmeans : ∀ n rows, 1 ≤ n → n ≤ rows.length → (env.kmeans n rows).1.length = rows.length ∧ (env.kmeans n rows).2.length = n ∧
    ∀ l ∈ (env.kmeans n rows).1, l < n

/-- Differential evolution: `z` is the row `i` of `A`, some of whose coordinates (at least one) are moved along the difference of two other entries
of its list of neighbours. `moved` says which. -/
def Evolved (d : Nat) (A : List Row) (ind : List (List Nat)) (moved : Nat → Prop) (z : Row) : Prop :=
  ∃ (i : Nat) (row : List Nat) (s t j1 j2 : Nat) (p q1 q2 : Row) (u : ℚ), A[i]? = some p ∧ ind[i]? = some row ∧
    1 ≤ s ∧ 1 ≤ t ∧ s ≠ t ∧ row[s]? = some j1 ∧ row[t]? = some j2 ∧ A[j1]? = some q1 ∧ A[j2]? = some q2 ∧ 0 ≤ u ∧ u < 1 ∧
    z.length = d ∧ (∀ k, k < d → moved k → z.getD k 0 = p.getD k 0 + (q1.getD k 0 - q2.getD k 0) * u) ∧
    ∀ k, k < d → ¬ moved k → z.getD k 0 = p.getD k 0

/-- All rows of the cluster `l` have the same label. -/
def OneClass (y : List Int) (labels : List Nat) (l : Nat) : Prop :=
  ∀ i j : Nat, labels[i]? = some l → labels[j]? = some l → y[i]? = y[j]?

/-- `c` is a row of the cluster `l` nearest to its centre `m`, the first such row. -/
def CentreLike (X : List Row) (labels : List Nat) (m : Row) (l c : Nat) : Prop :=
  labels[c]? = some l ∧ (∀ i : Nat, labels[i]? = some l → sqDist (X.getD c []) m ≤ sqDist (X.getD i []) m) ∧
    ∀ i : Nat, labels[i]? = some l → i < c → sqDist (X.getD c []) m < sqDist (X.getD i []) m

/-- The cosine of the angle between `p` and `q` is larger than `t ≥ 0`, or one of them is the zero row. -/
def CosAbove (t : ℚ) (p q : Row) : Prop :=
  deInner p p * deInner q q = 0 ∨ (0 < deInner p q ∧ t ^ 2 * (deInner p p * deInner q q) < deInner p q ^ 2)

/-- Which rows the cleansing removes. -/
def DeRemoved (t : ℚ) (X : List Row) (y : List Int) (km : List Nat × List Row) (i : Nat) : Prop :=
  ∃ l m c, km.1[i]? = some l ∧ km.2[l]? = some m ∧ OneClass y km.1 l ∧ CentreLike X km.1 m l c ∧ i ≠ c ∧ CosAbove t (X.getD i []) (X.getD c [])

/-! ## The parts -/

theorem deSample_spec {env : DeEnv} (henv : env.OK) {cr : ℚ} {d : Nat} {A : List Row} {ind : List (List Nat)} {k : Nat} (hk : 3 ≤ k)
    (hA : A ≠ []) (hl : ind.length = A.length) (hT : TableOK ind k A.length) (t : Nat) :
    ∃ z, deSample env cr d A ind t = .ok z ∧ Evolved d A ind (fun k => k = env.coord t d ∨ env.v t k < cr) z := by
  have hi := henv.pick t A.length (List.length_pos_iff.2 hA)
  obtain ⟨i, hid⟩ : ∃ i, i = env.pick t A.length := ⟨_, rfl⟩
  rw [← hid] at hi
  obtain ⟨p, hp⟩ : ∃ p, A[i]? = some p := ⟨_, List.getElem?_eq_getElem hi⟩
  obtain ⟨row, hrow⟩ : ∃ row, ind[i]? = some row := ⟨_, List.getElem?_eq_getElem (by omega)⟩
  obtain ⟨r1, r2⟩ := hT row (List.mem_of_getElem? hrow)
  have hnb : (row.drop 1).length = k - 1 := by rw [List.length_drop, r1]
  obtain ⟨p1, p2, p3⟩ := henv.pair t (row.drop 1).length (by omega)
  obtain ⟨pr, hpr⟩ : ∃ pr, pr = env.pair t (row.drop 1).length := ⟨_, rfl⟩
  rw [← hpr] at p1 p2 p3
  have hg : ∀ s, s < (row.drop 1).length → ∃ j q, (row.drop 1)[s]? = some j ∧ row[s + 1]? = some j ∧ A[j]? = some q := by
    intro s hs
    have e1 : s + 1 < row.length := by omega
    have e2 : (row.drop 1)[s]? = some row[s + 1] := by
      rw [List.getElem?_drop, Nat.add_comm, List.getElem?_eq_getElem e1]
    exact ⟨row[s + 1], _, e2, List.getElem?_eq_getElem e1, List.getElem?_eq_getElem (r2 _ (List.getElem_mem _))⟩
  obtain ⟨j1, q1, a1, a2, a3⟩ := hg pr.1 p1
  obtain ⟨j2, q2, b1, b2, b3⟩ := hg pr.2 p2
  refine ⟨(List.range d).map (fun k => if cr ≤ env.v t k ∧ k ≠ env.coord t d then p.getD k 0
      else p.getD k 0 + (q1.getD k 0 - q2.getD k 0) * env.u t),
    ?_, i, row, pr.1 + 1, pr.2 + 1, j1, j2, p, q1, q2, env.u t, hp, hrow, by omega, by omega, by omega, a2, b2, a3, b3,
    (henv.u t).1, (henv.u t).2, ?_, ?_, ?_⟩
  · unfold deSample
    simp only
    rw [← hid, getRow_ok.2 hp, ok_bind, getRow_ok.2 hrow, ok_bind, if_neg (by omega), ← hpr, getRow_ok.2 a1, ok_bind, getRow_ok.2 b1, ok_bind,
      getRow_ok.2 a3, ok_bind, getRow_ok.2 b3, ok_bind]
    rfl
  · simp
  · intro k hk hm
    rw [List.getD_eq_getElem?_getD, List.getElem?_map, List.getElem?_range hk]
    simp only [Option.map_some, Option.getD_some]
    rw [if_neg]
    rintro ⟨e1, e2⟩
    rcases hm with h | h
    · exact e2 h
    · exact absurd h (not_lt.2 e1)
  · intro k hk hm
    rw [List.getD_eq_getElem?_getD, List.getElem?_map, List.getElem?_range hk]
    simp only [Option.map_some, Option.getD_some]
    rw [if_pos]
    constructor
    · exact not_lt.1 (fun h => hm (Or.inr h))
    · exact fun h => hm (Or.inl h)

theorem npUnique_length_one {l : List Int} : (npUnique l).length = 1 ↔ l ≠ [] ∧ ∀ a ∈ l, ∀ b ∈ l, a = b := by
  constructor
  · intro h
    obtain ⟨a, ha⟩ := List.length_eq_one_iff.1 h
    constructor
    · rintro rfl
      simp [npUnique] at ha
    · intro x hx z hz
      have h1 := mem_npUnique.2 hx
      have h2 := mem_npUnique.2 hz
      rw [ha, List.mem_singleton] at h1 h2
      rw [h1, h2]
  · rintro ⟨h1, h2⟩
    obtain ⟨a, ha⟩ := List.exists_mem_of_ne_nil l h1
    have hnd := npUnique_nodup l
    have hall : ∀ b ∈ npUnique l, b = a := fun b hb => h2 b (mem_npUnique.1 hb) a ha
    have hr := List.eq_replicate_of_mem hall
    have hle : (npUnique l).length ≤ 1 := by
      rw [hr, List.nodup_replicate] at hnd
      exact hnd
    have := List.length_pos_iff.2 (List.ne_nil_of_mem (mem_npUnique.2 ha))
    omega

theorem argminIdx_first {l : List ℚ} {i : Nat} (h : i < argminIdx l) (hl : argminIdx l < l.length) : l.getD (argminIdx l) 0 < l.getD i 0 := by
  have h1 := List.not_of_lt_findIdx (p := fun x => l.all (fun z => decide (x ≤ z))) (xs := l) (i := i) h
  rw [Bool.eq_false_iff, Ne, List.all_eq_true] at h1
  push Not at h1
  obtain ⟨z, hz, hzi⟩ := h1
  have h2 : l.getD (argminIdx l) 0 ≤ z := (argminIdx_spec (List.ne_nil_of_mem hz)).2 z hz
  have h3 : z < l[i]'(by omega) := by simpa using hzi
  rw [List.getD_eq_getElem?_getD (l := l) (i := i), List.getElem?_eq_getElem (by omega)]
  exact lt_of_le_of_lt h2 h3

theorem deCleansing_spec {env : DeEnv} (henv : env.OK) {par : DeParams} (hcl : 1 ≤ par.nClusters) {X : List Row} {y : List Int} (hX : X ≠ [])
    (hxy : X.length = y.length) :
    ∃ rem, deCleansing env par X y = .ok rem ∧ ∀ i, i ∈ rem ↔ DeRemoved par.threshold X y (env.kmeans (min X.length par.nClusters) X) i := by
  have hpos := List.length_pos_iff.2 hX
  obtain ⟨k1, k2, k3⟩ := henv.kmeans (min X.length par.nClusters) X (by omega) (by omega)
  obtain ⟨km, hkm⟩ : ∃ km, km = env.kmeans (min X.length par.nClusters) X := ⟨_, rfl⟩
  rw [← hkm] at k1 k2 k3 ⊢
  obtain ⟨mem, hmem⟩ : ∃ mem : Nat → List Nat, mem = fun l => (List.range km.1.length).filter (fun i => km.1.getD i 0 == l) := ⟨_, rfl⟩
  have hmm : ∀ l i, i ∈ mem l ↔ km.1[i]? = some l := by
    intro l i
    rw [hmem]
    simp only [List.mem_filter, List.mem_range, beq_iff_eq]
    constructor
    · rintro ⟨h1, h2⟩
      rw [List.getD_eq_getElem?_getD, List.getElem?_eq_getElem h1] at h2
      rw [List.getElem?_eq_getElem h1, ← h2]
      rfl
    · intro h
      refine ⟨(List.getElem?_eq_some_iff.1 h).1, ?_⟩
      rw [List.getD_eq_getElem?_getD, h]
      rfl
  have hone : ∀ l ∈ km.1, ((npUnique ((mem l).map (fun i => y.getD i 0))).length = 1 ↔ OneClass y km.1 l) := by
    intro l hl
    have hy : ∀ i, i ∈ mem l → y[i]? = some (y.getD i 0) := by
      intro i hi
      have := (List.getElem?_eq_some_iff.1 ((hmm l i).1 hi)).1
      rw [List.getD_eq_getElem?_getD, List.getElem?_eq_getElem (by omega)]
      rfl
    rw [npUnique_length_one]
    constructor
    · rintro ⟨_, h⟩ i j hi hj
      have hi := (hmm l i).2 hi
      have hj := (hmm l j).2 hj
      rw [hy i hi, hy j hj, h _ (List.mem_map_of_mem hi) _ (List.mem_map_of_mem hj)]
    · intro h
      constructor
      · obtain ⟨i, hi⟩ := List.mem_iff_getElem?.1 hl
        exact List.ne_nil_of_mem (List.mem_map_of_mem ((hmm l i).2 hi))
      · intro a ha b hb
        obtain ⟨i, hi, rfl⟩ := List.mem_map.1 ha
        obtain ⟨j, hj, rfl⟩ := List.mem_map.1 hb
        have := h i j ((hmm l i).1 hi) ((hmm l j).1 hj)
        rw [hy i hi, hy j hj] at this
        injection this
  obtain ⟨cen, hcen⟩ : ∃ cen : Nat → Row → Nat, cen = fun l mean => (mem l).getD (argminIdx ((mem l).map (fun i =>
      ((List.zipWith (· - ·) (X.getD i []) mean).map (fun t => t * t)).sum))) 0 := ⟨_, rfl⟩
  have hsorted : ∀ l, (mem l).Pairwise (· < ·) := by
    intro l
    rw [hmem]
    exact List.pairwise_lt_range.filter _
  have hc : ∀ l ∈ km.1, ∀ mean, CentreLike X km.1 mean l (cen l mean) := by
    intro l hl mean
    have hne : mem l ≠ [] := by
      obtain ⟨i, hi⟩ := List.mem_iff_getElem?.1 hl
      exact List.ne_nil_of_mem ((hmm l i).2 hi)
    obtain ⟨D, hD⟩ : ∃ D : List ℚ, D = (mem l).map (fun i => ((List.zipWith (· - ·) (X.getD i []) mean).map (fun t => t * t)).sum) := ⟨_, rfl⟩
    obtain ⟨e1, e2⟩ := argminIdx_spec (l := D) (by rw [hD]; simpa using hne)
    have hDl : D.length = (mem l).length := by rw [hD, List.length_map]
    obtain ⟨m0, hm0⟩ : ∃ m0, m0 = argminIdx D := ⟨_, rfl⟩
    have hce : cen l mean = (mem l).getD m0 0 := by rw [hcen, hm0, hD]
    have hDg : ∀ k, k < (mem l).length → D.getD k 0 = sqDist (X.getD ((mem l).getD k 0) []) mean := by
      intro k hk
      rw [hD, List.getD_eq_getElem?_getD, List.getElem?_map, List.getD_eq_getElem?_getD (l := mem l), List.getElem?_eq_getElem hk]
      rfl
    rw [← hm0] at e1 e2
    have hcm : cen l mean ∈ mem l := by
      rw [hce, List.getD_eq_getElem?_getD, List.getElem?_eq_getElem (by omega)]
      exact List.getElem_mem _
    refine ⟨(hmm _ _).1 hcm, ?_, ?_⟩
    · intro i hi
      have hi := (hmm l i).2 hi
      rw [hce, ← hDg m0 (by omega)]
      exact e2 _ (by rw [hD]; exact List.mem_map_of_mem (f := fun i => ((List.zipWith (· - ·) (X.getD i []) mean).map (fun t => t * t)).sum) hi)
    · intro i hi hlt
      have hi := (hmm l i).2 hi
      obtain ⟨k, hk, rfl⟩ := List.getElem_of_mem hi
      have hkm0 : k < m0 := by
        by_contra hcon
        have hge : m0 ≤ k := by omega
        have : (mem l)[m0]'(by omega) ≤ (mem l)[k] := by
          rcases Nat.lt_or_ge m0 k with h | h
          · exact (List.pairwise_iff_getElem.1 (hsorted l) m0 k (by omega) hk h).le
          · have : m0 = k := by omega
            subst this
            exact le_refl _
        rw [hce, List.getD_eq_getElem?_getD, List.getElem?_eq_getElem (by omega)] at hlt
        simp only [Option.getD_some] at hlt
        omega
      have h5 := argminIdx_first (l := D) (i := k) (by rw [← hm0]; exact hkm0) (by rw [← hm0]; exact e1)
      rw [← hm0, hDg m0 (by omega), hDg k hk, ← hce] at h5
      have h6 : (mem l).getD k 0 = (mem l)[k] := by rw [List.getD_eq_getElem?_getD, List.getElem?_eq_getElem hk]; rfl
      rw [h6] at h5
      exact h5
  have huniq : ∀ l mean c, l ∈ km.1 → CentreLike X km.1 mean l c → c = cen l mean := by
    intro l mean c hl ⟨h1, h2, h3⟩
    obtain ⟨g1, g2, g3⟩ := hc l hl mean
    rcases Nat.lt_trichotomy c (cen l mean) with h | h | h
    · exact absurd (h2 _ g1) (not_le.2 (g3 c h1 h))
    · exact h
    · exact absurd (g2 _ h1) (not_le.2 (h3 _ g1 h))
  have hsim : ∀ p q, deSimilar par.threshold p q = true ↔ CosAbove par.threshold p q := by
    intro p q
    unfold deSimilar CosAbove
    simp only [Bool.or_eq_true, Bool.and_eq_true, decide_eq_true_eq]
    rw [pow_two, pow_two]
  have hget : ∀ l ∈ km.1, ∃ mean, km.2[l]? = some mean := by
    intro l hl
    exact ⟨_, List.getElem?_eq_getElem (by rw [k2]; exact k3 l hl)⟩
  obtain ⟨f, hf⟩ : ∃ f : Nat → Res (List Nat), f = fun l => do
      let mean ← getRow km.2 l
      return (mem l).filter (fun i => i != cen l mean && deSimilar par.threshold (X.getD i []) (X.getD (cen l mean) [])) := ⟨_, rfl⟩
  have hfok : ∀ l mean, km.2[l]? = some mean → f l = .ok ((mem l).filter (fun i => i != cen l mean &&
      deSimilar par.threshold (X.getD i []) (X.getD (cen l mean) []))) := by
    intro l mean h
    rw [hf]
    simp only
    rw [getRow_ok.2 h, ok_bind]
    rfl
  obtain ⟨ones, hones⟩ : ∃ ones, ones = (npUnique km.1).filter (fun l => (npUnique ((mem l).map (fun i => y.getD i 0))).length == 1) := ⟨_, rfl⟩
  have hom : ∀ l, l ∈ ones ↔ l ∈ km.1 ∧ OneClass y km.1 l := by
    intro l
    rw [hones, List.mem_filter, mem_npUnique, beq_iff_eq]
    constructor
    · rintro ⟨h1, h2⟩
      exact ⟨h1, (hone l h1).1 h2⟩
    · rintro ⟨h1, h2⟩
      exact ⟨h1, (hone l h1).2 h2⟩
  obtain ⟨rem, hrem⟩ := mapM_exists_ok (f := f) (l := ones) (fun l hl => by
    obtain ⟨mean, hmean⟩ := hget l ((hom l).1 hl).1
    exact ⟨_, hfok l mean hmean⟩)
  have hrun : deCleansing env par X y = .ok rem.flatten := by
    unfold deCleansing
    simp only
    rw [← hkm]
    have : (ones.mapM f >>= fun rem => (pure rem.flatten : Res (List Nat))) = .ok rem.flatten := by
      rw [hrem, ok_bind]
      rfl
    rw [← this, hones, hf, hcen, hmem]
  refine ⟨rem.flatten, hrun, ?_⟩
  intro i
  rw [List.mem_flatten]
  constructor
  · rintro ⟨L, hL, hi⟩
    obtain ⟨l, hl, hlL⟩ := mapM_ok_mem hrem hL
    obtain ⟨hl1, hl2⟩ := (hom l).1 hl
    obtain ⟨mean, hmean⟩ := hget l hl1
    rw [hfok l mean hmean] at hlL
    injection hlL with hlL
    rw [← hlL, List.mem_filter, Bool.and_eq_true, bne_iff_ne] at hi
    exact ⟨l, mean, cen l mean, (hmm l i).1 hi.1, hmean, hl2, hc l hl1 mean, hi.2.1, (hsim _ _).1 hi.2.2⟩
  · rintro ⟨l, mean, c, h1, h2, h3, h4, h5, h6⟩
    have hl := List.mem_of_getElem? h1
    have hceq := huniq l mean c hl h4
    have hlo := (hom l).2 ⟨hl, h3⟩
    obtain ⟨n, hn⟩ := List.mem_iff_getElem?.1 hlo
    obtain ⟨L, hL1, hL2⟩ := forall₂_mem_left (mapM_ok_iff.1 hrem) hlo
    refine ⟨L, hL1, ?_⟩
    rw [hfok l mean h2] at hL2
    injection hL2 with hL2
    rw [← hL2, List.mem_filter, Bool.and_eq_true, bne_iff_ne, ← hceq]
    exact ⟨(hmm l i).2 h1, h5, (hsim _ _).2 h6⟩

/-! ## The property -/

/-- **DE_oversampling.** The result is the input and exactly the requested number of rows made by differential evolution from minority rows, less
the rows removed; a row is removed if and only if all rows of its cluster have the same label, it is not the one nearest to the centre, and
it is similar to that one. Which coordinates of the `t`-th new row move is decided by the `t`-th draws. -/
theorem C98_de {env : DeEnv} (henv : env.OK) {par : DeParams} (hcl : 1 ≤ par.nClusters) (hn : 2 ≤ par.nNeighbors) {d : Nat} {X : List Row}
    {y : List Int} {a b : Int} (hmin : IsMinority y a b) (h3 : 2 < y.count a) (hwf : WF d X y)
    (hreq : requested par.proportion (y.count b) (y.count a) ≠ 0) :
    ∃ (S X2 : List Row) (y2 : List Int) (X' : List Row) (y' : List Int) (K : List Nat),
      sample defaultChecks d (deAlg env par d) X y = .ok (X', y') ∧
      S.length = requested par.proportion (y.count b) (y.count a) ∧
      (∀ t z, S[t]? = some z → Evolved d (classRows X y a) (env.knn (min (y.count a) (par.nNeighbors + 1)) (classRows X y a))
        (fun k => k = env.coord t d ∨ env.v t k < par.crossoverRate) z) ∧
      X2 = X ++ S ∧ y2 = y ++ List.replicate S.length a ∧ SubData X2 y2 X' y' K ∧
      ∀ i, i < X2.length → (i ∉ K ↔ DeRemoved par.threshold X2 y2 (env.kmeans (min X2.length par.nClusters) X2) i) := by
  obtain ⟨s, hs, rfl, rfl⟩ := stats_of_isMinority hmin
  obtain ⟨hm, hM, hab⟩ := stats_min_mem hs
  have hA := classRows_length hwf.1 s.minLabel
  obtain ⟨out, hout⟩ : ∃ out, out = sample defaultChecks d (deAlg env par d) X y := ⟨_, rfl⟩
  rw [← hout]
  rw [sample_default hs, if_neg (by omega)] at hout
  unfold deAlg at hout
  rw [stats_count hs hm, stats_count hs hM, detN_eq_requested, ok_bind, if_neg hreq] at hout
  simp only [selectLabel_eq_classRows] at hout
  obtain ⟨A, hAd⟩ : ∃ A, A = classRows X y s.minLabel := ⟨_, rfl⟩
  rw [← hAd] at hout hA ⊢
  rw [hA] at hout
  obtain ⟨n, hnd⟩ : ∃ n, n = requested par.proportion (y.count s.majLabel) (y.count s.minLabel) := ⟨_, rfl⟩
  rw [← hnd] at hout ⊢
  obtain ⟨t1, t2⟩ := henv.knn (min (y.count s.minLabel) (par.nNeighbors + 1)) A (by omega)
  have hstep := fun t => deSample_spec henv (cr := par.crossoverRate) (d := d) (A := A) (by omega) (List.length_pos_iff.1 (by omega)) t1 t2 t
  obtain ⟨S, hS⟩ := mapM_exists_ok (f := deSample env par.crossoverRate d A (env.knn (min (y.count s.minLabel) (par.nNeighbors + 1)) A))
    (l := List.range n) (fun t _ => let ⟨z, hz, _⟩ := hstep t; ⟨z, hz⟩)
  have hSl : S.length = n := by rw [mapM_ok_length hS, List.length_range]
  have hx2 : (X ++ S).length = (y ++ List.replicate S.length s.minLabel).length := by
    rw [List.length_append, List.length_append, List.length_replicate, hwf.1]
  have hxne : X ++ S ≠ [] := by
    have := List.count_le_length (a := s.minLabel) (l := y)
    have := hwf.1
    apply List.length_pos_iff.1
    rw [List.length_append]
    omega
  obtain ⟨rem, r1, r2⟩ := deCleansing_spec henv hcl hxne hx2
  rw [hS, ok_bind, r1, ok_bind] at hout
  refine ⟨S, _, _, _, _, kept (X ++ S).length rem, hout, hSl, ?_, rfl, rfl, npDelete_subData hx2 rem, ?_⟩
  · intro t z hz
    have htl := (List.getElem?_eq_some_iff.1 hz).1
    obtain ⟨z', e1, e2⟩ := hstep t
    have h4 := (List.forall₂_iff_get.1 (mapM_ok_iff.1 hS)).2 t (by rw [List.length_range]; omega) htl
    simp only [List.get_eq_getElem, List.getElem_range] at h4
    rw [e1] at h4
    injection h4 with h4
    have : z = z' := by
      rw [List.getElem?_eq_getElem htl] at hz
      injection hz with hz
      rw [h4, ← hz]
    rw [this]
    exact e2
  · intro i hi
    rw [← r2 i, mem_kept]
    constructor
    · intro h
      by_contra hc
      exact h ⟨hi, hc⟩
    · exact fun h hc => hc.2 h

/-- **Every cluster keeps a row.** In particular no class disappears. -/
theorem C98_survive {env : DeEnv} (henv : env.OK) {par : DeParams} (hcl : 1 ≤ par.nClusters) {X2 X' : List Row} {y2 y' : List Int} {K : List Nat}
    (hX : X2 ≠ []) (hxy : X2.length = y2.length) (hsub : SubData X2 y2 X' y' K)
    (hK : ∀ i, i < X2.length → (i ∉ K ↔ DeRemoved par.threshold X2 y2 (env.kmeans (min X2.length par.nClusters) X2) i)) :
    (∀ l ∈ (env.kmeans (min X2.length par.nClusters) X2).1, ∃ i ∈ K, (env.kmeans (min X2.length par.nClusters) X2).1[i]? = some l) ∧
    ∀ c ∈ y2, c ∈ y' := by
  have hpos := List.length_pos_iff.2 hX
  obtain ⟨k1, k2, k3⟩ := henv.kmeans (min X2.length par.nClusters) X2 (by omega) (by omega)
  obtain ⟨km, hkm⟩ : ∃ km, km = env.kmeans (min X2.length par.nClusters) X2 := ⟨_, rfl⟩
  rw [← hkm] at k1 k2 k3 hK ⊢
  have key : ∀ i, i < X2.length → ∃ j ∈ K, km.1[j]? = km.1[i]? ∧ y2[j]? = y2[i]? := by
    intro i hi
    by_cases hiK : i ∈ K
    · exact ⟨i, hiK, rfl, rfl⟩
    · obtain ⟨l, m, c, h1, h2, h3, h4, h5, h6⟩ := (hK i hi).1 hiK
      have hc : c < X2.length := by
        have := (List.getElem?_eq_some_iff.1 h4.1).1
        omega
      refine ⟨c, ?_, by rw [h4.1, h1], h3 c i h4.1 h1⟩
      by_contra hcK
      obtain ⟨l', m', c', g1, g2, g3, g4, g5, g6⟩ := (hK c hc).1 hcK
      have e1 : l' = l := by
        have := h4.1
        rw [g1] at this
        injection this
      subst e1
      have e2 : m' = m := by
        rw [g2] at h2
        injection h2
      subst e2
      rcases Nat.lt_trichotomy c c' with h | h | h
      · exact absurd (h4.2.1 _ g4.1) (not_le.2 (g4.2.2 c h4.1 h))
      · exact g5 h
      · exact absurd (g4.2.1 _ h4.1) (not_le.2 (h4.2.2 _ g4.1 h))
  constructor
  · intro l hl
    obtain ⟨i, hi⟩ := List.mem_iff_getElem?.1 hl
    have := (List.getElem?_eq_some_iff.1 hi).1
    obtain ⟨j, hj, h1, _⟩ := key i (by omega)
    exact ⟨j, hj, by rw [h1, hi]⟩
  · intro c hc
    obtain ⟨i, hi⟩ := List.mem_iff_getElem?.1 hc
    have := (List.getElem?_eq_some_iff.1 hi).1
    obtain ⟨j, hj, _, h2⟩ := key i (by omega)
    obtain ⟨c', hc', hjc⟩ := forall₂_mem_left hsub.2.2 hj
    rw [h2, hi] at hjc
    injection hjc with hjc
    rw [hjc]
    exact hc'

/-- **Which coordinates move.** With `crossover_rate=1` all of them, with `crossover_rate=0` exactly one. -/
theorem C98_rate {env : DeEnv} (henv : env.OK) (t d k : Nat) :
    ((k = env.coord t d ∨ env.v t k < 1) ↔ True) ∧ ((k = env.coord t d ∨ env.v t k < 0) ↔ k = env.coord t d) := by
  constructor
  · exact ⟨fun _ => trivial, fun _ => Or.inr (henv.v t k).2⟩
  · constructor
    · rintro (h | h)
      · exact h
      · exact absurd h (not_lt.2 (henv.v t k).1)
    · exact Or.inl

/-! ## Examples -/

/-- Neighbours by brute force; the clusters are given by `labels`, with zero rows for centres. -/
def deEnvOf (labels : List Nat) : DeEnv where
  knn := bruteKnn
  pick _ _ := 0
  pair _ _ := (0, 1)
  u _ := 1 / 2
  coord _ _ := 0
  v _ _ := 1 / 2
  kmeans n rows := ((List.range rows.length).map (fun i => min (labels.getD i 0) (n - 1)), List.replicate n [0, 0])

theorem deEnvOf_ok (labels : List Nat) : (deEnvOf labels).OK where
  knn := bruteKnn_ok
  pick _ _ h := h
  pair _ m h := by
    show (0 < m ∧ 1 < m ∧ (0 : Nat) ≠ 1)
    omega
  u _ := by simp only [deEnvOf]; norm_num
  coord _ _ h := h
  v _ _ := by simp only [deEnvOf]; norm_num
  kmeans n rows h1 h2 := by
    refine ⟨by simp [deEnvOf], by simp [deEnvOf], ?_⟩
    intro l hl
    simp only [deEnvOf, List.mem_map] at hl
    obtain ⟨i, _, rfl⟩ := hl
    omega

def deX : List Row := [[1, 1], [2, 1], [1, 2], [6, 6], [7, 6], [6, 7], [7, 7], [8, 8]]

/-- **Cleansing comes last**, and it looks at angles seen from the origin: the data may have more rows and be less imbalanced before the call than
after it. Here 3 minority and 5 majority rows become 1 and 3, with the default threshold. -/
theorem C98_imbalanced : ∃ (env : DeEnv) (par : DeParams) (d : Nat) (X : List Row) (y : List Int) (a b : Int) (X' : List Row) (y' : List Int),
    env.OK ∧ WF d X y ∧ IsMinority y a b ∧ 2 < y.count a ∧ par.threshold = 1 / 2 ∧
    requested par.proportion (y.count b) (y.count a) = 2 ∧
    sample defaultChecks d (deAlg env par d) X y = .ok (X', y') ∧ y.count a = 3 ∧ y.count b = 5 ∧ y'.count a = 1 ∧ y'.count b = 3 :=
  ⟨deEnvOf [0, 0, 0, 1, 2, 3, 1, 1, 0, 0], ⟨1, 5, 1 / 2, 1 / 2, 4⟩, 2, deX, exY, 1, 0, [[1, 1], [6, 6], [7, 6], [6, 7]], [1, 0, 0, 0],
    deEnvOf_ok _, ⟨by decide, by decide +kernel⟩, exY_min, by decide, rfl, by decide +kernel, by decide +kernel, by decide, by decide, by decide,
    by decide⟩

/-- The hypotheses are met by data from whose clusters nothing is removed: the input and two new rows. -/
example : (deEnvOf (List.range 10)).OK ∧ WF 2 deX exY ∧ IsMinority exY 1 0 ∧ 2 < exY.count 1 ∧
    sample defaultChecks 2 (deAlg (deEnvOf (List.range 10)) ⟨1, 5, 1 / 2, 1 / 2, 30⟩ 2) deX exY =
      .ok (deX ++ [[3 / 2, 1], [3 / 2, 1]], exY ++ [1, 1]) :=
  ⟨deEnvOf_ok _, ⟨by decide, by decide +kernel⟩, exY_min, by decide, by decide +kernel⟩

end Verif

import Verif.Props.C61
import Verif.Props.C63
import Verif.Props.C105

/-!
# C106: A_SUWO

Rows of both classes without a row of their own class nearby are dropped. The remaining minority rows are merged into clusters; new rows
are made within the clusters, which are drawn in proportion to the share of their rows that a linear classifier takes for the majority.
-/

namespace Verif

/-! ## Specification -/

/-- Row `i` is noise: none of the rows listed for it, behind the first, has its label. -/
def SuwoNoisy (knn : Nat → List Row → List Row → List (List Nat)) (k : Nat) (X : List Row) (y : List Int) (i : Nat) : Prop :=
  ∀ j ∈ ((knn (min X.length (k + 1)) X X).getD i []).drop 1, y.getD j 0 ≠ y.getD i 0

instance (knn : Nat → List Row → List Row → List (List Nat)) (k : Nat) (X : List Row) (y : List Int) (i : Nat) :
    Decidable (SuwoNoisy knn k X y i) := by unfold SuwoNoisy; infer_instance

/-- The positions which are not noise. -/
def suwoKept (knn : Nat → List Row → List Row → List (List Nat)) (k : Nat) (X : List Row) (y : List Int) : List Nat :=
  (List.range X.length).filter (fun i => decide (¬ SuwoNoisy knn k X y i))

/-- The rows which are left, and their labels. -/
def suwoX (knn : Nat → List Row → List Row → List (List Nat)) (k : Nat) (X : List Row) (y : List Int) : List Row :=
  (suwoKept knn k X y).map (fun i => X.getD i [])

def suwoY (knn : Nat → List Row → List Row → List (List Nat)) (k : Nat) (X : List Row) (y : List Int) : List Int :=
  (suwoKept knn k X y).map (fun i => y.getD i 0)

/-- Contract of the agglomerative clustering: each of the numbers below `m` is the label of some row. -/
def AggOK (agg : Nat → List Row → List Nat) : Prop :=
  ∀ m rows, m ≤ rows.length → ∀ c < m, ∃ i < rows.length, (agg m rows)[i]? = some c

/-- The radius: the mean over the rows of the median distance to the rows, times `c`. -/
def suwoRadius (knn : Nat → List Row → List Row → List (List Nat)) (dist : Row → Row → ℚ) (c : ℚ) (A : List Row) : ℚ :=
  ((List.range A.length).map (fun i => medianOf (((knn A.length A A).getD i []).map (fun j => dist (A.getD i []) (A.getD j []))))).sum /
    A.length * c

/-- The distance of minority row `i` to majority cluster `k`. -/
def suwoToMaj (dist : Row → Row → ℚ) (labels : List Nat) (A B : List Row) (i k : Nat) : ℚ :=
  minL (((List.range B.length).filter (fun j => decide (labels[j]? = some k))).map (fun j => dist (B.getD j []) (A.getD i [])))

/-- The weight of a cluster: the share of its rows taken for the majority; one for a single row. -/
def suwoWeight (lda : List Row → List Row → List Int) (maj : Int) (A B : List Row) (c : List Nat) : ℚ :=
  if 1 < c.length then ((lda B (c.map (fun i => A.getD i []))).count maj : ℚ) / ((lda B (c.map (fun i => A.getD i []))).length : ℚ) else 1

/-- The distance of minority row `i` to the nearest majority row. -/
def suwoNear (knn : Nat → List Row → List Row → List (List Nat)) (dist : Row → Row → ℚ) (A B : List Row) (i : Nat) : ℚ :=
  dist (A.getD i []) (B.getD (((knn 1 B A).getD i []).getD 0 0) [])

/-- The same without zeros: these become the smallest other distance, or one if there is none. -/
def suwoNear' (knn : Nat → List Row → List Row → List (List Nat)) (dist : Row → Row → ℚ) (A B : List Row) (i : Nat) : ℚ :=
  if ∀ j < A.length, suwoNear knn dist A B j = 0 then 1
  else if suwoNear knn dist A B i = 0 then
    minL (((List.range A.length).map (suwoNear knn dist A B)).filter (fun q => decide (q ≠ 0)))
  else suwoNear knn dist A B i

/-- The closeness to the majority. -/
def suwoCloseness (knn : Nat → List Row → List Row → List (List Nat)) (dist : Row → Row → ℚ) (d : Nat) (A B : List Row) (i : Nat) : ℚ :=
  1 / (suwoNear' knn dist A B i / d)

/-- The weights of the rows of a cluster: the closeness, but at most the mean of the cluster. -/
def suwoCut (f : Nat → ℚ) (c : List Nat) : List ℚ := c.map (fun i => min (f i) ((c.map f).sum / c.length))

/-! ## Proofs -/

theorem npDelete_filter {α : Type} (l : List α) (dflt : α) (p : Nat → Bool) :
    npDelete l ((List.range l.length).filter p) = ((List.range l.length).filter (fun i => ! p i)).map (fun i => l.getD i dflt) := by
  have h := npDelete_forall l ((List.range l.length).filter p)
  have hk : kept l.length ((List.range l.length).filter p) = (List.range l.length).filter (fun i => ! p i) := by
    unfold kept
    apply List.filter_congr
    intro i hi
    simp [List.mem_range.1 hi]
  rw [hk] at h
  generalize (List.range l.length).filter (fun i => ! p i) = ks at h
  generalize npDelete l ((List.range l.length).filter p) = rs at h
  induction h with
  | nil => rfl
  | cons h1 _ ih => rw [List.map_cons, ih, List.getD_eq_getElem?_getD, h1]; rfl

theorem suwoNoise_eq {env : SuwoEnv} (hk : KnnQueryOK env.knn) {k : Nat} {X : List Row} {y : List Int} (hl : X.length = y.length) :
    suwoNoise env k X y = .ok ((List.range X.length).filter (fun i => decide (SuwoNoisy env.knn k X y i))) := by
  obtain ⟨q1, q2⟩ := hk (min X.length (k + 1)) X X (Nat.min_le_left _ _)
  unfold suwoNoise
  set tab := env.knn (min X.length (k + 1)) X X with htab
  have hm : tab.zipIdx.mapM (fun p => do
      let ls ← takeRows y (p.1.drop 1)
      let l ← getRow y p.2
      return decide (ls.count l = 0)) = .ok ((List.range X.length).map (fun i => decide (SuwoNoisy env.knn k X y i))) := by
    rw [mapM_ok_of (g := fun p : List Nat × Nat => decide (∀ j ∈ p.1.drop 1, y.getD j 0 ≠ y.getD p.2 0))]
    · congr 1
      apply List.ext_getElem
      · simp [q1]
      · intro i h1 h2
        have hi : i < tab.length := by simpa using h1
        simp only [List.getElem_map, List.getElem_zipIdx, List.getElem_range]
        apply decide_eq_decide.2
        unfold SuwoNoisy
        rw [← htab, List.getD_eq_getElem?_getD (l := tab), List.getElem?_eq_getElem hi]
        simp
    · intro p hp
      have hp1 := List.mem_zipIdx_iff_getElem?.1 hp
      have hmem := List.mem_of_getElem? hp1
      have hlt : p.2 < y.length := by
        have := (List.getElem?_eq_some_iff.1 hp1).1
        omega
      rw [takeRows_map_getD 0 (fun j hj => by rw [← hl]; exact (q2 _ hmem).2 j (List.mem_of_mem_drop hj)), ok_bind,
        getRow_ok.2 (List.getElem?_eq_getElem hlt), ok_bind]
      apply pure_ok.2
      apply decide_eq_decide.2
      rw [List.count_eq_zero, List.mem_map]
      have hg : y.getD p.2 0 = y[p.2] := by rw [List.getD_eq_getElem?_getD, List.getElem?_eq_getElem hlt]; rfl
      rw [hg]
      push Not
      rfl
  rw [hm, ok_bind]
  apply pure_ok.2
  rw [List.length_map, List.length_range]
  apply List.filter_congr
  intro i hi
  rw [List.getD_eq_getElem?_getD, List.getElem?_map, List.getElem?_range (List.mem_range.1 hi)]
  rfl

theorem suwoThreshold_eq {env : SuwoEnv} (hk : KnnQueryOK env.knn) {c : ℚ} {A : List Row} :
    suwoThreshold env c A = suwoRadius env.knn env.dist c A := by
  obtain ⟨q1, _⟩ := hk A.length A A (le_refl _)
  unfold suwoThreshold suwoRadius
  dsimp only
  rw [List.length_map, List.length_zip, q1, Nat.min_self, zip_eq_range q1 [] [], List.map_map]
  rfl

theorem suwoMajDist_eq {env : SuwoEnv} {m : Nat} {labels : List Nat} {A B : List Row}
    (hlab : ∀ c < m, ∃ i < B.length, labels[i]? = some c) :
    suwoMajDist env A B ((List.range m).map (fun c => (List.range B.length).filter (fun i => decide (labels[i]? = some c)))) =
      .ok (majRows A.length m (suwoToMaj env.dist labels A B)) := by
  unfold suwoMajDist
  have hA : A = (List.range A.length).map (fun i => A.getD i []) := (map_getD_self A []).symm
  rw [mapM_ok_of (g := fun p : Row => (List.range m).map (fun c =>
        minL (((List.range B.length).filter (fun j => decide (labels[j]? = some c))).map (fun j => env.dist (B.getD j []) p))))]
  · unfold majRows suwoToMaj
    conv_lhs => rw [hA]
    rw [List.map_map]
    simp [Function.comp_def]
  · intro p _
    rw [mapM_ok_of (g := fun c : List Nat => minL (c.map (fun j => env.dist (B.getD j []) p)))]
    · rw [List.map_map]; rfl
    · intro c hc
      obtain ⟨k, hk, rfl⟩ := List.mem_map.1 hc
      rw [List.mem_range] at hk
      obtain ⟨i, hi, hik⟩ := hlab k hk
      rw [takeRows_map_getD [] (fun j hj => List.mem_range.1 (List.mem_filter.1 hj).1), ok_bind, if_neg]
      · change Except.ok _ = _
        rw [List.map_map]
        rfl
      · rw [List.length_map]
        intro h0
        have : i ∈ (List.range B.length).filter (fun i => decide (labels[i]? = some k)) :=
          List.mem_filter.2 ⟨List.mem_range.2 hi, by simpa using hik⟩
        rw [List.length_eq_zero_iff.1 h0] at this
        simp at this

theorem suwoSizing_eq {env : SuwoEnv} {maj : Int} {A B : List Row} {clusters : List (List Nat)} (hp : IsPartition A.length clusters) :
    suwoSizing env maj A B clusters = .ok (suwoFix (clusters.map (suwoWeight env.lda maj A B))) := by
  unfold suwoSizing
  rw [mapM_ok_of (g := suwoWeight env.lda maj A B)]
  · rfl
  · intro c hc
    rw [takeRows_map_getD [] (fun i hi => hp.lt hc hi), ok_bind]
    unfold suwoWeight
    split <;> rfl

theorem suwoClose_eq {env : SuwoEnv} (hk : KnnQueryOK env.knn) {d : Nat} {A B : List Row} (hB : 1 ≤ B.length) :
    suwoClose env d A B = .ok ((List.range A.length).map (suwoCloseness env.knn env.dist d A B)) := by
  obtain ⟨q1, q2⟩ := hk 1 B A hB
  unfold suwoClose
  have hds : (A.zip (env.knn 1 B A)).mapM (fun p => do
      let j ← getRow p.2 0
      let q ← getRow B j
      return env.dist p.1 q) = .ok ((List.range A.length).map (suwoNear env.knn env.dist A B)) := by
    rw [zip_eq_range q1 [] []]
    rw [mapM_ok_of (g := fun p : Row × List Nat => env.dist p.1 (B.getD (p.2.getD 0 0) []))]
    · rw [List.map_map]; rfl
    · intro p hp
      obtain ⟨i, hi, rfl⟩ := List.mem_map.1 hp
      rw [List.mem_range] at hi
      have hi' : i < (env.knn 1 B A).length := by rw [q1]; exact hi
      dsimp only
      have hg : (env.knn 1 B A).getD i [] = (env.knn 1 B A)[i] := by
        rw [List.getD_eq_getElem?_getD, List.getElem?_eq_getElem hi']; rfl
      rw [hg]
      obtain ⟨r1, r2⟩ := q2 _ (List.getElem_mem hi')
      have h0 : 0 < ((env.knn 1 B A)[i]).length := by omega
      rw [getRow_ok.2 (List.getElem?_eq_getElem h0), ok_bind]
      have hj := r2 _ (List.getElem_mem h0)
      rw [getRow_ok.2 (List.getElem?_eq_getElem hj), ok_bind]
      apply pure_ok.2
      rw [List.getD_eq_getElem?_getD (l := (env.knn 1 B A)[i]), List.getElem?_eq_getElem h0, Option.getD_some,
        List.getD_eq_getElem?_getD (l := B), List.getElem?_eq_getElem hj, Option.getD_some]
  rw [hds, ok_bind]
  have hall : ((List.range A.length).map (suwoNear env.knn env.dist A B)).all (fun q => decide (q = 0)) =
      decide (∀ j < A.length, suwoNear env.knn env.dist A B j = 0) := by
    rw [Bool.eq_iff_iff, List.all_eq_true, decide_eq_true_eq]
    simp
  apply pure_ok.2
  rw [hall]
  unfold suwoCloseness suwoNear'
  by_cases h : ∀ j < A.length, suwoNear env.knn env.dist A B j = 0
  · simp only [decide_eq_true h, if_pos h, if_true, List.map_map, Function.comp_def]
  · simp only [h, decide_false, if_false, List.map_map, Function.comp_def]
    simp

theorem suwoNear'_pos {knn : Nat → List Row → List Row → List (List Nat)} {dist : Row → Row → ℚ} (hd : ∀ p q, 0 ≤ dist p q)
    {A B : List Row} {i : Nat} : 0 < suwoNear' knn dist A B i := by
  unfold suwoNear'
  split
  · norm_num
  · rename_i h
    split
    · push Not at h
      obtain ⟨j, hj, hj'⟩ := h
      have hne : ((List.range A.length).map (suwoNear knn dist A B)).filter (fun q => decide (q ≠ 0)) ≠ [] := by
        intro he
        have : suwoNear knn dist A B j ∈ ((List.range A.length).map (suwoNear knn dist A B)).filter (fun q => decide (q ≠ 0)) :=
          List.mem_filter.2 ⟨List.mem_map.2 ⟨j, List.mem_range.2 hj, rfl⟩, by simpa using hj'⟩
        rw [he] at this
        simp at this
      obtain ⟨h1, h2⟩ := List.mem_filter.1 (minL_spec hne).1
      obtain ⟨t, _, ht⟩ := List.mem_map.1 h1
      rw [← ht] at h2 ⊢
      exact lt_of_le_of_ne (hd _ _) (Ne.symm (by simpa using h2))
    · rename_i h'
      exact lt_of_le_of_ne (hd _ _) (Ne.symm h')

theorem suwoCloseness_pos {knn : Nat → List Row → List Row → List (List Nat)} {dist : Row → Row → ℚ} (hd : ∀ p q, 0 ≤ dist p q)
    {d : Nat} (h1 : 1 ≤ d) {A B : List Row} {i : Nat} : 0 < suwoCloseness knn dist d A B i := by
  unfold suwoCloseness
  have : (0 : ℚ) < d := by exact_mod_cast h1
  exact one_div_pos.2 (div_pos (suwoNear'_pos hd) this)

theorem suwoCut_pos {f : Nat → ℚ} (hf : ∀ i, 0 < f i) {c : List Nat} (hc : c ≠ []) : ∀ x ∈ suwoCut f c, 0 < x := by
  intro x hx
  obtain ⟨i, _, rfl⟩ := List.mem_map.1 hx
  have hl : (0 : ℚ) < c.length := by exact_mod_cast List.length_pos_iff.2 hc
  exact lt_min (hf i) (div_pos (sum_pos_of_all (by simpa using hc) (by
    intro z hz
    obtain ⟨j, _, rfl⟩ := List.mem_map.1 hz
    exact hf j)) hl)

theorem suwoCut_sum_pos {f : Nat → ℚ} (hf : ∀ i, 0 < f i) {c : List Nat} (hc : c ≠ []) : 0 < (suwoCut f c).sum :=
  sum_pos_of_all (by unfold suwoCut; simpa using hc) (suwoCut_pos hf hc)

theorem suwoWithin_eq {n : Nat} {f : Nat → ℚ} (hf : ∀ i, 0 < f i) {c : List Nat} (hc : c ≠ []) (hlt : ∀ i ∈ c, i < n) :
    suwoWithin ((List.range n).map f) c = .ok ((suwoCut f c).map (fun q => q / (suwoCut f c).sum)) := by
  unfold suwoWithin
  rw [takeRows_map_getD 0 (by simpa using hlt), ok_bind]
  have e : c.map (fun i => ((List.range n).map f).getD i 0) = c.map f := by
    apply List.map_congr_left
    intro i hi
    rw [List.getD_eq_getElem?_getD, List.getElem?_map, List.getElem?_range (hlt i hi)]
    rfl
  rw [e]
  have e2 : (c.map f).map (fun q => if (c.map f).sum / (c.map f).length < q then (c.map f).sum / (c.map f).length else q) =
      suwoCut f c := by
    unfold suwoCut
    rw [List.map_map, List.length_map]
    apply List.map_congr_left
    intro i _
    simp only [Function.comp]
    split
    · rename_i h; rw [min_eq_right h.le]
    · rename_i h; rw [min_eq_left (not_lt.1 h)]
  simp only [e2]
  unfold normalize
  rw [if_neg (suwoCut_sum_pos hf hc).ne']

theorem sum_map_div_self {l : List ℚ} (h : l.sum ≠ 0) : (l.map (fun q => q / l.sum)).sum = 1 := by
  rw [sum_map_div, div_self h]

/-- The second normalisation changes nothing. -/
theorem suwoFix_normalized {l : List ℚ} (h : l.sum = 1) : normalize (suwoFix l) = .ok l := by
  unfold suwoFix normalize
  rw [h]
  simp [h]

theorem shares_suwoFix (l : List ℚ) : shares (suwoFix l) = shares l := by
  unfold suwoFix
  by_cases h : l.sum = 0
  · rw [if_pos h]
    unfold shares
    rw [if_pos h]
    by_cases hl : l = []
    · subst hl; rfl
    · have : (0 : ℚ) < l.length := by exact_mod_cast List.length_pos_iff.2 hl
      rw [if_neg (by simp; exact hl)]
      simp
  · rw [if_neg h]

theorem suwoFix_nonneg {l : List ℚ} (h : ∀ x ∈ l, 0 ≤ x) : ∀ x ∈ suwoFix l, 0 ≤ x := by
  unfold suwoFix
  split
  · intro x hx; rw [(List.mem_replicate.1 hx).2]; norm_num
  · exact h

theorem suwoFix_sum_pos {l : List ℚ} (hne : l ≠ []) (h : ∀ x ∈ l, 0 ≤ x) : 0 < (suwoFix l).sum := by
  unfold suwoFix
  split
  · have : (0 : ℚ) < l.length := by exact_mod_cast List.length_pos_iff.2 hne
    simpa using this
  · rename_i h0
    exact lt_of_le_of_ne (List.sum_nonneg h) (Ne.symm h0)

theorem suwoFix_length (l : List ℚ) : (suwoFix l).length = l.length := by unfold suwoFix; split <;> simp

/-! ## Theorems -/

/-- A_SUWO on every two-class data set. If no minority row is left without noise, the input is returned; if fewer than two majority rows
are left, `ValueError` is raised. Otherwise the output is what is left of the input, followed by as many minority rows as requested. The
minority rows fall into clusters; rows of different clusters are further apart than the radius or have a majority cluster in between.
Clusters are drawn by the share of their rows taken for the majority, and each draw gives a convex combination of a row of the cluster,
drawn by its closeness to the majority, and its neighbours within the cluster. -/
theorem C106_suwo {par : NbParams} {nClusMaj : Nat} {cThres : ℚ} {env : SuwoEnv} {vol : List Row → ℚ} {cu : Nat → ℚ}
    {drs : Nat → Draws} {d : Nat} {X : List Row} {y : List Int} {a b : Int} (hwf : WF d X y) (hd1 : 1 ≤ d)
    (hk : KnnQueryOK env.knn) (hD : ∀ p q, env.dist p q = env.dist q p) (hD0 : ∀ p q, 0 ≤ env.dist p q) (hagg : AggOK env.agg)
    (hcu : ∀ i, 0 ≤ cu i ∧ cu i < 1) (hdr : ∀ i, (drs i).OK) (hu : ∀ t i j, 0 < (drs t).simplexU i j) (hmin : IsMinority y a b)
    (hg : par.ss.gaussian = .none) (hvol : ∀ vs, 0 ≤ vol vs) (hd : 1 ≤ par.ss.nDim)
    (hwi : par.ss.within = .random ∨ (par.ss.within = .deterministic ∧ par.ss.nDim ≤ 2)) (hkn : 1 ≤ par.nNeighbors)
    (h3 : 2 < y.count a) (hn : 0 < requested par.proportion (y.count b) (y.count a)) :
    let X' := suwoX env.knn par.nNeighbors X y
    let y' := suwoY env.knn par.nNeighbors X y
    let A := classRows X' y' a
    let B := classRows X' y' b
    let m := min B.length nClusMaj
    let D := fun i j => env.dist (A.getD i []) (A.getD j [])
    let T := suwoRadius env.knn env.dist cThres A
    let M := suwoToMaj env.dist (env.agg m B) A B
    if A = [] then sample defaultChecks d (suwoAlg par nClusMaj cThres env vol cu drs d) X y = .ok (X, y)
    else if B.length < 2 then sample defaultChecks d (suwoAlg par nClusMaj cThres env vol cu drs d) X y = .error .valueError
    else ∃ (clusters : List (List Nat)) (selected : List Nat) (new : List Row),
      sample defaultChecks d (suwoAlg par nClusMaj cThres env vol cu drs d) X y =
        .ok (X' ++ new, y' ++ List.replicate (requested par.proportion (y.count b) (y.count a)) a) ∧
      new.length = requested par.proportion (y.count b) (y.count a) ∧
      IsPartition A.length clusters ∧ (∀ c ∈ clusters, JoinedSuwo D m M T c) ∧
      (∀ (i j : Nat) (c c' : List Nat), i ≠ j → clusters[i]? = some c → clusters[j]? = some c' →
        ∀ p ∈ c, ∀ q ∈ c', T < D p q ∨ MajBetween m M c c' (D p q)) ∧
      DrawnByShares (shares (clusters.map (suwoWeight env.lda b A B))) cu (requested par.proportion (y.count b) (y.count a)) selected ∧
      ByCluster clusters.length selected (fun c x =>
        SimplexOf d (min par.ss.nDim (min (clusters.getD c []).length par.nNeighbors))
          ((clusters.getD c []).map (fun i => A.getD i [])) ((clusters.getD c []).map (fun i => A.getD i []))
          (env.knn (min (clusters.getD c []).length par.nNeighbors) ((clusters.getD c []).map (fun i => A.getD i []))
            ((clusters.getD c []).map (fun i => A.getD i []))) (fun _ => True) x ∧
        (par.ss.simplexSampling ≠ .deterministic → par.ss.within = .random →
          DrawnBase drs (suwoCut (suwoCloseness env.knn env.dist d A B) (clusters.getD c [])) d
            (min par.ss.nDim (min (clusters.getD c []).length par.nNeighbors)) ((clusters.getD c []).map (fun i => A.getD i []))
            (env.knn (min (clusters.getD c []).length par.nNeighbors) ((clusters.getD c []).map (fun i => A.getD i []))
              ((clusters.getD c []).map (fun i => A.getD i []))) x)) new := by
  intro X' y' A B m D T M
  obtain ⟨s, hs, rfl, rfl⟩ := stats_of_isMinority hmin
  obtain ⟨hm, hM, hab⟩ := stats_min_mem hs
  have hXd : npDelete X ((List.range X.length).filter (fun i => decide (SuwoNoisy env.knn par.nNeighbors X y i))) = X' := by
    rw [npDelete_filter X []]
    simp only [← decide_not]
    rfl
  have hyd : npDelete y ((List.range X.length).filter (fun i => decide (SuwoNoisy env.knn par.nNeighbors X y i))) = y' := by
    rw [hwf.1, npDelete_filter y 0]
    simp only [← decide_not]
    rw [← hwf.1]
    rfl
  have hval : sample defaultChecks d (suwoAlg par nClusMaj cThres env vol cu drs d) X y =
      if A.length = 0 then .ok (X, y) else if B.length < 2 then .error .valueError else do
        let dm ← suwoMajDist env A B ((List.range m).map (fun c => (List.range B.length).filter
          (fun i => decide ((env.agg m B)[i]? = some c))))
        let c ← asuwoLoop (suwoThreshold env cThres A) (A.length * (A.length * A.length + 1) + A.length * A.length + 1)
          (singletons A.length) dm (DMat.start A.length D)
        let clusters ← endedLoop c
        let sizes ← suwoSizing env s.majLabel A B clusters
        let close ← suwoClose env d A B
        let within ← clusters.mapM (suwoWithin close)
        let samples ← drawClusters par.ss vol cu drs d (requested par.proportion (y.count s.majLabel) (y.count s.minLabel)) sizes
          (fun c => do
            let cl ← getRow clusters c
            let rows ← takeRows A cl
            let w ← getRow within c
            let w ← normalize (suwoFix w)
            return { rows := rows, indices := env.knn (min rows.length par.nNeighbors) rows rows, k := min rows.length par.nNeighbors,
                     args := { baseWeights := some w } })
        return (X' ++ samples, y' ++ List.replicate (requested par.proportion (y.count s.majLabel) (y.count s.minLabel)) s.minLabel) := by
    rw [sample_default hs, if_neg (by omega)]
    unfold suwoAlg
    rw [stats_count hs hm, stats_count hs hM, detN_eq_requested, ok_bind, if_neg (by omega), suwoNoise_eq hk hwf.1, ok_bind]
    simp only [selectLabel_eq_classRows, hXd, hyd]
    rfl
  by_cases hA : A = []
  · rw [if_pos hA, hval, if_pos (by rw [hA]; rfl)]
  have hAl := List.length_pos_iff.2 hA
  rw [if_neg hA]
  by_cases hB : B.length < 2
  · rw [if_pos hB, hval, if_neg (by omega), if_pos hB]
  rw [if_neg hB, hval, if_neg (by omega), if_neg hB]
  have hdm := suwoMajDist_eq (env := env) (m := m) (labels := env.agg m B) (A := A) (B := B) (hagg m B (Nat.min_le_left _ _))
  obtain ⟨clusters, hloop, hpart, hjoin, hapart⟩ := C35_asuwo_majority A.length hAl D (fun p q => hD _ _) T m M
  have hcne : clusters ≠ [] := by
    intro h
    have := partition_lengths hpart
    rw [h] at this
    simp at this
    omega
  set f := suwoCloseness env.knn env.dist d A B with hf
  have hfp : ∀ i, 0 < f i := fun i => suwoCloseness_pos hD0 hd1
  have hwith : clusters.mapM (suwoWithin ((List.range A.length).map f)) =
      .ok (clusters.map (fun c => (suwoCut f c).map (fun q => q / (suwoCut f c).sum))) :=
    mapM_ok_of (fun c hc => suwoWithin_eq hfp (hpart.2 c hc) (fun i hi => hpart.lt hc hi))
  have hw0 : ∀ x ∈ clusters.map (suwoWeight env.lda s.majLabel A B), 0 ≤ x := by
    intro x hx
    obtain ⟨c, _, rfl⟩ := List.mem_map.1 hx
    unfold suwoWeight
    split
    · exact div_nonneg (Nat.cast_nonneg _) (Nat.cast_nonneg _)
    · norm_num
  obtain ⟨sel, out, hout, hol, hdrawn, hselp, hby⟩ := drawClusters_strong (ss := par.ss) (vol := vol) (cu := cu) (drs := drs) (d := d)
    (ws := suwoFix (clusters.map (suwoWeight env.lda s.majLabel A B)))
    (T := fun c => { rows := (clusters.getD c []).map (fun i => A.getD i []),
                     indices := env.knn (min (clusters.getD c []).length par.nNeighbors) ((clusters.getD c []).map (fun i => A.getD i []))
                       ((clusters.getD c []).map (fun i => A.getD i [])),
                     k := min (clusters.getD c []).length par.nNeighbors,
                     args := { baseWeights := some ((suwoCut f (clusters.getD c [])).map
                       (fun q => q / (suwoCut f (clusters.getD c [])).sum)) } })
    (task := fun c => do
            let cl ← getRow clusters c
            let rows ← takeRows A cl
            let w ← getRow (clusters.map (fun c => (suwoCut f c).map (fun q => q / (suwoCut f c).sum))) c
            let w ← normalize (suwoFix w)
            return { rows := rows, indices := env.knn (min rows.length par.nNeighbors) rows rows, k := min rows.length par.nNeighbors,
                     args := { baseWeights := some w } })
    hn (suwoFix_nonneg hw0) (suwoFix_sum_pos (by simpa using hcne) hw0) (by
      intro c x hx hxp
      have hc : c < clusters.length := by
        have := (List.getElem?_eq_some_iff.1 hx).1
        rwa [suwoFix_length, List.length_map] at this
      have hcl := List.getElem?_eq_getElem hc
      set cl := clusters[c] with hcl'
      have hmem : cl ∈ clusters := List.getElem_mem hc
      have hg : clusters.getD c [] = cl := by rw [List.getD_eq_getElem?_getD, hcl]; rfl
      have hlt : ∀ i ∈ cl, i < A.length := fun i hi => hpart.lt hmem hi
      have hne := hpart.2 cl hmem
      have hlp := List.length_pos_iff.2 hne
      have hcp := suwoCut_sum_pos hfp hne
      obtain ⟨t1, t2⟩ := hk (min cl.length par.nNeighbors) (cl.map (fun i => A.getD i [])) (cl.map (fun i => A.getD i []))
        (by rw [List.length_map]; exact Nat.min_le_left _ _)
      rw [hg]
      constructor
      · rw [getRow_ok.2 hcl, ok_bind, takeRows_map_getD [] hlt, ok_bind,
          getRow_ok.2 (by rw [List.getElem?_map, hcl]; rfl), ok_bind, suwoFix_normalized (sum_map_div_self hcp.ne'), ok_bind,
          List.length_map]
        rfl
      · refine ⟨?_, by simpa using hne, t2, t1, by dsimp only; omega, rfl, ?_, ?_, ?_⟩
        · intro r hr
          obtain ⟨j, hj, rfl⟩ := List.mem_map.1 hr
          rw [List.getD_eq_getElem?_getD, List.getElem?_eq_getElem (hlt j hj)]
          have h1 : A[j]'(hlt j hj) ∈ X' := mem_of_mem_classRows (List.getElem_mem (hlt j hj))
          obtain ⟨t, ht, he⟩ := List.mem_map.1 h1
          have ht' := List.mem_range.1 (List.mem_filter.1 ht).1
          rw [List.getD_eq_getElem?_getD, List.getElem?_eq_getElem ht'] at he
          rw [Option.getD_some, ← he]
          exact hwf.2 _ (List.getElem_mem ht')
        · dsimp only
          unfold suwoCut
          simp
        · intro q hq
          obtain ⟨z, hz, rfl⟩ := List.mem_map.1 hq
          exact (div_pos (suwoCut_pos hfp hne z hz) hcp).le
        · rw [sum_map_div_self hcp.ne']; norm_num)
    hcu hdr hu hg hvol hd hwi
  refine ⟨clusters, sel, out, ?_, hol, hpart, hjoin, hapart, ?_, ?_⟩
  · rw [hdm, ok_bind, suwoThreshold_eq hk, hloop, ok_bind]
    unfold endedLoop
    dsimp only
    rw [ok_bind, suwoSizing_eq hpart, ok_bind, suwoClose_eq hk (by omega), ok_bind, hwith, ok_bind, hout, ok_bind]
    rfl
  · rw [shares_suwoFix] at hdrawn
    exact hdrawn
  · rw [suwoFix_length, List.length_map] at hby
    refine hby.imp ?_
    rintro c hc x ⟨⟨b', base, row, nbIdx, nbrs, w', e1, _, e3⟩, hx2⟩
    refine ⟨⟨b', base, row, nbIdx, nbrs, w', e1, trivial, e3⟩, fun h1 h2 => ?_⟩
    obtain ⟨t, i, b0, hb0, hb1⟩ := hx2 h1 h2 _ rfl
    have hne : clusters.getD c [] ≠ [] := by
      obtain ⟨z, hz, _⟩ := hselp c hc
      have hcl : c < clusters.length := by
        have := (List.getElem?_eq_some_iff.1 hz).1
        rwa [suwoFix_length, List.length_map] at this
      rw [List.getD_eq_getElem?_getD, List.getElem?_eq_getElem hcl]
      exact hpart.2 _ (List.getElem_mem hcl)
    exact ⟨t, i, b0, drawsShare_div (suwoCut_sum_pos hfp hne) hb0, hb1⟩

/-- With one neighbour every new row is a copy of a minority row: the neighbours of a row within its cluster include the row. -/
theorem C106_copies {par : NbParams} {nClusMaj : Nat} {cThres : ℚ} {env : SuwoEnv} {vol : List Row → ℚ} {cu : Nat → ℚ}
    {drs : Nat → Draws} {d : Nat} {X Xo : List Row} {y yo : List Int} {a b : Int} (hwf : WF d X y) (hd1 : 1 ≤ d)
    (hk : KnnQueryOK env.knn) (hD : ∀ p q, env.dist p q = env.dist q p) (hD0 : ∀ p q, 0 ≤ env.dist p q) (hagg : AggOK env.agg)
    (hcu : ∀ i, 0 ≤ cu i ∧ cu i < 1) (hdr : ∀ i, (drs i).OK) (hu : ∀ t i j, 0 < (drs t).simplexU i j) (hmin : IsMinority y a b)
    (hg : par.ss.gaussian = .none) (hvol : ∀ vs, 0 ≤ vol vs) (hd : 1 ≤ par.ss.nDim)
    (hwi : par.ss.within = .random ∨ (par.ss.within = .deterministic ∧ par.ss.nDim ≤ 2)) (hkn : par.nNeighbors = 1)
    (h3 : 2 < y.count a) (hn : 0 < requested par.proportion (y.count b) (y.count a))
    (h : sample defaultChecks d (suwoAlg par nClusMaj cThres env vol cu drs d) X y = .ok (Xo, yo)) : ∀ x ∈ Xo, x ∈ X := by
  have hsub : ∀ x ∈ suwoX env.knn par.nNeighbors X y, x ∈ X := by
    intro x hx
    obtain ⟨t, ht, rfl⟩ := List.mem_map.1 hx
    have ht' := List.mem_range.1 (List.mem_filter.1 ht).1
    rw [List.getD_eq_getElem?_getD, List.getElem?_eq_getElem ht']
    exact List.getElem_mem ht'
  have hall := C106_suwo (nClusMaj := nClusMaj) (cThres := cThres) hwf hd1 hk hD hD0 hagg hcu hdr hu hmin hg hvol hd hwi (by omega) h3 hn
  dsimp only at hall
  split at hall
  · rw [h] at hall
    injection hall with hall
    rw [(Prod.mk.inj hall).1]
    exact fun x hx => hx
  split at hall
  · rw [h] at hall
    cases hall
  obtain ⟨clusters, sel, new, h1, _, hpart, _, _, _, hby⟩ := hall
  rw [h] at h1
  injection h1 with h1
  rw [(Prod.mk.inj h1).1]
  intro x hx
  rcases List.mem_append.1 hx with hx | hx
  · exact hsub x hx
  · obtain ⟨c, hc, _, hs, _⟩ := hby.mem hx
    have hmem : clusters.getD c [] ∈ clusters := by
      rw [List.getD_eq_getElem?_getD, List.getElem?_eq_getElem hc]
      exact List.getElem_mem hc
    have hl := List.length_pos_iff.2 (hpart.2 _ hmem)
    rw [hkn, show min par.ss.nDim (min (clusters.getD c []).length 1) = 1 by omega] at hs
    have hrow : ∀ r ∈ (clusters.getD c []).map (fun i => (classRows (suwoX env.knn 1 X y) (suwoY env.knn 1 X y) a).getD i []),
        r ∈ X := by
      intro r hr
      obtain ⟨i, hi, rfl⟩ := List.mem_map.1 hr
      have hi' := hpart.lt hmem hi
      rw [hkn] at hi' hsub
      rw [List.getD_eq_getElem?_getD, List.getElem?_eq_getElem hi']
      exact hsub _ (mem_of_mem_classRows (List.getElem_mem hi'))
    exact hrow x (hs.copy (fun r hr => hwf.2 r (hrow r hr)))

/-! ## Concrete data sets -/

/-- Four minority rows in two groups, one more among the majority, and a majority row among the minority. -/
def swX : List Row := [[0], [1], [8], [9], [51], [52], [50], [53], [54], [55], [56], [57], [2]]
def swY : List Int := [1, 1, 1, 1, 1, 0, 0, 0, 0, 0, 0, 0, 0]
/-- Clusters by position; every row is taken for the majority. -/
def swEnv : SuwoEnv :=
  { knn := bruteQuery, dist := cbDist, agg := fun m rows => (List.range rows.length).map (fun i => min i (m - 1)),
    lda := fun _ rows => rows.map (fun _ => 0) }

theorem swEnv_agg : AggOK swEnv.agg := by
  intro m rows hm c hc
  refine ⟨c, by omega, ?_⟩
  simp only [swEnv]
  rw [List.getElem?_map, List.getElem?_range (by omega)]
  simp only [Option.map_some, Option.some.injEq]
  omega

example : WF 1 swX swY ∧ IsMinority swY 1 0 ∧ KnnQueryOK swEnv.knn ∧ AggOK swEnv.agg ∧ (∀ p q, cbDist p q = cbDist q p) ∧
    (∀ p q, 0 ≤ cbDist p q) ∧ suwoKept swEnv.knn 2 swX swY = [0, 1, 2, 3, 5, 6, 7, 8, 9, 10, 11] := by
  refine ⟨⟨rfl, by decide⟩, ⟨by decide, by decide, by decide, Or.inl (by decide)⟩, bruteQuery_ok, swEnv_agg, ?_, ?_, by decide +kernel⟩
  · intro p q; unfold cbDist; exact abs_sub_comm _ _
  · intro p q; exact abs_nonneg _

example : sample defaultChecks 1 (suwoAlg cbPar 7 (4 / 5) swEnv (fun _ => 1) (fun _ => 0) (fun _ => exDraws) 1) swX swY =
    .ok ([[0], [1], [8], [9], [52], [50], [53], [54], [55], [56], [57], [3 / 5], [3 / 5], [3 / 5]],
      [1, 1, 1, 1, 0, 0, 0, 0, 0, 0, 0, 1, 1, 1]) := by decide +kernel

/-- Rows of the input are missing from the output, and the classes differ in size although the proportion is one. -/
theorem C106_drops : ∃ (X : List Row) (y : List Int) (X' : List Row) (y' : List Int), WF 1 X y ∧ IsMinority y 1 0 ∧
    sample defaultChecks 1 (suwoAlg cbPar 7 (4 / 5) swEnv (fun _ => 1) (fun _ => 0) (fun _ => exDraws) 1) X y = .ok (X', y') ∧
    (∃ x ∈ X, x ∉ X') ∧ cbPar.proportion = 1 ∧ y'.count 1 = 6 ∧ y'.count 0 = 7 := by
  refine ⟨swX.dropLast, swY.dropLast, [[0], [1], [8], [9], [52], [50], [53], [54], [55], [56], [57], [3 / 5], [3 / 5]],
    [1, 1, 1, 1, 0, 0, 0, 0, 0, 0, 0, 1, 1], ⟨rfl, by decide⟩, ⟨by decide, by decide, by decide, Or.inl (by decide)⟩,
    by decide +kernel, ⟨[51], by decide, by decide +kernel⟩, rfl, by decide, by decide⟩

/-- All minority rows are noise: the input comes back. All majority rows are noise, but not all minority rows: `ValueError`. -/
example : sample defaultChecks 1 (suwoAlg { cbPar with nNeighbors := 1 } 7 (4 / 5) swEnv (fun _ => 1) (fun _ => 0) (fun _ => exDraws) 1)
      [[0], [10], [20], [1], [11], [21], [2]] [1, 1, 1, 0, 0, 0, 0] = .ok ([[0], [10], [20], [1], [11], [21], [2]], [1, 1, 1, 0, 0, 0, 0]) ∧
    sample defaultChecks 1 (suwoAlg { cbPar with nNeighbors := 1 } 7 (4 / 5) swEnv (fun _ => 1) (fun _ => 0) (fun _ => exDraws) 1)
      [[0], [1], [100], [200], [99], [101], [199], [201], [3]] [1, 1, 1, 1, 0, 0, 0, 0, 0] = .error .valueError :=
  ⟨by decide +kernel, by decide +kernel⟩

end Verif

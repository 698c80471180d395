import Verif.Model.ProWSyn
import Verif.Lemmas.Interp
import Verif.Lemmas.Smote
import Verif.Lemmas.SmoteExample
import Verif.Lemmas.Noise
import Verif.Spec.Interp
import Verif.Spec.Neighbors

/-!
# C34 ProWSyn proximity levels partition the minority class
-/

namespace Verif

theorem takeRows_eq_map {P : List Nat} {idx r : List Nat} (h : takeRows P idx = .ok r) : r = idx.map (fun i => P.getD i 0) := by
  have := takeRows_forall h
  induction this with
  | nil => rfl
  | @cons i a is as hab _ ih =>
    rw [List.map_cons, ← ih (mapM_ok_iff.2 ?_)]
    · rw [List.getD_eq_getElem?_getD, hab]; rfl
    · rename_i h'
      exact h'.imp (fun i a hi => getRow_ok.2 hi)

theorem npDelete_eq_map (P rem : List Nat) :
    npDelete P rem = ((List.range P.length).filter (fun i => !rem.contains i)).map (fun i => P.getD i 0) := by
  have h := npDelete_forall P rem
  have hk : kept P.length rem = (List.range P.length).filter (fun i => !rem.contains i) := by
    unfold kept; rfl
  rw [hk] at h
  clear hk
  generalize (List.range P.length).filter (fun i => !rem.contains i) = l at h
  generalize npDelete P rem = D at h
  induction h with
  | nil => rfl
  | @cons i a is as hab _ ih => rw [List.map_cons, ← ih, List.getD_eq_getElem?_getD, hab]; rfl

/-- The selected and the deleted part together are a rearrangement of the whole. -/
theorem take_delete_perm {P idx r : List Nat} (hnd : idx.Nodup) (h : takeRows P idx = .ok r) :
    (r ++ npDelete P idx).Perm P := by
  have hlt : ∀ i ∈ idx, i < P.length := by
    intro i hi
    obtain ⟨a, _, ha⟩ := forall₂_mem_left (takeRows_forall h) hi
    exact (List.getElem?_eq_some_iff.1 ha).1
  rw [takeRows_eq_map h, npDelete_eq_map, ← List.map_append]
  have hp : (idx ++ (List.range P.length).filter (fun i => !idx.contains i)).Perm (List.range P.length) := by
    rw [List.perm_ext_iff_of_nodup]
    · intro i
      simp only [List.mem_append, List.mem_filter, List.mem_range, Bool.not_eq_true', List.contains_eq_mem,
        decide_eq_false_iff_not]
      constructor
      · rintro (h1 | h1)
        · exact hlt i h1
        · exact h1.1
      · intro h1
        by_cases hi : i ∈ idx
        · exact Or.inl hi
        · exact Or.inr ⟨h1, hi⟩
    · rw [List.nodup_append]
      refine ⟨hnd, List.nodup_range.filter _, ?_⟩
      intro a ha b hb hab
      subst hab
      rw [List.mem_filter] at hb
      simp [ha] at hb
    · exact List.nodup_range
  refine (hp.map _).trans ?_
  have : (List.range P.length).map (fun i => P.getD i 0) = P := by
    apply List.ext_getElem (by simp)
    intro i h1 h2
    simp [List.getD_eq_getElem?_getD, h2]
  rw [this]

theorem proximityLoop_spec {query : List Nat → List (List Nat)} :
    ∀ (left idx : Nat) (P : List Nat) (r : List (List Nat) × List Nat × List Nat), proximityLoop query left idx P = .ok r →
      (r.1.flatten ++ r.2.2).Perm P ∧ r.1.length = r.2.1.length ∧ r.1.length ≤ left ∧
      r.2.1 = (List.range' (idx + 1) r.1.length) := by
  intro left
  induction left with
  | zero =>
    intro idx P r h
    injection h with h
    subst h
    exact ⟨by simp, rfl, by simp, rfl⟩
  | succ left ih =>
    intro idx P r h
    rw [proximityLoop] at h
    split at h
    · injection h with h
      subst h
      exact ⟨by simp, rfl, by simp, rfl⟩
    · dsimp only at h
      obtain ⟨level, hl, h⟩ := bind_ok.1 h
      obtain ⟨r', hr, h⟩ := bind_ok.1 h
      injection h with h
      subst h
      obtain ⟨h1, h2, h3, h4⟩ := ih _ _ _ hr
      refine ⟨?_, by simp [h2], by simp; omega, ?_⟩
      · dsimp only
        rw [List.flatten_cons, List.append_assoc]
        exact (h1.append_left level).trans (take_delete_perm (npUnique_nodup _) hl)
      · dsimp only
        rw [h4]
        simp [List.range'_succ]

/-- The level sets rearrange the minority positions: disjoint, complete, nothing else. There are at most `L + 1` of them,
and their numbers are between 1 and `L`, in increasing order. -/
theorem C34_levels_partition {query : List Nat → List (List Nat)} {L : Nat} {P : List Nat}
    {Ps : List (List Nat)} {levels : List Nat} (h : proximityLevels query L P = .ok (Ps, levels)) :
    Ps.flatten.Perm P ∧ Ps.length = levels.length ∧ Ps.length ≤ L + 1 ∧
    (1 ≤ L → ∀ l ∈ levels, 1 ≤ l ∧ l ≤ L) ∧ levels.Pairwise (· ≤ ·) := by
  unfold proximityLevels at h
  obtain ⟨r, hr, h⟩ := bind_ok.1 h
  obtain ⟨h1, h2, h3, h4⟩ := proximityLoop_spec _ _ _ _ hr
  have hmem : ∀ l ∈ r.2.1, 1 ≤ l ∧ l ≤ L := by
    intro l hl
    rw [h4, List.mem_range'_1] at hl
    omega
  have hpw : r.2.1.Pairwise (· ≤ ·) := by
    rw [h4]
    exact List.pairwise_le_range' (s := 0 + 1) (n := r.1.length) (step := 1)
  split at h
  · injection h with h
    obtain ⟨rfl, rfl⟩ := Prod.mk.inj h
    refine ⟨by simpa using h1, by simp [h2], by simp; omega, ?_, ?_⟩
    · intro hL l hl
      rcases List.mem_append.1 hl with hl | hl
      · exact hmem l hl
      · rw [List.mem_singleton] at hl; omega
    · rw [List.pairwise_append]
      refine ⟨hpw, by simp, ?_⟩
      intro a ha b hb
      rw [List.mem_singleton] at hb
      rw [hb]
      exact (hmem a ha).2
  · rename_i hz
    injection h with h
    obtain ⟨rfl, rfl⟩ := Prod.mk.inj h
    have : r.2.2 = [] := List.length_eq_zero_iff.1 (by omega)
    rw [this, List.append_nil] at h1
    exact ⟨h1, h2, by omega, fun _ => hmem, hpw⟩

theorem npDelete_eq_filter {P idx level : List Nat} (hP : P.Nodup) (h : takeRows P idx = .ok level) :
    npDelete P idx = P.filter (fun p => !level.contains p) := by
  have hnum : ∀ i, i < P.length → (idx.contains i = level.contains (P.getD i 0)) := by
    intro i hi
    rw [List.contains_eq_mem, List.contains_eq_mem, decide_eq_decide]
    have hf := takeRows_forall h
    constructor
    · intro hm
      obtain ⟨a, ha, hia⟩ := forall₂_mem_left hf hm
      rw [List.getD_eq_getElem?_getD, hia]; exact ha
    · intro hm
      obtain ⟨j, hj, hja⟩ := forall₂_mem_right hf hm
      obtain ⟨hj', hje⟩ := List.getElem?_eq_some_iff.1 hja
      rw [List.getD_eq_getElem?_getD, List.getElem?_eq_getElem hi, Option.getD_some] at hje
      rw [← (hP.getElem_inj_iff).1 hje]; exact hj
  rw [npDelete_eq_map]
  have hmap : P.filter (fun p => !level.contains p) =
      ((List.range P.length).map (fun i => P.getD i 0)).filter (fun p => !level.contains p) := by
    congr 1
    apply List.ext_getElem (by simp)
    intro i h1 h2
    simp [List.getD_eq_getElem?_getD, h1]
  rw [hmap, List.filter_map]
  congr 1
  apply List.filter_congr
  intro i hi
  rw [List.mem_range] at hi
  simp only [Function.comp]
  rw [hnum i hi]

/-- Level `k` (before the rest) consists of exactly those positions not in an earlier level that the search among the
remaining rows lists for some majority row. -/
theorem C34_level_content {query : List Nat → List (List Nat)} {L : Nat} {P : List Nat} (hP : P.Nodup)
    {Ps : List (List Nat)} {levels : List Nat} (h : proximityLevels query L P = .ok (Ps, levels)) {k : Nat} (hk : k < L)
    {Pk : List Nat} (hPk : Ps[k]? = some Pk) (p : Nat) :
    p ∈ Pk ↔ ∃ nbs ∈ query (P.filter (fun x => !((Ps.take k).flatten.contains x))), ∃ i ∈ nbs,
      (P.filter (fun x => !((Ps.take k).flatten.contains x)))[i]? = some p := by
  have loop : ∀ (left idx : Nat) (P : List Nat) (r : List (List Nat) × List Nat × List Nat), P.Nodup →
      proximityLoop query left idx P = .ok r → ∀ (k : Nat) (Pk : List Nat), r.1[k]? = some Pk → ∀ p,
      (p ∈ Pk ↔ ∃ nbs ∈ query (P.filter (fun x => !((r.1.take k).flatten.contains x))), ∃ i ∈ nbs,
        (P.filter (fun x => !((r.1.take k).flatten.contains x)))[i]? = some p) := by
    intro left
    induction left with
    | zero =>
      intro idx P r _ h k Pk hPk
      injection h with h
      subst h
      simp at hPk
    | succ left ih =>
      intro idx P r hP h k Pk hPk p
      rw [proximityLoop] at h
      split at h
      · injection h with h
        subst h
        simp at hPk
      · dsimp only at h
        obtain ⟨level, hl, h⟩ := bind_ok.1 h
        obtain ⟨r', hr, h⟩ := bind_ok.1 h
        injection h with h
        subst h
        cases k with
        | zero =>
          simp only [List.getElem?_cons_zero, Option.some.injEq] at hPk
          subst hPk
          have hall : P.filter (fun x => !((List.take 0 (level :: r'.1)).flatten.contains x)) = P := by
            simp
          rw [hall]
          have hf := takeRows_forall hl
          constructor
          · intro hp
            obtain ⟨i, hi, hip⟩ := forall₂_mem_right hf hp
            rw [mem_npUnique, List.mem_flatten] at hi
            obtain ⟨nbs, hn, hin⟩ := hi
            exact ⟨nbs, hn, i, hin, hip⟩
          · rintro ⟨nbs, hn, i, hin, hip⟩
            obtain ⟨a, ha, hia⟩ := forall₂_mem_left hf
              (mem_npUnique.2 (List.mem_flatten.2 ⟨nbs, hn, hin⟩))
            rw [hip] at hia
            injection hia with hia
            rw [hia]; exact ha
        | succ k =>
          rw [List.getElem?_cons_succ] at hPk
          have hdel := npDelete_eq_filter hP hl
          have := ih (idx + 1) _ r' (by rw [hdel]; exact hP.filter _) hr k Pk hPk p
          rw [hdel, List.filter_filter] at this
          rw [List.take_succ_cons, List.flatten_cons]
          have hcong : (P.filter fun a => (!(List.take k r'.1).flatten.contains a) && !level.contains a) =
              P.filter (fun x => !((level ++ (List.take k r'.1).flatten).contains x)) := by
            apply List.filter_congr
            intro x _
            simp only [List.contains_eq_mem, List.mem_append]
            by_cases h1 : x ∈ level <;> by_cases h2 : x ∈ (List.take k r'.1).flatten <;> simp [h1, h2]
          rw [hcong] at this
          exact this
  unfold proximityLevels at h
  obtain ⟨r, hr, h⟩ := bind_ok.1 h
  obtain ⟨_, _, h3, _⟩ := proximityLoop_spec _ _ _ _ hr
  split at h
  · rename_i hrest
    injection h with h
    obtain ⟨rfl, rfl⟩ := Prod.mk.inj h
    -- a non-empty rest means that all rounds were done
    have hfull : ∀ (left idx : Nat) (P : List Nat) (r : List (List Nat) × List Nat × List Nat),
        proximityLoop query left idx P = .ok r → 0 < r.2.2.length → r.1.length = left := by
      intro left
      induction left with
      | zero => intro idx P r h _; injection h with h; subst h; rfl
      | succ left ih =>
        intro idx P r h hz
        rw [proximityLoop] at h
        split at h
        · injection h with h
          subst h
          dsimp only at hz
          omega
        · dsimp only at h
          obtain ⟨level, hl, h⟩ := bind_ok.1 h
          obtain ⟨r', hr, h⟩ := bind_ok.1 h
          injection h with h
          subst h
          simp only [List.length_cons]
          rw [ih _ _ _ hr hz]
    have hlen := hfull _ _ _ _ hr hrest
    rw [List.getElem?_append_left (by omega)] at hPk
    rw [List.take_append_of_le_length (by omega)]
    exact loop L 0 P r hP hr k Pk hPk p
  · injection h with h
    obtain ⟨rfl, rfl⟩ := Prod.mk.inj h
    exact loop L 0 P r hP hr k Pk hPk p

theorem mem_labelPositions {y : List Int} {l : Int} {i : Nat} : i ∈ labelPositions y l ↔ y[i]? = some l := by
  unfold labelPositions
  rw [List.mem_filter, List.mem_range]
  constructor
  · rintro ⟨_, h⟩; simpa using h
  · intro h; exact ⟨(List.getElem?_eq_some_iff.1 h).1, by simpa using h⟩

theorem circulant_table (n : Nat) : (circulantRange n).length = n ∧ TableOK (circulantRange n) n n := by
  refine ⟨by simp [circulantRange], ?_⟩
  intro row hrow
  unfold circulantRange at hrow
  rw [List.mem_map] at hrow
  obtain ⟨i, hi, rfl⟩ := hrow
  rw [List.mem_range] at hi
  refine ⟨by simp, ?_⟩
  intro j hj
  rw [List.mem_map] at hj
  obtain ⟨k, _, rfl⟩ := hj
  exact Nat.mod_lt _ (by omega)

/-- The rows of one level, all labelled minority. -/
def LevelRows (X : List Row) (y : List Int) (l : Int) (P : List Nat) (S : List Row) : Prop :=
  (∀ i ∈ P, y[i]? = some l) ∧ List.Forall₂ (fun i r => X[i]? = some r) P S

/-- A completed call adds exactly the requested number of rows, each in the convex hull of the rows of one proximity level
(without gaussian component). -/
theorem C34_samples_within_level {par : ProParams} {vol : List Row → ℚ} {clusterU : Nat → ℚ} {dr : Nat → Draws} {d : Nat}
    {knn : Nat → List Row → List Row → List (List Nat)} {X X' : List Row} {y y' : List Int} {a b : Int} (hwf : WF d X y)
    (hmin : IsMinority y a b) (hg : par.ss.gaussian = .none) (hdr : ∀ i, (dr i).OK)
    (h : sample defaultChecks d (prowsynAlg par vol clusterU dr d knn) X y = .ok (X', y')) :
    (X' = X ∧ y' = y) ∨ ∃ Ps levels,
      proximityLevels (fun P => knn (min P.length par.nNeighbors) (P.map (fun i => X.getD i [])) (classRows X y b)) par.L
        (labelPositions y a) = .ok (Ps, levels) ∧
      Oversampled X y a (requested par.proportion (y.count b) (y.count a))
        (fun x => ∃ P ∈ Ps, ∃ S, LevelRows X y a P S ∧ InHull d S x) X' y' := by
  obtain ⟨s, hs, rfl, rfl⟩ := stats_of_isMinority hmin
  obtain ⟨hm, hM, _⟩ := stats_min_mem hs
  rcases sample_default_ok hs h with h | h
  · exact Or.inl h
  unfold prowsynAlg at h
  rw [stats_count hs hm, stats_count hs hM, detN_eq_requested, ok_bind] at h
  split at h
  · injection h with h
    obtain ⟨rfl, rfl⟩ := Prod.mk.inj h
    exact Or.inl ⟨rfl, rfl⟩
  right
  dsimp only at h
  rw [selectLabel_eq_classRows] at h
  obtain ⟨⟨Ps, levels⟩, hpl, h⟩ := bind_ok.1 h
  obtain ⟨p, _, h⟩ := bind_ok.1 h
  obtain ⟨samples, hsam, h⟩ := bind_ok.1 h
  injection h with h
  obtain ⟨rfl, rfl⟩ := Prod.mk.inj h
  refine ⟨Ps, levels, hpl, Or.inr ?_⟩
  have hpart := (C34_levels_partition hpl).1
  unfold samplesInClusters at hsam
  dsimp only at hsam
  obtain ⟨sel, hsel, hsam⟩ := bind_ok.1 hsam
  obtain ⟨parts, hparts, hsam⟩ := bind_ok.1 hsam
  injection hsam with hsam
  subst hsam
  have hone : ∀ (c : (Nat × Nat) × Nat) (out : List Row), (do
      let P ← getRow Ps c.1.1
      let rows ← takeRows X P
      sampleSimplex par.ss vol (dr c.2) d rows (circulantRange rows.length) rows.length c.1.2 {}) = Except.ok out →
      out.length = c.1.2 ∧ ∀ x ∈ out, ∃ P ∈ Ps, ∃ S, LevelRows X y s.minLabel P S ∧ InHull d S x := by
    intro c out hc
    obtain ⟨P, hP, hc⟩ := bind_ok.1 hc
    obtain ⟨rows, hrows, hc⟩ := bind_ok.1 hc
    have hX : ∀ r ∈ rows, r.length = d := fun r hr => hwf.2 r (takeRows_mem hrows hr)
    obtain ⟨gen, g1, g2, g3⟩ := sampleSimplex_sound hX (by intro V hV; cases hV) (by intro V hV; cases hV)
      (by intro hV; cases hV) (fun i j => ((hdr c.2).simplex i j).1) (by rw [(circulant_table _).1]) hc
    rw [hg] at g3
    simp only [addGaussianNoise] at g3
    subst g3
    refine ⟨g1, fun x hx => ⟨P, getRow_mem hP, rows, ⟨?_, takeRows_forall hrows⟩, ?_⟩⟩
    · intro i hi
      exact mem_labelPositions.1 (hpart.mem_iff.1 (List.mem_flatten.2 ⟨P, getRow_mem hP, hi⟩))
    · exact generatedFrom_inHull (g2 x hx) (fun _ h => h) (fun _ h => h)
  have hlen : parts.flatten.length = requested par.proportion (y.count s.majLabel) (y.count s.minLabel) := by
    rw [mapM_flatten_length (g := fun c => c.1.2) hparts (fun c out hc => (hone c out hc).1)]
    have : (npUniqueCounts sel).zipIdx.map (fun c => c.1.2) = (npUnique sel).map (fun v => sel.count v) := by
      have h1 : (npUniqueCounts sel).zipIdx.map (fun c => c.1.2) =
          ((npUniqueCounts sel).zipIdx.map Prod.fst).map Prod.snd := by rw [List.map_map]; rfl
      rw [h1, List.zipIdx_map_fst]
      unfold npUniqueCounts
      rw [List.map_map]; rfl
    rw [this, sum_npUnique_counts, npChoice_length hsel]
  refine ⟨parts.flatten, rfl, by rw [hlen], hlen, ?_⟩
  intro x hx
  rw [List.mem_flatten] at hx
  obtain ⟨out, ho, hx⟩ := hx
  obtain ⟨c, _, hc⟩ := mapM_ok_mem hparts ho
  exact (hone c out hc).2 x hx

theorem proximityLoop_ok {query : List Nat → List (List Nat)} (hq : ∀ P, ∀ nbs ∈ query P, ∀ i ∈ nbs, i < P.length) :
    ∀ (left idx : Nat) (P : List Nat), ∃ r, proximityLoop query left idx P = .ok r := by
  intro left
  induction left with
  | zero => intro idx P; exact ⟨_, rfl⟩
  | succ left ih =>
    intro idx P
    rw [proximityLoop]
    split
    · exact ⟨_, rfl⟩
    · dsimp only
      obtain ⟨level, hl⟩ := takeRows_ok_of_lt (X := P) (idx := npUnique (query P).flatten) (by
        intro i hi
        rw [mem_npUnique, List.mem_flatten] at hi
        obtain ⟨nbs, hn, hi⟩ := hi
        exact hq P nbs hn i hi)
      rw [hl, ok_bind]
      obtain ⟨r, hr⟩ := ih (idx + 1) (npDelete P (npUnique (query P).flatten))
      rw [hr, ok_bind]
      exact ⟨_, rfl⟩

/-- `ProWSyn` returns for every neighbour answer and every sequence of draws within their contracts. -/
theorem C34_total {par : ProParams} {vol : List Row → ℚ} {clusterU : Nat → ℚ} {dr : Nat → Draws} {d : Nat}
    {knn : Nat → List Row → List Row → List (List Nat)} {X : List Row} {y : List Int} {a b : Int} (hwf : WF d X y)
    (hmin : IsMinority y a b) (hknn : KnnQueryOK knn) (hdec : ∀ l, 0 < par.decay l) (hdim : 1 ≤ par.ss.nDim)
    (hmode : par.ss.simplexSampling = .random ∨ par.ss.simplexSampling = .deterministic)
    (hwi : par.ss.within = .random ∨ (par.ss.within = .deterministic ∧ par.ss.nDim ≤ 2))
    (hcu : ∀ i, 0 ≤ clusterU i ∧ clusterU i < 1) (hdr : ∀ i, (dr i).OK) (hu : ∀ r i j, 0 < (dr r).simplexU i j) :
    ∃ r, sample defaultChecks d (prowsynAlg par vol clusterU dr d knn) X y = .ok r := by
  obtain ⟨s, hs, rfl, rfl⟩ := stats_of_isMinority hmin
  obtain ⟨hm, hM, _⟩ := stats_min_mem hs
  rw [sample_default hs]
  split
  · exact ⟨_, rfl⟩
  unfold prowsynAlg
  rw [stats_count hs hm, stats_count hs hM, detN_eq_requested, ok_bind]
  split
  · exact ⟨_, rfl⟩
  dsimp only
  set query := fun P : List Nat => knn (min P.length par.nNeighbors) (P.map (fun i => X.getD i []))
    (selectLabel X y s.majLabel) with hquery
  have hq : ∀ P, ∀ nbs ∈ query P, ∀ i ∈ nbs, i < P.length := by
    intro P nbs hn i hi
    have := ((hknn (min P.length par.nNeighbors) (P.map (fun i => X.getD i [])) (selectLabel X y s.majLabel)
      (by rw [List.length_map]; omega)).2 nbs hn).2 i hi
    rwa [List.length_map] at this
  obtain ⟨⟨Ps, levels⟩, hpl⟩ : ∃ pl, proximityLevels query par.L (labelPositions y s.minLabel) = .ok pl := by
    unfold proximityLevels
    obtain ⟨r, hr⟩ := proximityLoop_ok hq par.L 0 (labelPositions y s.minLabel)
    rw [hr, ok_bind]
    split
    · exact ⟨_, rfl⟩
    · exact ⟨_, rfl⟩
  rw [hpl, ok_bind]
  obtain ⟨hpart, hlen, _⟩ := C34_levels_partition hpl
  dsimp only
  set w := List.zipWith (fun (P : List Nat) l => if P.length = 0 then 0 else par.decay l) Ps levels with hw
  have hwlen : w.length = Ps.length := by rw [hw, List.length_zipWith]; omega
  have hwget : ∀ (i : Nat) (P : List Nat), Ps[i]? = some P → ∃ l, w[i]? = some (if P.length = 0 then 0 else par.decay l) := by
    intro i P hP
    have hi := (List.getElem?_eq_some_iff.1 hP).1
    refine ⟨levels[i]'(by omega), ?_⟩
    rw [hw, List.getElem?_zipWith, hP, List.getElem?_eq_getElem (by omega)]
  have hw0 : ∀ x ∈ w, 0 ≤ x := by
    intro x hx
    obtain ⟨i, hi, rfl⟩ := List.getElem_of_mem hx
    obtain ⟨l, hl⟩ := hwget i (Ps[i]'(by omega)) (List.getElem?_eq_getElem (by omega))
    rw [List.getElem?_eq_getElem hi, Option.some.injEq] at hl
    rw [hl]
    split
    · exact le_refl _
    · exact (hdec l).le
  have hwpos : 0 < w.sum := by
    obtain ⟨i, hi⟩ := List.getElem?_of_mem hm
    have hmem := hpart.mem_iff.2 (mem_labelPositions.2 hi)
    rw [List.mem_flatten] at hmem
    obtain ⟨P, hP, hiP⟩ := hmem
    obtain ⟨k, hk⟩ := List.getElem?_of_mem hP
    obtain ⟨l, hl⟩ := hwget k P hk
    rw [if_neg (by intro hz; rw [List.length_eq_zero_iff.1 hz] at hiP; simp at hiP)] at hl
    exact lt_of_lt_of_le (hdec l) (List.single_le_sum hw0 _ (List.mem_of_getElem? hl))
  obtain ⟨p, hp, hpl', hp0, hp1⟩ := normalize_ok hw0 hwpos
  rw [hp, ok_bind]
  have hpw : ∀ i : Nat, p[i]? = (w[i]?).map (· / w.sum) := by
    intro i
    unfold normalize at hp
    rw [if_neg hwpos.ne'] at hp
    injection hp with hp
    rw [← hp, List.getElem?_map]
  suffices hsam : ∃ samples, samplesInClusters par.ss vol clusterU dr d X Ps p
      (requested par.proportion (y.count s.majLabel) (y.count s.minLabel)) = .ok samples by
    obtain ⟨samples, hsam⟩ := hsam
    rw [hsam, ok_bind]
    exact ⟨_, rfl⟩
  unfold samplesInClusters
  obtain ⟨sel, hsel, _, hselp⟩ := npChoice_ok (m := Ps.length)
    (n := requested par.proportion (y.count s.majLabel) (y.count s.minLabel)) (by omega) hp0 hp1 hcu
  rw [hsel, ok_bind]
  suffices hparts : ∃ parts, (npUniqueCounts sel).zipIdx.mapM (fun c => do
      let P ← getRow Ps c.1.1
      let rows ← takeRows X P
      sampleSimplex par.ss vol (dr c.2) d rows (circulantRange rows.length) rows.length c.1.2 {}) = Except.ok parts by
    obtain ⟨parts, hparts⟩ := hparts
    rw [hparts, ok_bind]
    exact ⟨_, rfl⟩
  apply mapM_exists_ok
  rintro ⟨⟨c, cnt⟩, t⟩ hc
  have hcs : c ∈ sel := by
    have h1 : ((c, cnt), t) ∈ (npUniqueCounts sel).zipIdx := hc
    have h2 := List.mem_of_getElem? (List.mem_zipIdx_iff_getElem?.1 h1)
    unfold npUniqueCounts at h2
    rw [List.mem_map] at h2
    obtain ⟨v, hv, hvc⟩ := h2
    simp only [Prod.mk.injEq] at hvc
    rw [← hvc.1]
    exact mem_npUnique.1 hv
  obtain ⟨x, hx, hxpos⟩ := hselp c hcs
  have hcP : c < Ps.length := by
    have := (List.getElem?_eq_some_iff.1 hx).1
    omega
  dsimp only
  rw [getRow_lt hcP, ok_bind]
  have hPne : Ps[c] ≠ [] := by
    intro hz
    obtain ⟨l, hl⟩ := hwget c Ps[c] (List.getElem?_eq_getElem hcP)
    rw [if_pos (by rw [hz]; rfl)] at hl
    rw [hpw, hl] at hx
    simp at hx
    rw [← hx] at hxpos
    exact lt_irrefl _ hxpos
  obtain ⟨rows, hrows⟩ := takeRows_ok_of_lt (X := X) (idx := Ps[c]) (by
    intro i hi
    have := mem_labelPositions.1 (hpart.mem_iff.1 (List.mem_flatten.2 ⟨_, List.getElem_mem hcP, hi⟩))
    have := (List.getElem?_eq_some_iff.1 this).1
    rw [hwf.1]; exact this)
  rw [hrows, ok_bind]
  have hrl : 0 < rows.length := by rw [takeRows_length hrows]; exact List.length_pos_iff.2 hPne
  obtain ⟨hct, hctab⟩ := circulant_table rows.length
  exact sampleSimplex_ok (a := {}) hctab (by rw [hct]) (by intro hz; rw [hz] at hct; simp at hct; omega) hrl hdim rfl
    (by intro ws h; cases h) (by intro h; cases h) (by rcases hmode with h | h <;> simp [WeightsOK, h]) (hdr _).choice (hu _)
    (hwi.imp id (fun h => ⟨h.1, by omega⟩))

/-! Non-vacuity -/

/-- Brute force answers for the rows of `Q` among the rows of `X`. -/
def bruteQuery (k : Nat) (X Q : List Row) : List (List Nat) := Q.map (nearestTo X k)

theorem bruteQuery_ok : KnnQueryOK bruteQuery := by
  intro k X Q hk
  refine ⟨by simp [bruteQuery], ?_⟩
  intro row hrow
  simp only [bruteQuery, List.mem_map] at hrow
  obtain ⟨x, _, rfl⟩ := hrow
  unfold nearestTo
  have hp := List.perm_insertionSort
    (fun a b => sqDist x (X.getD a []) ≤ sqDist x (X.getD b [])) (List.range X.length)
  constructor
  · rw [List.length_take, hp.length_eq, List.length_range]; omega
  · intro i hi
    exact List.mem_range.1 (hp.mem_iff.1 (List.mem_of_mem_take hi))

def proX : List Row := [[0], [1], [2], [3], [10], [11], [12], [13], [14], [15]]
def proY : List Int := [1, 1, 1, 1, 0, 0, 0, 0, 0, 0]
def proPar : ProParams := { proportion := 1, nNeighbors := 1, L := 2, decay := fun l => 1 / (l + 1), ss := exPar.ss }

/-- Two rounds peel off the rows nearest to the majority, the rest shares the last level number. -/
example : proximityLevels (fun P => bruteQuery (min P.length 1) (P.map (fun i => proX.getD i [])) (proX.drop 4)) 2
    (labelPositions proY 1) = .ok ([[3], [2], [0, 1]], [1, 2, 2]) := by decide +kernel

example : (sample defaultChecks 1 (prowsynAlg proPar (fun _ => 1) (fun i => if i = 0 then 0 else 4/5) (fun _ => exDraws) 1
    bruteQuery) proX proY).isOk = true := by decide +kernel

example : WF 1 proX proY ∧ IsMinority proY 1 0 ∧ (labelPositions proY 1).Nodup ∧ (∀ l, 0 < proPar.decay l) ∧
    exDraws.OK ∧ (∀ i j, 0 < exDraws.simplexU i j) := by
  refine ⟨⟨by decide, by decide⟩, ⟨by decide, by decide, by decide, Or.inl (by decide)⟩, by decide, ?_, exDraws_ok, ?_⟩
  · intro l; simp only [proPar]; positivity
  · intro i j; simp only [exDraws]; positivity

end Verif

import Verif.Model.SnSmmo
import Verif.Props.C60
import Verif.Props.C61

/-!
# C62: SN_SMOTE uses one neighbour only, SMMO expects the labels 0 and 1
-/

namespace Verif

/-! ## Specification -/

/-- The new row lies on the segment between row `b` of `A` and the row listed behind it in the neighbour table. -/
def TowardsNearest (d : Nat) (A : List Row) (table : List (List Nat)) (b : Nat) (x : Row) : Prop :=
  ∃ row j p q, table[b]? = some row ∧ row[1]? = some j ∧ A[b]? = some p ∧ A[j]? = some q ∧ OnSegment d p q x

/-- The mean of the second and the third row listed for row `i` is closer to it than the second one. -/
def CentroidCloser (dist : Row → Row → ℚ) (A : List Row) (table : List (List Nat)) (i : Nat) : Prop :=
  ∃ row j1 j2 p q1 q2, table[i]? = some row ∧ row[1]? = some j1 ∧ row[2]? = some j2 ∧ A[i]? = some p ∧ A[j1]? = some q1 ∧
    A[j2]? = some q2 ∧ dist p (List.zipWith (fun (a b : ℚ) => (a + b) / 2) q1 q2) < dist p q1

/-- The new row lies on the segment between the first row listed for query `b` and the mean of the other ones. -/
def TowardsMean (d : Nat) (A : List Row) (table : List (List Nat)) (b : Nat) (x : Row) : Prop :=
  ∃ row j p nbrs m, table[b]? = some row ∧ row[0]? = some j ∧ A[j]? = some p ∧
    List.Forall₂ (fun i r => A[i]? = some r) (row.drop 1) nbrs ∧ IsMean d nbrs m ∧ OnSegment d m p x

/-! ## Helpers -/

theorem mapM_all_or_error {α β : Type} {f : α → Res β} {v : β} {e : PyErr} {l : List α}
    (h : ∀ a ∈ l, f a = .ok v ∨ f a = .error e) :
    ((∀ a ∈ l, f a = .ok v) → ∃ r, l.mapM f = .ok r) ∧ ((∃ a ∈ l, f a = .error e) → l.mapM f = .error e) := by
  refine ⟨fun h1 => mapM_exists_ok (fun a ha => ⟨v, h1 a ha⟩), fun h1 => ?_⟩
  induction l with
  | nil => obtain ⟨a, ha, _⟩ := h1; cases ha
  | cons a l ih =>
    rw [List.mapM_cons]
    rcases h a (by simp) with ha | ha
    · rw [ha, ok_bind]
      obtain ⟨b, hb, hbe⟩ := h1
      rcases List.mem_cons.1 hb with rfl | hb
      · rw [ha] at hbe; cases hbe
      · rw [ih (fun a ha => h a (by simp [ha])) ⟨b, hb, hbe⟩]; rfl
    · rw [ha]; rfl

theorem mapM_congr_res {α β : Type} {f g : α → Res β} {l : List α} (h : ∀ a ∈ l, f a = g a) : l.mapM f = l.mapM g := by
  induction l with
  | nil => rfl
  | cons a l ih =>
    rw [List.mapM_cons, List.mapM_cons, h a (by simp), ih (fun b hb => h b (by simp [hb]))]

theorem sampleInClusters_congr {ss : SSParams} {vol : List Row → ℚ} {drs : Nat → Draws} {d : Nat}
    {t1 t2 : Nat → Res ClusterTask} {sel : List Nat} (h : ∀ c ∈ sel, t1 c = t2 c) :
    sampleInClusters ss vol drs d t1 sel = sampleInClusters ss vol drs d t2 sel := by
  unfold sampleInClusters
  congr 1
  apply mapM_congr_res
  rintro ⟨⟨c, k⟩, i⟩ hp
  have hm := List.mem_of_getElem? (List.mem_zipIdx_iff_getElem?.1 hp)
  simp only [npUniqueCounts, List.mem_map, Prod.mk.injEq] at hm
  obtain ⟨c', hc', rfl, rfl⟩ := hm
  dsimp only
  rw [h c' (mem_npUnique.1 hc')]

/-- One call of `sample_simplex` with one base row and one vertex. -/
theorem segTask_sound {ss : SSParams} {vol : List Row → ℚ} {dr : Draws} {d n : Nat} {p q : Row} {out : List Row}
    (hp : p.length = d) (hq : q.length = d) (hdr : dr.OK) (hg : ss.gaussian = .none) (hvol : ∀ vs, 0 ≤ vol vs)
    (h : sampleSimplex ss vol dr d [p] [[0, 0]] 2 n { Xv := some [q] } = .ok out) :
    out.length = n ∧ ∀ x ∈ out, OnSegment d p q x := by
  obtain ⟨g1, g2⟩ := sampleSimplex_simplexOf (by intro r hr; rw [List.mem_singleton] at hr; rw [hr]; exact hp)
    (by intro V hV; injection hV with hV; rw [← hV]; intro r hr; rw [List.mem_singleton] at hr; rw [hr]; exact hq)
    rfl (by intro h; cases h) hdr (by simp) hg (by intro w hw; cases hw) rfl hvol h
  refine ⟨g1, fun x hx => ?_⟩
  obtain ⟨b, base, row, nb, nbrs, w, q1, _, q3, q4, q5, q6, q7⟩ := g2 x hx
  have hb : b = 0 := by
    have := (List.getElem?_eq_some_iff.1 q3).1
    simp at this; exact this
  subst hb
  simp only [List.getElem?_cons_zero, Option.some.injEq] at q1 q3
  subst q1
  subst q3
  rw [List.drop_succ_cons, List.drop_zero] at q4
  rcases List.sublist_cons_iff.1 q4 with h0 | ⟨r, rfl, h0⟩
  · rw [List.sublist_nil] at h0
    subst h0
    cases q6
    obtain ⟨e1, e2, e3, e4, e5⟩ := q7
    match w, e1 with
    | [c], _ =>
      have hc : c = 1 := by simpa using e3
      exact ⟨e4, 0, le_refl _, by norm_num, fun k hk => by simpa [hc] using e5 k hk⟩
  · rw [List.sublist_nil] at h0
    subst h0
    cases q6 with
    | cons e1 e2 =>
      cases e2
      simp only [Option.getD_some, List.getElem?_cons_zero, Option.some.injEq] at e1
      subst e1
      obtain ⟨e1, e2, e3, e4, e5⟩ := q7
      match w, e1 with
      | [c, c'], _ =>
        have hc0 := e2 c (by simp)
        have hc0' := e2 c' (by simp)
        have hs : c + c' = 1 := by simpa using e3
        refine ⟨e4, c', hc0', by linarith, fun k hk => ?_⟩
        have := e5 k hk
        simp only [List.zipWith_cons_cons, List.zipWith_nil_right, List.sum_cons, List.sum_nil, add_zero] at this
        rw [this, show 1 - c' = c by linarith]

theorem segTask_ok {ss : SSParams} {vol : List Row → ℚ} {dr : Draws} {d n : Nat} {p q : Row}
    (hdr : dr.OK) (hu : ∀ i j, 0 < dr.simplexU i j) (hd : 1 ≤ ss.nDim)
    (hmode : ss.simplexSampling = .random ∨ ss.simplexSampling = .deterministic ∨
      (ss.simplexSampling = .volume ∧ ∀ vs, 0 < vol vs))
    (hwi : ss.within = .random ∨ ss.within = .deterministic) :
    ∃ out, sampleSimplex ss vol dr d [p] [[0, 0]] 2 n { Xv := some [q] } = .ok out := by
  exact sampleSimplex_ok (by
      intro row hrow
      rw [List.mem_singleton] at hrow
      subst hrow
      simp) (by simp) (by simp) (by omega) hd rfl
    (by intro ws hws; cases hws) (by intro hV; cases hV) hmode hdr.choice hu (by
      rcases hwi with h | h
      · exact .inl h
      · exact .inr ⟨h, Nat.min_le_right _ _⟩)

/-! ## SN_SMOTE: the search for the centroid neighbourhood -/

/-- The state which the loop never leaves. -/
def ncnFixed (dist : Row → Row → ℚ) (nN : Nat) (A : List Row) (table : List (List Nat)) : NcnState :=
  let first := table.map (fun row => row.getD 1 0)
  { ncn := first.map (fun j => (List.replicate nN 0).set 0 j), cents := List.replicate A.length 1,
    centroids := first.map (fun j => A.getD j []), dists := List.zipWith dist A (first.map (fun j => A.getD j [])) }

theorem ncnStart_eq {dist : Row → Row → ℚ} {nN k : Nat} {A : List Row} {table : List (List Nat)} (ht : TableOK table k A.length)
    (hk : 2 ≤ k) (hn : 1 ≤ nN) : ncnStart dist nN A table = .ok (ncnFixed dist nN A table) := by
  unfold ncnStart
  have h1 : table.mapM (fun row => getRow row 1) = .ok (table.map (fun row => row.getD 1 0)) := by
    apply mapM_ok_of
    intro row hrow
    have := (ht row hrow).1
    rw [getRow_lt (by omega)]
    simp [List.getD_eq_getElem?_getD, show 1 < row.length by omega]
  rw [h1, ok_bind]
  have h2 : (table.map (fun row => row.getD 1 0)).mapM (fun j => setEntry (List.replicate nN 0) 0 j) =
      .ok ((table.map (fun row => row.getD 1 0)).map (fun j => (List.replicate nN 0).set 0 j)) := by
    apply mapM_ok_of
    intro j _
    unfold setEntry
    rw [if_pos (by rw [List.length_replicate]; omega)]
  rw [h2, ok_bind, takeRows_map_getD [] (by
    intro j hj
    obtain ⟨row, hrow, rfl⟩ := List.mem_map.1 hj
    obtain ⟨e1, e2⟩ := ht row hrow
    refine e2 _ ?_
    rw [List.getD_eq_getElem?_getD, List.getElem?_eq_getElem (by omega)]
    exact List.getElem_mem _), ok_bind]
  rfl

theorem ncnRow_eq {dist : Row → Row → ℚ} {nN k jdx i : Nat} {A : List Row} {table : List (List Nat)}
    (hl : table.length = A.length) (ht : TableOK table k A.length) (hk : 2 ≤ k) (hj : jdx < k) (hi : i < A.length) :
    (ncnRow dist A table jdx (ncnFixed dist nN A table) i = .ok () ∨
      ncnRow dist A table jdx (ncnFixed dist nN A table) i = .error .indexError) ∧
    (2 ≤ nN → ncnRow dist A table jdx (ncnFixed dist nN A table) i = .ok ()) ∧
    (nN = 1 → jdx = 2 → (ncnRow dist A table jdx (ncnFixed dist nN A table) i = .error .indexError ↔
      CentroidCloser dist A table i)) := by
  obtain ⟨e1, e2⟩ := ht table[i] (List.getElem_mem (by omega))
  have hj1 : (table[i])[1] < A.length := e2 _ (List.getElem_mem (by omega))
  have hj2 : (table[i])[jdx] < A.length := e2 _ (List.getElem_mem (by omega))
  have g1 : table[i].getD 1 0 = (table[i])[1] := by
    rw [List.getD_eq_getElem?_getD, List.getElem?_eq_getElem (by omega)]; rfl
  have hc : getRow (ncnFixed dist nN A table).centroids i = .ok A[(table[i])[1]] := by
    rw [getRow_ok]
    simp [ncnFixed, List.getElem?_eq_getElem (show i < table.length by omega),
      List.getElem?_eq_getElem (show 1 < table[i].length by omega), List.getElem?_eq_getElem hj1]
  have hm : getRow (ncnFixed dist nN A table).cents i = .ok 1 := by
    rw [getRow_ok]; simp [ncnFixed, hi]
  have hq : getRow (ncnFixed dist nN A table).dists i = .ok (dist A[i] A[(table[i])[1]]) := by
    rw [getRow_ok]
    simp [ncnFixed, List.getElem?_zipWith, List.getElem?_eq_getElem (show i < table.length by omega),
      List.getElem?_eq_getElem (show 1 < table[i].length by omega), List.getElem?_eq_getElem hj1, List.getElem?_eq_getElem hi]
  have ho : getRow (ncnFixed dist nN A table).ncn i = .ok ((List.replicate nN 0).set 0 (table[i])[1]) := by
    rw [getRow_ok]
    simp [ncnFixed, List.getElem?_eq_getElem (show i < table.length by omega),
      List.getElem?_eq_getElem (show 1 < table[i].length by omega)]
  have htmp : (List.zipWith (· + ·) A[(table[i])[1]] A[(table[i])[jdx]]).map (fun q => q / (((1 : Nat) : ℚ) + 1)) =
      List.zipWith (fun (a b : ℚ) => (a + b) / 2) A[(table[i])[1]] A[(table[i])[jdx]] := by
    rw [List.map_zipWith]
    congr 1
    funext a b
    norm_num
  have hrow : ncnRow dist A table jdx (ncnFixed dist nN A table) i =
      if dist A[i] (List.zipWith (fun (a b : ℚ) => (a + b) / 2) A[(table[i])[1]] A[(table[i])[jdx]]) < dist A[i] A[(table[i])[1]] then
        if 1 < nN then .ok () else .error .indexError
      else .ok () := by
    unfold ncnRow
    rw [getRow_lt (show i < table.length by omega), ok_bind, getRow_lt (show jdx < table[i].length by omega), ok_bind,
      getRow_lt hj2, ok_bind, getRow_lt hi, ok_bind, hc, ok_bind, hm, ok_bind]
    dsimp only
    rw [htmp, hq, ok_bind]
    by_cases hlt : dist A[i] (List.zipWith (fun (a b : ℚ) => (a + b) / 2) A[(table[i])[1]] A[(table[i])[jdx]]) <
        dist A[i] A[(table[i])[1]]
    · rw [if_pos hlt, if_pos hlt, ho, ok_bind]
      unfold setEntry
      rw [List.length_set, List.length_replicate]
      by_cases h1 : 1 < nN
      · rw [if_pos h1, if_pos h1]; rfl
      · rw [if_neg h1, if_neg h1]; rfl
    · rw [if_neg hlt, if_neg hlt]; rfl
  rw [hrow]
  refine ⟨?_, ?_, ?_⟩
  · split
    · split
      · exact .inl rfl
      · exact .inr rfl
    · exact .inl rfl
  · intro h2
    rw [if_pos (show 1 < nN by omega)]
    simp
  · intro h1 h2
    subst h2
    rw [if_neg (show ¬ 1 < nN by omega)]
    constructor
    · intro h
      split at h
      · rename_i hlt
        exact ⟨table[i], _, _, A[i], _, _, List.getElem?_eq_getElem (by omega), List.getElem?_eq_getElem (by omega),
          List.getElem?_eq_getElem (by omega), List.getElem?_eq_getElem hi, List.getElem?_eq_getElem hj1, List.getElem?_eq_getElem hj2, hlt⟩
      · cases h
    · rintro ⟨row, j1, j2, p, q1, q2, r1, r2, r3, r4, r5, r6, r7⟩
      rw [List.getElem?_eq_getElem (show i < table.length by omega)] at r1
      injection r1 with r1
      subst r1
      rw [List.getElem?_eq_getElem (show 1 < table[i].length by omega)] at r2
      injection r2 with r2
      subst r2
      rw [List.getElem?_eq_getElem (show 2 < table[i].length by omega)] at r3
      injection r3 with r3
      subst r3
      rw [List.getElem?_eq_getElem hi] at r4
      injection r4 with r4
      subst r4
      rw [List.getElem?_eq_getElem hj1] at r5
      injection r5 with r5
      subst r5
      rw [List.getElem?_eq_getElem hj2] at r6
      injection r6 with r6
      subst r6
      rw [if_pos r7]

/-- A round changes nothing. -/
theorem ncnRound_ok {dist : Row → Row → ℚ} {A : List Row} {table : List (List Nat)} {jdx : Nat} {mask : List Bool}
    {st st' : NcnState} (h : ncnRound dist A table jdx mask st = .ok st') : st' = st := by
  unfold ncnRound at h
  obtain ⟨_, _, h⟩ := bind_ok.1 h
  exact (pure_ok.1 h).symm

theorem ncnLoop_ok {dist : Row → Row → ℚ} {nN width : Nat} {A : List Row} {table : List (List Nat)} :
    ∀ {f jdx : Nat} {mask : List Bool} {st st' : NcnState}, ncnLoop dist nN A table width f jdx mask st = .ok st' → st' = st := by
  intro f
  induction f with
  | zero => intro jdx mask st st' h; cases h
  | succ f ih =>
    intro jdx mask st st' h
    unfold ncnLoop at h
    split at h
    · obtain ⟨s1, h1, h2⟩ := bind_ok.1 h
      rw [ncnRound_ok h1] at h2
      dsimp only at h2
      split at h2
      · exact (pure_ok.1 h2).symm
      · exact ih h2
    · injection h with h; exact h.symm

theorem ncnLoop_two {dist : Row → Row → ℚ} {nN k : Nat} {A : List Row} {table : List (List Nat)}
    (hl : table.length = A.length) (ht : TableOK table k A.length) (h2 : 2 ≤ nN) (hk : 2 ≤ k) :
    ∀ (f jdx : Nat) (mask : List Bool), jdx < k → k < jdx + f →
      ncnLoop dist nN A table k f jdx mask (ncnFixed dist nN A table) = .ok (ncnFixed dist nN A table) := by
  intro f
  induction f with
  | zero => intro jdx mask h1 h2; omega
  | succ f ih =>
    intro jdx mask hj hf
    unfold ncnLoop
    split
    · have hr : ncnRound dist A table jdx mask (ncnFixed dist nN A table) = .ok (ncnFixed dist nN A table) := by
        unfold ncnRound
        obtain ⟨r, hr⟩ := mapM_exists_ok (l := (List.range A.length).filter (fun i => mask.getD i false))
          (f := ncnRow dist A table jdx (ncnFixed dist nN A table)) (by
            intro i hi
            have := List.mem_range.1 (List.mem_filter.1 hi).1
            exact ⟨(), (ncnRow_eq hl ht hk hj this).2.1 h2⟩)
        rw [hr]; rfl
      rw [hr, ok_bind]
      dsimp only
      split
      · rfl
      · exact ih _ _ (by omega) (by omega)
    · rfl

theorem centroidNeighborhood_two {dist : Row → Row → ℚ} {nN k : Nat} {A : List Row} {table : List (List Nat)}
    (hl : table.length = A.length) (ht : TableOK table k A.length) (h2 : 2 ≤ nN) (hk : 3 ≤ k) :
    centroidNeighborhood dist nN A table k = .ok ((ncnFixed dist nN A table).ncn, List.replicate A.length 1) := by
  unfold centroidNeighborhood
  rw [ncnStart_eq ht (by omega) (by omega), ok_bind, ncnLoop_two hl ht h2 (by omega) _ _ _ (by omega) (by omega)]
  rfl

theorem centroidNeighborhood_one {dist : Row → Row → ℚ} {k : Nat} {A : List Row} {table : List (List Nat)} (hA : A ≠ [])
    (hl : table.length = A.length) (ht : TableOK table k A.length) (hk : 3 ≤ k) :
    ((∃ i, CentroidCloser dist A table i) → centroidNeighborhood dist 1 A table k = .error .indexError) ∧
    ((∀ i, ¬ CentroidCloser dist A table i) →
      centroidNeighborhood dist 1 A table k = .ok ((ncnFixed dist 1 A table).ncn, List.replicate A.length 1)) := by
  have hpos := List.length_pos_iff.2 hA
  unfold centroidNeighborhood
  rw [ncnStart_eq ht (by omega) (by omega), ok_bind]
  unfold ncnLoop
  rw [if_pos (by rw [List.any_eq_true]; exact ⟨true, by simp; omega, rfl⟩)]
  have hflt : (List.range A.length).filter (fun i => (List.replicate A.length true).getD i false) = List.range A.length := by
    rw [List.filter_eq_self]
    intro i hi
    rw [List.mem_range] at hi
    simp [List.getD_eq_getElem?_getD, hi]
  have hall := mapM_all_or_error (l := List.range A.length) (f := ncnRow dist A table 2 (ncnFixed dist 1 A table)) (v := ())
    (e := .indexError) (fun i hi => (ncnRow_eq hl ht (by omega) (by omega) (List.mem_range.1 hi)).1)
  constructor
  · rintro ⟨i, hi⟩
    have hi' : i < A.length := by
      obtain ⟨_, _, _, p, _, _, _, _, _, h4, _⟩ := hi
      exact (List.getElem?_eq_some_iff.1 h4).1
    have := hall.2 ⟨i, List.mem_range.2 hi', ((ncnRow_eq hl ht (by omega) (by omega) hi').2.2 rfl rfl).2 hi⟩
    unfold ncnRound
    rw [hflt, this]
    rfl
  · intro hno
    obtain ⟨r, hr⟩ := hall.1 (by
      intro i hi
      rw [List.mem_range] at hi
      obtain ⟨h1, _, h3⟩ := ncnRow_eq (dist := dist) (nN := 1) hl ht (by omega) (show 2 < k by omega) hi
      rcases h1 with h1 | h1
      · exact h1
      · exact absurd ((h3 rfl rfl).1 h1) (hno i))
    have hround : ncnRound dist A table 2 (List.replicate A.length true) (ncnFixed dist 1 A table) =
        .ok (ncnFixed dist 1 A table) := by
      unfold ncnRound
      rw [hflt, hr]; rfl
    rw [hround, ok_bind]
    dsimp only
    split
    · rfl
    · obtain ⟨f, rfl⟩ : ∃ f, k = f + 1 := ⟨k - 1, by omega⟩
      unfold ncnLoop
      rw [if_neg (by simp [ncnFixed])]
      rfl

/-! ## SN_SMOTE -/

/-- The part behind the search. -/
def snTail (par : NbParams) (vol : List Row → ℚ) (pick : Nat → Nat → List Nat) (drs : Nat → Draws) (d n : Nat) (X : List Row)
    (y : List Int) (a : Int) (nb : List (List Nat) × List Nat) : Res (List Row × List Int) := do
  let A := classRows X y a
  let samples ← sampleInClusters par.ss vol drs d (snTask A nb.1 nb.2) (pick A.length n)
  return withSamples X y a samples

theorem sn_eq {par : NbParams} {dist : Row → Row → ℚ} {vol : List Row → ℚ} {pick : Nat → Nat → List Nat} {drs : Nat → Draws}
    {d : Nat} {knn : Nat → List Row → List Row → List (List Nat)} {X : List Row} {y : List Int} {a b : Int}
    (hmin : IsMinority y a b) (h3 : 2 < y.count a) (hn : 0 < requested par.proportion (y.count b) (y.count a)) :
    sample defaultChecks d (snSmoteAlg par dist vol pick drs d knn) X y =
      (centroidNeighborhood dist par.nNeighbors (classRows X y a)
        (knn (min (par.nNeighbors * 10) (classRows X y a).length) (classRows X y a) (classRows X y a))
        (min (par.nNeighbors * 10) (classRows X y a).length) >>=
      snTail par vol pick drs d (requested par.proportion (y.count b) (y.count a)) X y a) := by
  obtain ⟨s, hs, rfl, rfl⟩ := stats_of_isMinority hmin
  obtain ⟨hm, hM, _⟩ := stats_min_mem hs
  rw [sample_default hs, if_neg (by omega)]
  unfold snSmoteAlg
  rw [stats_count hs hm, stats_count hs hM, detN_eq_requested, ok_bind, if_neg (by omega)]
  dsimp only
  rw [selectLabel_eq_classRows]
  rfl

theorem snTask_eq {dist : Row → Row → ℚ} {nN k b : Nat} {A : List Row} {table : List (List Nat)}
    (hl : table.length = A.length) (ht : TableOK table k A.length) (hn : 1 ≤ nN) (hk : 2 ≤ k) (hb : b < A.length) :
    ∃ row j p q, table[b]? = some row ∧ row[1]? = some j ∧ A[b]? = some p ∧ A[j]? = some q ∧
      snTask A (ncnFixed dist nN A table).ncn (List.replicate A.length 1) b =
        .ok { rows := [p], indices := [[0, 0]], k := 2, args := { Xv := some [q] } } := by
  obtain ⟨e1, e2⟩ := ht table[b] (List.getElem_mem (by omega))
  have hj : (table[b])[1] < A.length := e2 _ (List.getElem_mem (by omega))
  refine ⟨table[b], (table[b])[1], A[b], A[(table[b])[1]], List.getElem?_eq_getElem (by omega), List.getElem?_eq_getElem (by omega),
    List.getElem?_eq_getElem hb, List.getElem?_eq_getElem hj, ?_⟩
  have ho : getRow (ncnFixed dist nN A table).ncn b = .ok ((List.replicate nN 0).set 0 (table[b])[1]) := by
    rw [getRow_ok]
    simp [ncnFixed, List.getElem?_eq_getElem (show b < table.length by omega),
      List.getElem?_eq_getElem (show 1 < table[b].length by omega)]
  have hm : getRow (List.replicate A.length 1) b = .ok 1 := by
    rw [getRow_ok]; simp [hb]
  unfold snTask
  rw [ho, ok_bind, hm, ok_bind]
  have ht1 : ((List.replicate nN 0).set 0 (table[b])[1]).take 1 = [(table[b])[1]] := by
    obtain ⟨m, rfl⟩ : ∃ m, nN = m + 1 := ⟨nN - 1, by omega⟩
    simp [List.replicate_succ]
  rw [ht1]
  have htk : takeRows A [(table[b])[1]] = .ok [A[(table[b])[1]]] := by
    unfold takeRows
    rw [List.mapM_cons, getRow_lt hj]
    rfl
  rw [htk, ok_bind, getRow_lt hb, ok_bind]
  rfl

/-- **SN_SMOTE**: every new row lies on the segment between a minority row and the next one in the neighbour table. -/
theorem C62_sn {par : NbParams} {dist : Row → Row → ℚ} {vol : List Row → ℚ} {pick : Nat → Nat → List Nat} {drs : Nat → Draws}
    {d : Nat} {knn : Nat → List Row → List Row → List (List Nat)} {X X' : List Row} {y y' : List Int} {a b : Int}
    (hwf : WF d X y) (hk : KnnQueryOK knn) (hp : PickOK pick) (hdr : ∀ i, (drs i).OK) (hmin : IsMinority y a b)
    (hg : par.ss.gaussian = .none) (hvol : ∀ vs, 0 ≤ vol vs) (h1 : 1 ≤ par.nNeighbors) (h3 : 2 < y.count a)
    (hn : 0 < requested par.proportion (y.count b) (y.count a))
    (h : sample defaultChecks d (snSmoteAlg par dist vol pick drs d knn) X y = .ok (X', y')) :
    let A := classRows X y a
    let table := knn (min (par.nNeighbors * 10) A.length) A A
    let n := requested par.proportion (y.count b) (y.count a)
    ∃ new : List Row, X' = X ++ new ∧ y' = y ++ List.replicate n a ∧ new.length = n ∧
      ByCluster A.length (pick A.length n) (TowardsNearest d A table) new := by
  intro A table n
  have hAl : A.length = y.count a := classRows_length hwf.1 _
  obtain ⟨k1, k2⟩ := hk (min (par.nNeighbors * 10) A.length) A A (Nat.min_le_right _ _)
  rw [sn_eq hmin h3 hn] at h
  obtain ⟨nb, hnb, h⟩ := bind_ok.1 h
  have hnb' : nb = ((ncnFixed dist par.nNeighbors A table).ncn, List.replicate A.length 1) := by
    unfold centroidNeighborhood at hnb
    obtain ⟨st, hst, hnb1⟩ := bind_ok.1 hnb
    obtain ⟨st', hst', hnb2⟩ := bind_ok.1 hnb1
    rw [ncnStart_eq k2 (by omega) h1] at hst
    injection hst with hst
    have e := ncnLoop_ok hst'
    rw [e, ← hst] at hnb2
    exact (pure_ok.1 hnb2).symm
  subst hnb'
  unfold snTail at h
  dsimp only at h
  obtain ⟨out, hout, h⟩ := bind_ok.1 h
  have h := pure_ok.1 h
  have hAd : ∀ r ∈ A, r.length = d := fun r hr => hwf.2 r (mem_of_mem_classRows hr)
  obtain ⟨pk1, pk2⟩ := hp A.length n (by omega)
  have hby : ByCluster A.length (pick A.length n) (TowardsNearest d A table) out := by
    refine sampleInClusters_sound pk2 ?_ hout
    intro c t i o hc ht ho
    obtain ⟨row, j, p, q, q1, q2, q3, q4, q5⟩ := snTask_eq (dist := dist) (nN := par.nNeighbors) k1 k2 h1 (by omega) (pk2 c hc)
    have ht' := q5.symm.trans ht
    injection ht' with ht'
    subst ht'
    obtain ⟨g1, g2⟩ := segTask_sound (hAd p (List.mem_of_getElem? q3)) (hAd q (List.mem_of_getElem? q4)) (hdr i) hg hvol ho
    exact ⟨g1, fun x hx => ⟨row, j, p, q, q1, q2, q3, q4, g2 x hx⟩⟩
  have hlen := hby.length pk2
  unfold withSamples at h
  obtain ⟨rfl, rfl⟩ := Prod.mk.inj h
  exact ⟨out, rfl, by rw [hlen, pk1], by rw [hlen, pk1], hby⟩

/-- The number of neighbours beyond the first has no influence on the result: two settings with the same first neighbours give
the same data set. -/
theorem C62_sn_same {par : NbParams} {n1 n2 : Nat} {dist : Row → Row → ℚ} {vol : List Row → ℚ} {pick : Nat → Nat → List Nat}
    {drs : Nat → Draws} {d : Nat} {knn : Nat → List Row → List Row → List (List Nat)} {X : List Row} {y : List Int} {a b : Int}
    (hxy : X.length = y.length) (hk : KnnQueryOK knn) (hp : PickOK pick) (hmin : IsMinority y a b)
    (hn1 : 2 ≤ n1) (hn2 : 2 ≤ n2) (h3 : 2 < y.count a) (hn : 0 < requested par.proportion (y.count b) (y.count a))
    (hfirst : ∀ k1 k2, 2 ≤ k1 → 2 ≤ k2 →
      (knn k1 (classRows X y a) (classRows X y a)).map (fun row => row.getD 1 0) =
      (knn k2 (classRows X y a) (classRows X y a)).map (fun row => row.getD 1 0)) :
    sample defaultChecks d (snSmoteAlg { par with nNeighbors := n1 } dist vol pick drs d knn) X y =
      sample defaultChecks d (snSmoteAlg { par with nNeighbors := n2 } dist vol pick drs d knn) X y := by
  have hAl : (classRows X y a).length = y.count a := classRows_length hxy _
  set A := classRows X y a with hA
  have key : ∀ m1 m2 : Nat, 2 ≤ m1 → 2 ≤ m2 → ∀ c, c < A.length →
      snTask A (ncnFixed dist m1 A (knn (min (m1 * 10) A.length) A A)).ncn (List.replicate A.length 1) c =
      snTask A (ncnFixed dist m2 A (knn (min (m2 * 10) A.length) A A)).ncn (List.replicate A.length 1) c := by
    intro m1 m2 hm1 hm2 c hc
    obtain ⟨k1, k2⟩ := hk (min (m1 * 10) A.length) A A (Nat.min_le_right _ _)
    obtain ⟨k1', k2'⟩ := hk (min (m2 * 10) A.length) A A (Nat.min_le_right _ _)
    obtain ⟨row, j, p, q, q1, q2, q3, q4, q5⟩ := snTask_eq (dist := dist) (nN := m1) k1 k2 (by omega) (by omega) hc
    obtain ⟨row', j', p', q', q1', q2', q3', q4', q5'⟩ := snTask_eq (dist := dist) (nN := m2) k1' k2' (by omega) (by omega) hc
    have hf := congrArg (fun l => l[c]?) (hfirst (min (m1 * 10) A.length) (min (m2 * 10) A.length) (by omega) (by omega))
    rw [List.getElem?_map, List.getElem?_map, q1, q1'] at hf
    simp only [Option.map_some, Option.some.injEq, List.getD_eq_getElem?_getD, q2, q2', Option.getD_some] at hf
    subst hf
    rw [q3] at q3'
    injection q3' with q3'
    subst q3'
    rw [q4] at q4'
    injection q4' with q4'
    subst q4'
    rw [q5, q5']
  obtain ⟨k1, k2⟩ := hk (min (n1 * 10) A.length) A A (Nat.min_le_right _ _)
  obtain ⟨k1', k2'⟩ := hk (min (n2 * 10) A.length) A A (Nat.min_le_right _ _)
  obtain ⟨pk1, pk2⟩ := hp A.length (requested par.proportion (y.count b) (y.count a)) (by omega)
  rw [sn_eq (par := { par with nNeighbors := n1 }) hmin h3 hn, sn_eq (par := { par with nNeighbors := n2 }) hmin h3 hn]
  rw [← hA, centroidNeighborhood_two k1 k2 hn1 (by omega), centroidNeighborhood_two k1' k2' hn2 (by omega),
    ok_bind, ok_bind]
  unfold snTail
  dsimp only
  rw [← hA]
  congr 1
  rw [sampleInClusters_congr (fun c hc => key n1 n2 hn1 hn2 c (pk2 c hc))]

/-- With `n_neighbors = 1`, which the constructor accepts, SN_SMOTE raises `IndexError` as soon as for one minority row the mean
of the two nearest rows is closer than the nearest one. -/
theorem C62_sn_one {par : NbParams} {dist : Row → Row → ℚ} {vol : List Row → ℚ} {pick : Nat → Nat → List Nat} {drs : Nat → Draws}
    {d : Nat} {knn : Nat → List Row → List Row → List (List Nat)} {X : List Row} {y : List Int} {a b : Int}
    (hxy : X.length = y.length) (hk : KnnQueryOK knn) (hmin : IsMinority y a b) (h1 : par.nNeighbors = 1) (h3 : 2 < y.count a)
    (hn : 0 < requested par.proportion (y.count b) (y.count a))
    (hc : ∃ i, CentroidCloser dist (classRows X y a) (knn (min 10 (y.count a)) (classRows X y a) (classRows X y a)) i) :
    sample defaultChecks d (snSmoteAlg par dist vol pick drs d knn) X y = .error .indexError := by
  have hAl : (classRows X y a).length = y.count a := classRows_length hxy _
  obtain ⟨k1, k2⟩ := hk (min 10 (y.count a)) (classRows X y a) (classRows X y a) (by omega)
  rw [sn_eq hmin h3 hn, h1, Nat.one_mul, hAl,
    (centroidNeighborhood_one (List.length_pos_iff.1 (by omega)) k1 k2 (by omega)).1 hc]
  rfl

/-- SN_SMOTE raises on no two-class data set for two or more neighbours, and for one neighbour only in the case of `C62_sn_one`. -/
theorem C62_sn_total {par : NbParams} {dist : Row → Row → ℚ} {vol : List Row → ℚ} {pick : Nat → Nat → List Nat} {drs : Nat → Draws}
    {d : Nat} {knn : Nat → List Row → List Row → List (List Nat)} {X : List Row} {y : List Int} {a b : Int}
    (hxy : X.length = y.length) (hk : KnnQueryOK knn) (hp : PickOK pick) (hdr : ∀ i, (drs i).OK)
    (hu : ∀ t i j, 0 < (drs t).simplexU i j) (hmin : IsMinority y a b) (hd : 1 ≤ par.ss.nDim)
    (hmode : par.ss.simplexSampling = .random ∨ par.ss.simplexSampling = .deterministic ∨
      (par.ss.simplexSampling = .volume ∧ ∀ vs, 0 < vol vs))
    (hwi : par.ss.within = .random ∨ par.ss.within = .deterministic)
    (h1 : 2 ≤ par.nNeighbors ∨ (par.nNeighbors = 1 ∧ ∀ i, ¬ CentroidCloser dist (classRows X y a)
      (knn (min 10 (y.count a)) (classRows X y a) (classRows X y a)) i)) :
    ∃ r, sample defaultChecks d (snSmoteAlg par dist vol pick drs d knn) X y = .ok r := by
  by_cases h3 : 2 < y.count a
  case neg =>
    obtain ⟨s, hs, rfl, rfl⟩ := stats_of_isMinority hmin
    rw [sample_default hs, if_pos (by omega)]
    exact ⟨_, rfl⟩
  by_cases hn : 0 < requested par.proportion (y.count b) (y.count a)
  case neg =>
    obtain ⟨s, hs, rfl, rfl⟩ := stats_of_isMinority hmin
    obtain ⟨hm, hM, _⟩ := stats_min_mem hs
    rw [sample_default hs, if_neg (by omega)]
    unfold snSmoteAlg
    rw [stats_count hs hm, stats_count hs hM, detN_eq_requested, ok_bind, if_pos (by omega)]
    exact ⟨_, rfl⟩
  have hAl : (classRows X y a).length = y.count a := classRows_length hxy _
  rw [sn_eq hmin h3 hn]
  set A := classRows X y a with hA
  obtain ⟨k1, k2⟩ := hk (min (par.nNeighbors * 10) A.length) A A (Nat.min_le_right _ _)
  obtain ⟨pk1, pk2⟩ := hp A.length (requested par.proportion (y.count b) (y.count a)) (by omega)
  have hcn : centroidNeighborhood dist par.nNeighbors A (knn (min (par.nNeighbors * 10) A.length) A A)
      (min (par.nNeighbors * 10) A.length) =
      .ok ((ncnFixed dist par.nNeighbors A (knn (min (par.nNeighbors * 10) A.length) A A)).ncn, List.replicate A.length 1) := by
    rcases h1 with h1 | ⟨h1, hno⟩
    · exact centroidNeighborhood_two k1 k2 h1 (by omega)
    · rw [h1, Nat.one_mul] at k1 k2 ⊢
      refine (centroidNeighborhood_one (List.length_pos_iff.1 (by omega)) k1 k2 (by omega)).2 ?_
      rw [hAl]; exact hno
  rw [hcn, ok_bind]
  unfold snTail
  dsimp only
  obtain ⟨out, hout⟩ := sampleInClusters_ok (ss := par.ss) (vol := vol) (drs := drs) (d := d)
    (sel := pick A.length (requested par.proportion (y.count b) (y.count a)))
    (task := snTask A (ncnFixed dist par.nNeighbors A (knn (min (par.nNeighbors * 10) A.length) A A)).ncn
      (List.replicate A.length 1))
    (by intro h0; rw [h0] at pk1; simp at pk1; omega) (by
      intro c i hc
      obtain ⟨row, j, p, q, _, _, _, _, q5⟩ := snTask_eq (dist := dist) (nN := par.nNeighbors) k1 k2 (by omega) (by omega) (pk2 c hc)
      exact ⟨_, q5, segTask_ok (hdr i) (hu i) hd hmode hwi⟩)
  rw [← hA, hout]
  exact ⟨_, rfl⟩

/-! ## SMMO -/

theorem smmo_eq {par : NbParams} {predict : List Row → List Int → List (List Int)} {vol : List Row → ℚ}
    {pick : Nat → Nat → List Nat} {drs : Nat → Draws} {d : Nat} {knn : Nat → List Row → List Row → List (List Nat)} {X : List Row}
    {y : List Int} {a b : Int} (hmin : IsMinority y a b) (h3 : 2 < y.count a)
    (hn : 0 < requested par.proportion (y.count b) (y.count a)) :
    sample defaultChecks d (smmoAlg par predict vol pick drs d knn) X y =
      if (smmoMask (predict X y) y a).length < 2 then .ok (X, y)
      else (do
        let Q ← takeRows X (smmoMask (predict X y) y a)
        let A := classRows X y a
        let ind := knn (min A.length (par.nNeighbors + 1)) A Q
        let samples ← sampleInClusters par.ss vol drs d (smmoTask d A ind)
          (pick ind.length (requested par.proportion (y.count b) (y.count a)))
        return withSamples X y a samples) := by
  obtain ⟨s, hs, rfl, rfl⟩ := stats_of_isMinority hmin
  obtain ⟨hm, hM, _⟩ := stats_min_mem hs
  rw [sample_default hs, if_neg (by omega)]
  unfold smmoAlg
  rw [stats_count hs hm, stats_count hs hM, detN_eq_requested, ok_bind, if_neg (by omega)]
  dsimp only
  rw [selectLabel_eq_classRows]
  rfl

theorem smmoTask_eq {d k b : Nat} {A : List Row} {table : List (List Nat)} (hA : ∀ r ∈ A, r.length = d)
    (ht : TableOK table k A.length) (hk : 2 ≤ k) (hb : b < table.length) :
    ∃ row j p nbrs m, table[b]? = some row ∧ row[0]? = some j ∧ A[j]? = some p ∧
      List.Forall₂ (fun i r => A[i]? = some r) (row.drop 1) nbrs ∧ IsMean d nbrs m ∧
      smmoTask d A table b = .ok { rows := [m], indices := [[0, 0]], k := 2, args := { Xv := some [p] } } := by
  obtain ⟨e1, e2⟩ := ht table[b] (List.getElem_mem hb)
  have hj : (table[b])[0] < A.length := e2 _ (List.getElem_mem (by omega))
  obtain ⟨nbrs, hnb⟩ := takeRows_ok_of_lt (X := A) (idx := (table[b]).drop 1) (fun i hi => e2 i (List.mem_of_mem_drop hi))
  have hnl : nbrs.length ≠ 0 := by rw [takeRows_length hnb, List.length_drop]; omega
  have hne : nbrs ≠ [] := fun h0 => hnl (by rw [h0]; rfl)
  refine ⟨table[b], (table[b])[0], A[(table[b])[0]], nbrs, meanRow d nbrs, List.getElem?_eq_getElem hb,
    List.getElem?_eq_getElem (by omega), List.getElem?_eq_getElem hj, ?_, meanRow_isMean hne ?_, ?_⟩
  · have := hnb
    rw [takeRows, mapM_ok_iff] at this
    exact this.imp (fun i r h => getRow_ok.1 h)
  · intro r hr
    exact hA r (takeRows_mem hnb hr)
  · unfold smmoTask neighborMean
    rw [getRow_lt hb, ok_bind, hnb, ok_bind, if_neg hnl, getRow_lt (show 0 < (table[b]).length by omega), ]
    change (getRow A _ >>= _) = _
    rw [getRow_lt hj]
    rfl

/-- The minority rows which SMMO samples around. -/
def smmoSelected (preds : List (List Int)) (y : List Int) (a : Int) : List Nat :=
  (List.range y.length).filter (fun i => decide (y[i]? = some a) && decide (smmoPred preds i ≠ a))

theorem smmoMask_eq (preds : List (List Int)) (y : List Int) (a : Int) : smmoMask preds y a = smmoSelected preds y a := by
  unfold smmoMask smmoSelected
  apply List.filter_congr
  intro i hi
  rw [List.mem_range] at hi
  have e : y[i]? = some (y.getD i 0) := by
    rw [List.getD_eq_getElem?_getD, List.getElem?_eq_getElem hi]; rfl
  rw [e]
  generalize y.getD i 0 = l
  by_cases h : l = a
  · simp [h]
  · simp [h]

/-- **SMMO**: with fewer than two selected rows the input comes back; otherwise every new row lies between the first row listed for
a selected row (that is, the row itself) and the mean of its further neighbours. -/
theorem C62_smmo {par : NbParams} {predict : List Row → List Int → List (List Int)} {vol : List Row → ℚ}
    {pick : Nat → Nat → List Nat} {drs : Nat → Draws} {d : Nat} {knn : Nat → List Row → List Row → List (List Nat)}
    {X X' : List Row} {y y' : List Int} {a b : Int} (hwf : WF d X y) (hk : KnnQueryOK knn) (hp : PickOK pick)
    (hdr : ∀ i, (drs i).OK) (hmin : IsMinority y a b) (hg : par.ss.gaussian = .none) (hvol : ∀ vs, 0 ≤ vol vs)
    (h1 : 1 ≤ par.nNeighbors) (h3 : 2 < y.count a) (hn : 0 < requested par.proportion (y.count b) (y.count a))
    (h : sample defaultChecks d (smmoAlg par predict vol pick drs d knn) X y = .ok (X', y')) :
    let A := classRows X y a
    let sel := smmoSelected (predict X y) y a
    let Q := sel.map (fun i => X.getD i [])
    let n := requested par.proportion (y.count b) (y.count a)
    if sel.length < 2 then X' = X ∧ y' = y
    else ∃ new : List Row, X' = X ++ new ∧ y' = y ++ List.replicate n a ∧ new.length = n ∧
      ByCluster sel.length (pick sel.length n) (TowardsMean d A (knn (min A.length (par.nNeighbors + 1)) A Q)) new := by
  intro A sel Q n
  have hAl : A.length = y.count a := classRows_length hwf.1 _
  rw [smmo_eq hmin h3 hn, smmoMask_eq] at h
  by_cases hs : sel.length < 2
  · rw [if_pos hs] at h ⊢
    injection h with h
    obtain ⟨rfl, rfl⟩ := Prod.mk.inj h
    exact ⟨rfl, rfl⟩
  rw [if_neg hs] at h ⊢
  have hQ : takeRows X sel = .ok Q := takeRows_map_getD [] (by
    intro i hi
    have := List.mem_range.1 (List.mem_filter.1 hi).1
    rw [hwf.1]; exact this)
  rw [hQ, ok_bind] at h
  dsimp only at h
  obtain ⟨out, hout, h⟩ := bind_ok.1 h
  have h := pure_ok.1 h
  have hAd : ∀ r ∈ A, r.length = d := fun r hr => hwf.2 r (mem_of_mem_classRows hr)
  obtain ⟨k1, k2⟩ := hk (min A.length (par.nNeighbors + 1)) A Q (Nat.min_le_left _ _)
  have hQl : Q.length = sel.length := List.length_map _
  rw [show (knn (min (classRows X y a).length (par.nNeighbors + 1)) (classRows X y a) Q).length = sel.length from k1.trans hQl] at hout
  obtain ⟨pk1, pk2⟩ := hp sel.length n (by omega)
  have hby : ByCluster sel.length (pick sel.length n) (TowardsMean d A (knn (min A.length (par.nNeighbors + 1)) A Q)) out := by
    refine sampleInClusters_sound pk2 ?_ hout
    intro c t i o hc ht ho
    obtain ⟨row, j, p, nbrs, m, q1, q2, q3, q4, q5, q6⟩ := smmoTask_eq hAd k2 (by omega)
      (show c < _ by rw [k1, hQl]; exact pk2 c hc)
    have ht' := q6.symm.trans ht
    injection ht' with ht'
    subst ht'
    obtain ⟨g1, g2⟩ := segTask_sound q5.1 (hAd p (List.mem_of_getElem? q3)) (hdr i) hg hvol ho
    exact ⟨g1, fun x hx => ⟨row, j, p, nbrs, m, q1, q2, q3, q4, q5, g2 x hx⟩⟩
  have hlen := hby.length pk2
  unfold withSamples at h
  obtain ⟨rfl, rfl⟩ := Prod.mk.inj h
  exact ⟨out, rfl, by rw [hlen, pk1], by rw [hlen, pk1], hby⟩

/-- SMMO raises on no two-class data set. -/
theorem C62_smmo_total {par : NbParams} {predict : List Row → List Int → List (List Int)} {vol : List Row → ℚ}
    {pick : Nat → Nat → List Nat} {drs : Nat → Draws} {d : Nat} {knn : Nat → List Row → List Row → List (List Nat)}
    {X : List Row} {y : List Int} {a b : Int} (hwf : WF d X y) (hk : KnnQueryOK knn) (hp : PickOK pick)
    (hdr : ∀ i, (drs i).OK) (hu : ∀ t i j, 0 < (drs t).simplexU i j) (hmin : IsMinority y a b) (hd : 1 ≤ par.ss.nDim)
    (hmode : par.ss.simplexSampling = .random ∨ par.ss.simplexSampling = .deterministic ∨
      (par.ss.simplexSampling = .volume ∧ ∀ vs, 0 < vol vs))
    (hwi : par.ss.within = .random ∨ par.ss.within = .deterministic) (h1 : 1 ≤ par.nNeighbors) :
    ∃ r, sample defaultChecks d (smmoAlg par predict vol pick drs d knn) X y = .ok r := by
  by_cases h3 : 2 < y.count a
  case neg =>
    obtain ⟨s, hs, rfl, rfl⟩ := stats_of_isMinority hmin
    rw [sample_default hs, if_pos (by omega)]
    exact ⟨_, rfl⟩
  by_cases hn : 0 < requested par.proportion (y.count b) (y.count a)
  case neg =>
    obtain ⟨s, hs, rfl, rfl⟩ := stats_of_isMinority hmin
    obtain ⟨hm, hM, _⟩ := stats_min_mem hs
    rw [sample_default hs, if_neg (by omega)]
    unfold smmoAlg
    rw [stats_count hs hm, stats_count hs hM, detN_eq_requested, ok_bind, if_pos (by omega)]
    exact ⟨_, rfl⟩
  have hAl : (classRows X y a).length = y.count a := classRows_length hwf.1 _
  rw [smmo_eq hmin h3 hn, smmoMask_eq]
  set A := classRows X y a with hA
  set sel := smmoSelected (predict X y) y a with hsel
  split
  · exact ⟨_, rfl⟩
  rename_i hs
  rw [takeRows_map_getD [] (X := X) (idx := sel) (by
    intro i hi
    have := List.mem_range.1 (List.mem_filter.1 hi).1
    rw [hwf.1]; exact this), ok_bind]
  dsimp only
  set Q := sel.map (fun i => X.getD i []) with hQ
  have hAd : ∀ r ∈ A, r.length = d := fun r hr => hwf.2 r (mem_of_mem_classRows hr)
  obtain ⟨k1, k2⟩ := hk (min A.length (par.nNeighbors + 1)) A Q (Nat.min_le_left _ _)
  have hQl : Q.length = sel.length := List.length_map _
  obtain ⟨pk1, pk2⟩ := hp (knn (min A.length (par.nNeighbors + 1)) A Q).length
    (requested par.proportion (y.count b) (y.count a)) (by rw [k1]; omega)
  obtain ⟨out, hout⟩ := sampleInClusters_ok (ss := par.ss) (vol := vol) (drs := drs) (d := d)
    (sel := pick (knn (min A.length (par.nNeighbors + 1)) A Q).length (requested par.proportion (y.count b) (y.count a)))
    (task := smmoTask d A (knn (min A.length (par.nNeighbors + 1)) A Q))
    (by intro h0; rw [h0] at pk1; simp at pk1; omega) (by
      intro c i hc
      obtain ⟨row, j, p, nbrs, m, _, _, _, _, _, q6⟩ := smmoTask_eq hAd k2 (by omega) (pk2 c hc)
      exact ⟨_, q6, segTask_ok (hdr i) (hu i) hd hmode hwi⟩)
  rw [hout]
  exact ⟨_, rfl⟩

/-! ### Which rows SMMO selects -/

theorem sum_zero_one {p : List (List Int)} {i : Nat} (h : ∀ c ∈ p, c[i]? = some 0 ∨ c[i]? = some 1) :
    (p.map (fun c => ((c.getD i 0 : Int) : ℚ))).sum = ((p.filter (fun c => decide (c[i]? = some 1))).length : ℚ) := by
  induction p with
  | nil => simp
  | cons c p ih =>
    rw [List.map_cons, List.sum_cons, ih (fun c' hc' => h c' (by simp [hc'])), List.filter_cons, List.getD_eq_getElem?_getD]
    rcases h c (by simp) with h0 | h0
    · simp [h0]
    · simp [h0]; ring

/-- With the labels 1 (minority) and 0, SMMO selects the minority rows for which at most half of the classifiers answer 1. -/
theorem C62_smmo_selects {preds : List (List Int)} {y : List Int} {i : Nat} (hne : preds ≠ []) (hi : y[i]? = some 1)
    (hp : ∀ c ∈ preds, c[i]? = some 0 ∨ c[i]? = some 1) :
    i ∈ smmoSelected preds y 1 ↔ 2 * (preds.filter (fun c => decide (c[i]? = some 1))).length ≤ preds.length := by
  have hil := (List.getElem?_eq_some_iff.1 hi).1
  have hpos : (0 : ℚ) < preds.length := by exact_mod_cast List.length_pos_iff.2 hne
  unfold smmoSelected smmoPred
  rw [List.mem_filter, List.mem_range, sum_zero_one hp]
  simp only [lt_div_iff₀ hpos]
  simp only [hil, hi, true_and, decide_true, Bool.true_and, decide_eq_true_eq]
  split
  · rename_i hlt
    refine iff_of_false (by simp) (fun hle => ?_)
    have : (2 : ℚ) * ((preds.filter (fun c => decide (c[i]? = some 1))).length : ℚ) ≤ preds.length := by exact_mod_cast hle
    linarith
  · rename_i hlt
    refine iff_of_true (by norm_num) ?_
    have h2 : (2 : ℚ) * ((preds.filter (fun c => decide (c[i]? = some 1))).length : ℚ) ≤ preds.length := by linarith
    exact_mod_cast h2

/-- With a minority label other than 0 and 1 the classifiers have no influence: all minority rows are selected. -/
theorem C62_smmo_other {preds : List (List Int)} {y : List Int} {a : Int} (h0 : a ≠ 0) (h1 : a ≠ 1) :
    smmoSelected preds y a = positionsOf y a := by
  unfold smmoSelected positionsOf
  apply List.filter_congr
  intro i _
  have : smmoPred preds i ≠ a := by
    unfold smmoPred
    split
    · exact Ne.symm h1
    · exact Ne.symm h0
  simp [this]

/-- With the minority label 1 and a larger majority label SMMO always gives the input back. -/
theorem C62_smmo_nothing {par : NbParams} {predict : List Row → List Int → List (List Int)} {vol : List Row → ℚ}
    {pick : Nat → Nat → List Nat} {drs : Nat → Draws} {d : Nat} {knn : Nat → List Row → List Row → List (List Nat)}
    {X : List Row} {y : List Int} {b : Int} (hb : 1 < b) (hmin : IsMinority y 1 b) (hne : predict X y ≠ [])
    (hpr : ∀ c ∈ predict X y, c.length = y.length ∧ ∀ l ∈ c, l = 1 ∨ l = b) :
    sample defaultChecks d (smmoAlg par predict vol pick drs d knn) X y = .ok (X, y) := by
  by_cases h3 : 2 < y.count 1
  case neg =>
    obtain ⟨s, hs, hm, rfl⟩ := stats_of_isMinority hmin
    rw [sample_default hs, if_pos (by rw [hm]; omega)]
  by_cases hn : 0 < requested par.proportion (y.count b) (y.count 1)
  case neg =>
    obtain ⟨s, hs, ha, rfl⟩ := stats_of_isMinority hmin
    obtain ⟨hm, hM, _⟩ := stats_min_mem hs
    rw [sample_default hs, if_neg (by rw [ha]; omega)]
    unfold smmoAlg
    rw [stats_count hs hm, stats_count hs hM, detN_eq_requested, ok_bind, if_pos (by rw [ha]; omega)]
    rfl
  rw [smmo_eq hmin h3 hn, smmoMask_eq]
  have h0 : smmoSelected (predict X y) y 1 = [] := by
    unfold smmoSelected
    rw [List.filter_eq_nil_iff]
    intro i hi
    rw [List.mem_range] at hi
    have hpos : (0 : ℚ) < (predict X y).length := by exact_mod_cast List.length_pos_iff.2 hne
    have hge : ((predict X y).length : ℚ) ≤ ((predict X y).map (fun c => ((c.getD i 0 : Int) : ℚ))).sum := by
      have : ∀ p : List (List Int), (∀ c ∈ p, c.length = y.length ∧ ∀ l ∈ c, l = 1 ∨ l = b) →
          (p.length : ℚ) ≤ (p.map (fun c => ((c.getD i 0 : Int) : ℚ))).sum := by
        intro p
        induction p with
        | nil => intro _; simp
        | cons c p ih =>
          intro hp
          have := ih (fun c' hc' => hp c' (by simp [hc']))
          rw [List.map_cons, List.sum_cons, List.length_cons]
          push_cast
          have hc := hp c (by simp)
          have hci : i < c.length := by rw [hc.1]; exact hi
          have h1 : (1 : Int) ≤ c.getD i 0 := by
            rw [List.getD_eq_getElem?_getD, List.getElem?_eq_getElem hci]
            rcases hc.2 _ (List.getElem_mem hci) with h | h
            · simp [h]
            · simp [h]; omega
          have h1' : (1 : ℚ) ≤ ((c.getD i 0 : Int) : ℚ) := by exact_mod_cast h1
          linarith
      exact this _ hpr
    have : smmoPred (predict X y) i = 1 := by
      unfold smmoPred
      rw [if_pos]
      rw [lt_div_iff₀ hpos]
      linarith
    simp [this]
  rw [h0, if_pos (by simp)]

/-! ## The hypotheses are met -/

def snPar (nN : Nat) : NbParams :=
  { proportion := 1, nNeighbors := nN, ss := { nDim := 2, simplexSampling := .random, within := .random, gaussian := .none } }
def snRun (nN : Nat) : Res (List Row × List Int) :=
  sample defaultChecks 2 (snSmoteAlg (snPar nN) wtDist (fun _ => 1) clPick (fun _ => exDraws) 2 bruteQuery) wtX wtY
def snX : List Row := [[0], [2], [-3], [9], [10], [11], [12], [13]]
def snRun1 : Res (List Row × List Int) :=
  sample defaultChecks 1 (snSmoteAlg (snPar 1) clDist (fun _ => 1) clPick (fun _ => exDraws) 1 bruteQuery) snX wtY

example : WF 2 wtX wtY ∧ IsMinority wtY 1 0 ∧ 2 < wtY.count 1 ∧ KnnQueryOK bruteQuery ∧ PickOK clPick ∧
    (match snRun 2 with
     | .ok r => decide (r.1.length = 10 ∧ r.2 = wtY ++ [1, 1])
     | .error _ => false) = true ∧
    -- three further neighbours would have been used for the tables of the search, but do not matter
    (match snRun 2, snRun 5 with
     | .ok r, .ok r' => decide (r = r')
     | _, _ => false) = true := by
  refine ⟨⟨by decide, by decide +kernel⟩, ⟨by decide, by decide, by decide, Or.inl (by decide)⟩, by decide, bruteQuery_ok, clPick_ok,
    by decide +kernel, by decide +kernel⟩

/-- One neighbour, and the rows 2 and -3 around the row 0: the mean of the two is closer to it than 2. -/
example : CentroidCloser clDist (classRows snX wtY 1) (bruteQuery 3 (classRows snX wtY 1) (classRows snX wtY 1)) 0 ∧
    (match snRun1 with
     | .error .indexError => true
     | _ => false) = true := by
  refine ⟨⟨[0, 1, 2], 1, 2, [0], [2], [-3], by decide +kernel, rfl, rfl, by decide +kernel, by decide +kernel, by decide +kernel, ?_⟩,
    by decide +kernel⟩
  decide +kernel

def smPred (_ : List Row) (y : List Int) : List (List Int) := [y, y.map (fun _ => 0), y.map (fun _ => 0)]

example : smmoSelected (smPred wtX wtY) wtY 1 = [0, 1, 2] ∧
    (match sample defaultChecks 2 (smmoAlg (snPar 2) smPred (fun _ => 1) clPick (fun _ => exDraws) 2 bruteQuery) wtX wtY with
     | .ok r => decide (r.1.length = 10 ∧ r.2 = wtY ++ [1, 1])
     | .error _ => false) = true ∧
    -- the same classes, named 1 and 2
    (match sample defaultChecks 2 (smmoAlg (snPar 2) (fun _ y => [y.map (fun _ => 2)]) (fun _ => 1) clPick (fun _ => exDraws) 2 bruteQuery)
        wtX (wtY.map (fun l => if l = 1 then 1 else 2)) with
     | .ok r => decide (r.1 = wtX)
     | .error _ => false) = true := by
  refine ⟨by decide +kernel, by decide +kernel, by decide +kernel⟩

end Verif

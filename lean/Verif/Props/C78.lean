import Verif.Model.Msyn
import Verif.Props.C01
import Verif.Props.C02
import Verif.Props.C34
import Verif.Props.C53
import Verif.Props.C66
import Verif.Spec.Search
import Verif.Lemmas.SimplexAlg
import Verif.Lemmas.Clusters
import Verif.Lemmas.Distances
import Mathlib.Tactic.FieldSimp

/-! # C78: MSYN -/

namespace Verif

/-! ## Specification -/

/-- `h` is the smallest distance of row `i` from another row whose label satisfies `p`. -/
def IsClosest (dist : Row → Row → ℚ) (X : List Row) (y : List Int) (i : Nat) (p : Int → Prop) (h : ℚ) : Prop :=
  (∃ j, j ≠ i ∧ (∃ l, y[j]? = some l ∧ p l) ∧ dist (X.getD i []) (X.getD j []) = h) ∧
  ∀ j l, j ≠ i → y[j]? = some l → p l → h ≤ dist (X.getD i []) (X.getD j [])

/-- What the new row `z` takes from the rows at the positions `pos`: how much closer it is than `r`, halved and summed. -/
def closerBy (dist : Row → Row → ℚ) (X : List Row) (r : Nat → ℚ) (pos : List Nat) (z : Row) : ℚ :=
  (pos.map (fun i => max 0 (r i - dist (X.getD i []) z) / 2)).sum

/-- The score of a candidate: the margin lost by the majority rows over the margin gained by the minority rows (plus 0.01). -/
def marginScore (dist : Row → Row → ℚ) (X : List Row) (y : List Int) (a b : Int) (hit miss : Nat → ℚ) (z : Row) : ℚ :=
  closerBy dist X miss (labelPositions y b) z / (closerBy dist X hit (labelPositions y a) z + 1 / 100)

/-! ## Hits and misses -/

theorem firstTrue_spec {mask : List Bool} (h : true ∈ mask) :
    ∃ hlt : firstTrue mask < mask.length, mask[firstTrue mask] = true ∧ ∀ j (hj : j < firstTrue mask), mask[j] = false := by
  have hl := List.idxOf_lt_length_iff.2 h
  have e : firstTrue mask = mask.idxOf true := if_pos hl
  simp only [e]
  refine ⟨hl, List.getElem_idxOf hl, fun j hj => ?_⟩
  have := List.not_of_lt_findIdx (p := fun x => x == true) (xs := mask) hj
  simpa using this

/-- The first row of the sorted list whose label satisfies `p` is a closest one. -/
theorem closest_first {dist : Row → Row → ℚ} {X : List Row} {y : List Int} {i : Nat} {rest : List Nat} {labels : List Int}
    (hxy : X.length = y.length) (hl : rest.mapM (getRow y) = .ok labels)
    (hmem : ∀ j, j < X.length → j ≠ i → j ∈ rest) (hi : i ∉ rest)
    (hs : rest.Pairwise (fun j k => dist (X.getD i []) (X.getD j []) ≤ dist (X.getD i []) (X.getD k []))) (p : Int → Bool)
    (hex : ∃ j l, j ≠ i ∧ y[j]? = some l ∧ p l = true) :
    ∃ j x, getRow rest (firstTrue (labels.map p)) = .ok j ∧ getRow X j = .ok x ∧
      IsClosest dist X y i (fun l => p l = true) (dist (X.getD i []) x) := by
  have hf := mapM_ok_iff.1 hl
  obtain ⟨j0, l0, h1, h2, h3⟩ := hex
  have hj0 : j0 < y.length := (List.getElem?_eq_some_iff.1 h2).1
  obtain ⟨l1, hl1, e1⟩ := forall₂_mem_left hf (hmem j0 (by omega) h1)
  rw [getRow_ok, h2] at e1
  injection e1 with e1
  subst e1
  have ht : true ∈ labels.map p := List.mem_map.2 ⟨_, hl1, h3⟩
  obtain ⟨hlt, g1, g2⟩ := firstTrue_spec ht
  set t := firstTrue (labels.map p) with htd
  rw [List.length_map] at hlt
  have hlr : t < rest.length := by rw [hf.length_eq]; exact hlt
  have hat := hf.get hlr hlt
  simp only [List.get_eq_getElem] at hat
  rw [getRow_ok] at hat
  have hjy := (List.getElem?_eq_some_iff.1 hat).1
  have hjX : rest[t] < X.length := by omega
  rw [List.getElem_map] at g1
  refine ⟨rest[t], X[rest[t]], getRow_ok.2 (List.getElem?_eq_getElem hlr), getRow_ok.2 (List.getElem?_eq_getElem hjX), ⟨rest[t], ?_, ?_, ?_⟩, ?_⟩
  · intro hc
    exact hi (hc ▸ List.getElem_mem hlr)
  · exact ⟨_, hat, g1⟩
  · rw [List.getD_eq_getElem?_getD (l := X) (i := rest[t]), List.getElem?_eq_getElem hjX]; rfl
  · intro j l hne hy hp
    have hjl : j < y.length := (List.getElem?_eq_some_iff.1 hy).1
    obtain ⟨u, hu, hju⟩ := List.getElem_of_mem (hmem j (by omega) hne)
    have hul : u < labels.length := by rw [← hf.length_eq]; exact hu
    have hau := hf.get hu hul
    simp only [List.get_eq_getElem] at hau
    rw [getRow_ok, hju, hy] at hau
    injection hau with hau
    have htu : t ≤ u := by
      by_contra hc
      have := g2 u (by omega)
      rw [List.getElem_map, ← hau, hp] at this
      cases this
    have e : X[rest[t]] = X.getD rest[t] [] := by
      rw [List.getD_eq_getElem?_getD, List.getElem?_eq_getElem hjX]; rfl
    rw [e]
    rcases Nat.lt_or_eq_of_le htu with hlt' | heq
    · have := (List.pairwise_iff_getElem.1 hs) t u hlr hu hlt'
      rw [hju] at this
      exact this
    · have : rest[t] = j := by rw [← hju]; congr 1
      rw [this]

theorem msynHitMiss_spec {dist : Row → Row → ℚ} {X : List Row} {y : List Int} {i : Nat} {ind : List Nat} {li : Int}
    (hxy : X.length = y.length) (hli : y[i]? = some li) (hperm : ind.Perm (List.range X.length)) (hself : ind.head? = some i)
    (hs : ind.Pairwise (fun j k => dist (X.getD i []) (X.getD j []) ≤ dist (X.getD i []) (X.getD k [])))
    (h1 : ∃ j : Nat, j ≠ i ∧ y[j]? = some li) (h2 : ∃ (j : Nat) (l : Int), y[j]? = some l ∧ l ≠ li) :
    ∃ h m, msynHitMiss dist X y (X.getD i []) ind = .ok (h, m) ∧ IsClosest dist X y i (fun l => l = li) h ∧
      IsClosest dist X y i (fun l => l ≠ li) m := by
  cases ind with
  | nil => cases hself
  | cons i0 rest =>
    simp only [List.head?_cons, Option.some.injEq] at hself
    subst hself
    have hnd : (i0 :: rest).Nodup := hperm.nodup_iff.2 List.nodup_range
    have hi : i0 ∉ rest := (List.nodup_cons.1 hnd).1
    have hmem : ∀ j, j < X.length → j ≠ i0 → j ∈ rest := by
      intro j hj hne
      have := hperm.mem_iff.2 (List.mem_range.2 hj)
      rcases List.mem_cons.1 this with h | h
      · exact absurd h hne
      · exact h
    have hlt : ∀ j ∈ rest, j < y.length := by
      intro j hj
      have := List.mem_range.1 (hperm.mem_iff.1 (List.mem_cons_of_mem i0 hj))
      omega
    obtain ⟨labels, hl⟩ := mapM_exists_ok (l := rest) (f := getRow y) (fun j hj =>
      ⟨_, getRow_ok.2 (List.getElem?_eq_getElem (hlt j hj))⟩)
    have hs' := (List.pairwise_cons.1 hs).2
    obtain ⟨j1, hne1, hy1⟩ := h1
    obtain ⟨j2, l2, hy2, hne2⟩ := h2
    obtain ⟨jh, xh, e1, e2, e3⟩ := closest_first hxy hl hmem hi hs' (fun l => decide (l = li)) ⟨j1, li, hne1, hy1, by simp⟩
    obtain ⟨jm, xm, f1, f2, f3⟩ := closest_first hxy hl hmem hi hs' (fun l => !decide (l = li)) ⟨j2, l2, by
      rintro rfl
      rw [hli] at hy2
      injection hy2 with hy2
      exact hne2 hy2.symm, hy2, by simpa using hne2⟩
    refine ⟨dist (X.getD i0 []) xh, dist (X.getD i0 []) xm, ?_, ?_, ?_⟩
    · unfold msynHitMiss
      rw [getRow_ok.2 (show (i0 :: rest)[0]? = some i0 from rfl), ok_bind, getRow_ok.2 hli, ok_bind]
      simp only [List.drop_one, List.tail_cons]
      rw [hl, ok_bind]
      simp only [List.map_map]
      rw [e1, ok_bind]
      rw [show (List.map ((fun b => !b) ∘ fun l => decide (l = li)) labels) = labels.map (fun l => !decide (l = li)) from rfl, f1, ok_bind,
        e2, ok_bind, f2]
      rfl
    · simpa using e3
    · simpa using f3

/-! ## The score -/

theorem closerBy_nonneg {dist : Row → Row → ℚ} {X : List Row} {r : Nat → ℚ} {pos : List Nat} {z : Row} : 0 ≤ closerBy dist X r pos z := by
  unfold closerBy
  apply List.sum_nonneg
  intro x hx
  obtain ⟨i, _, rfl⟩ := List.mem_map.1 hx
  exact div_nonneg (le_max_left _ _) (by norm_num)

theorem sum_neg_map (l : List Nat) (f : Nat → ℚ) : -(l.map f).sum = (l.map (fun i => -f i)).sum := by
  induction l with
  | nil => simp
  | cons i l ih => rw [List.map_cons, List.sum_cons, neg_add, ih, List.map_cons, List.sum_cons]

theorem msynScore_eq {dist : Row → Row → ℚ} {X : List Row} {y : List Int} {a b : Int} {hm : List (ℚ × ℚ)} {z : Row} :
    msynScore dist X hm (labelPositions y a) (labelPositions y b) z =
      marginScore dist X y a b (fun i => (hm.getD i (0, 0)).1) (fun i => (hm.getD i (0, 0)).2) z := by
  unfold msynScore marginScore closerBy
  dsimp only
  have e1 : ∀ pos : List Nat, (pos.map (fun i => (1 / 2) * ((hm.getD i (0, 0)).2 -
      if (hm.getD i (0, 0)).1 < dist (X.getD i []) z then (hm.getD i (0, 0)).1 else dist (X.getD i []) z) -
      (1 / 2) * ((hm.getD i (0, 0)).2 - (hm.getD i (0, 0)).1))).sum =
      (pos.map (fun i => max 0 ((hm.getD i (0, 0)).1 - dist (X.getD i []) z) / 2)).sum := by
    intro pos
    apply list_sum_map_congr
    intro i _
    split
    · rename_i h
      rw [max_eq_left (by linarith)]
      ring
    · rename_i h
      rw [max_eq_right (by linarith [not_lt.1 h])]
      ring
  have e2 : ∀ pos : List Nat, -(pos.map (fun i => (1 / 2) * ((if (hm.getD i (0, 0)).2 < dist (X.getD i []) z then
      (hm.getD i (0, 0)).2 else dist (X.getD i []) z) - (hm.getD i (0, 0)).1) -
      (1 / 2) * ((hm.getD i (0, 0)).2 - (hm.getD i (0, 0)).1))).sum =
      (pos.map (fun i => max 0 ((hm.getD i (0, 0)).2 - dist (X.getD i []) z) / 2)).sum := by
    intro pos
    rw [sum_neg_map]
    apply list_sum_map_congr
    intro i _
    split
    · rename_i h
      rw [max_eq_left (by linarith)]
      ring
    · rename_i h
      rw [max_eq_right (by linarith [not_lt.1 h])]
      ring
  rw [e1, e2]

/-- Positions sorted by a score, the first `n` of them: none left out has a smaller score. -/
theorem smallest_take {f : List ℚ} {n : Nat} :
    let ind := ((List.range f.length).insertionSort (fun i j => f.getD i 0 ≤ f.getD j 0)).take n
    ind.length = min n f.length ∧ ind.Nodup ∧ (∀ i ∈ ind, i < f.length) ∧
      ∀ i ∈ ind, ∀ j, j < f.length → j ∉ ind → f.getD i 0 ≤ f.getD j 0 := by
  intro ind
  have hp := List.perm_insertionSort (fun i j => f.getD i 0 ≤ f.getD j 0) (List.range f.length)
  have : Std.Total (fun i j : Nat => f.getD i 0 ≤ f.getD j 0) := ⟨fun i j => le_total _ _⟩
  have : IsTrans Nat (fun i j => f.getD i 0 ≤ f.getD j 0) := ⟨fun _ _ _ h1 h2 => le_trans h1 h2⟩
  have hs := List.pairwise_insertionSort (fun i j => f.getD i 0 ≤ f.getD j 0) (List.range f.length)
  have hnd := hp.nodup_iff.2 List.nodup_range
  set S := (List.range f.length).insertionSort (fun i j => f.getD i 0 ≤ f.getD j 0) with hS
  refine ⟨?_, hnd.sublist (List.take_sublist _ _), ?_, ?_⟩
  · rw [List.length_take, hp.length_eq, List.length_range]
  · intro i hi
    exact List.mem_range.1 (hp.mem_iff.1 (List.mem_of_mem_take hi))
  · intro i hi j hj hnj
    have hjS := hp.mem_iff.2 (List.mem_range.2 hj)
    rw [← List.take_append_drop n S] at hjS hs
    rw [List.mem_append] at hjS
    rcases hjS with h | h
    · exact absurd h hnj
    · exact (List.pairwise_append.1 hs).2.2 i hi j h

/-- **MSYN** runs SMOTE for three times the proportion and keeps the requested number of candidates with the smallest score. -/
theorem C78_msyn {par : SmoteParams} {dist : Row → Row → ℚ} {vol : List Row → ℚ} {dr : Draws} {d : Nat}
    {knn : Nat → List Row → List (List Nat)} {X : List Row} {y : List Int} {a b : Int}
    (hwf : WF d X y) (hk : KnnOK knn) (hdr : dr.OK) (hpos : ∀ i j, 0 < dr.simplexU i j)
    (hnear : ∀ i ind, (knn X.length X)[i]? = some ind → NearestRows dist X (X.getD i []) ind)
    (hself : ∀ x, dist x x = 0) (hdist : ∀ i j, i < X.length → j < X.length → i ≠ j → 0 < dist (X.getD i []) (X.getD j []))
    (hmin : IsMinority y a b) (h3 : 2 < y.count a) (hp : 0 ≤ par.proportion)
    (hn : 0 < requested par.proportion (y.count b) (y.count a)) (hd : 1 ≤ par.ss.nDim)
    (hmode : par.ss.simplexSampling = .random ∨ par.ss.simplexSampling = .deterministic ∨
      (par.ss.simplexSampling = .volume ∧ ∀ vs, 0 < vol vs))
    (hwi : par.ss.within = .random ∨ (par.ss.within = .deterministic ∧ par.ss.nDim ≤ 2)) :
    ∃ cand sel rows hit miss,
      smoteSample { par with proportion := par.proportion * 3 } vol dr d knn X y =
        .ok (X ++ cand, y ++ List.replicate (requested (par.proportion * 3) (y.count b) (y.count a)) a) ∧
      (∀ i l, y[i]? = some l → IsClosest dist X y i (fun l' => l' = l) (hit i) ∧ IsClosest dist X y i (fun l' => l' ≠ l) (miss i)) ∧
      sel.length = requested par.proportion (y.count b) (y.count a) ∧ sel.Nodup ∧
      List.Forall₂ (fun i r => cand[i]? = some r) sel rows ∧
      (∀ i ∈ sel, ∀ j, j < cand.length → j ∉ sel →
        marginScore dist X y a b hit miss (cand.getD i []) ≤ marginScore dist X y a b hit miss (cand.getD j [])) ∧
      sample defaultChecks d (msynAlg par dist vol dr d knn) X y =
        .ok (X ++ rows, y ++ List.replicate (requested par.proportion (y.count b) (y.count a)) a) := by
  obtain ⟨⟨X', y'⟩, hr⟩ := C01_smote_total (par := { par with proportion := par.proportion * 3 }) (vol := vol) hwf hk hdr hpos hmin hd hmode hwi
  obtain ⟨⟨cand, c1, c2, c3⟩, _, _⟩ := C02_smote_exact_count hwf hk hdr hmin h3 hr
  subst c1 c2
  have hle : y.count a ≤ y.count b := by have := hmin.2.2.2; omega
  obtain ⟨m1, m2, q1, q2, q3⟩ := C02_count_monotone hle (show par.proportion ≤ par.proportion * 3 by linarith)
  rw [detN_eq_requested] at q1 q2
  injection q1 with q1
  injection q2 with q2
  subst q1 q2
  dsimp only at c3
  obtain ⟨s, hs, rfl, rfl⟩ := stats_of_isMinority hmin
  obtain ⟨hm, hM, hab⟩ := stats_min_mem hs
  have hxy := hwf.1
  obtain ⟨k1, k2⟩ := hk X.length X le_rfl
  set table := knn X.length X with htd
  set n := requested par.proportion (y.count s.majLabel) (y.count s.minLabel) with hnd
  have hrow : ∀ i l, y[i]? = some l → ∃ ind h m, table[i]? = some ind ∧ msynHitMiss dist X y (X.getD i []) ind = .ok (h, m) ∧
      IsClosest dist X y i (fun l' => l' = l) h ∧ IsClosest dist X y i (fun l' => l' ≠ l) m := by
    intro i l hy
    have hi : i < y.length := (List.getElem?_eq_some_iff.1 hy).1
    have hit : i < table.length := by omega
    obtain ⟨r1, r2⟩ := k2 _ (List.getElem_mem hit)
    obtain ⟨n1, n2, n3⟩ := hnear i _ (List.getElem?_eq_getElem hit)
    set ind := table[i] with hid
    have hperm : ind.Perm (List.range X.length) := by
      refine (List.Nodup.subperm n1 (fun j hj => List.mem_range.2 (r2 j hj))).perm_of_length_le ?_
      rw [List.length_range, r1]
    have hmem : i ∈ ind := hperm.mem_iff.2 (List.mem_range.2 (by omega))
    have hhead : ind.head? = some i := by
      cases hc : ind with
      | nil => rw [hc] at hmem; cases hmem
      | cons j rest =>
        rw [hc] at hmem n2
        rcases List.mem_cons.1 hmem with h | h
        · rw [List.head?_cons, h]
        · exfalso
          have h1 := (List.pairwise_cons.1 n2).1 i h
          rw [hself] at h1
          have hj : j < X.length := r2 j (by rw [hc]; exact List.mem_cons_self)
          have hne : i ≠ j := by
            rintro rfl
            rw [hc] at n1
            exact (List.nodup_cons.1 n1).1 h
          exact absurd h1 (not_le.2 (hdist i j (by omega) hj hne))
    have hl : l = s.minLabel ∨ l = s.majLabel := hmin.2.2.1 l (List.mem_of_getElem? hy)
    have hcnt : 2 < y.count l := by
      rcases hl with rfl | rfl
      · exact h3
      · omega
    obtain ⟨h, m, e1, e2, e3⟩ := msynHitMiss_spec hxy hy hperm hhead n2 (by
      by_contra hc
      push Not at hc
      have : y.count l ≤ 1 := by
        rw [← labelPositions_length' l]
        have hnd' : (labelPositions y l).Nodup := List.nodup_range.sublist List.filter_sublist
        have := (List.Nodup.subperm hnd' (l₂ := [i]) (fun j hj => by
          by_contra hne
          exact hc j (by simpa using hne) (mem_labelPositions.1 hj))).length_le
        simpa using this
      omega) (by
      rcases hl with rfl | rfl
      · obtain ⟨j, hj, e⟩ := List.getElem_of_mem hM
        exact ⟨j, _, by rw [List.getElem?_eq_getElem hj, e], hab.symm⟩
      · obtain ⟨j, hj, e⟩ := List.getElem_of_mem hm
        exact ⟨j, _, by rw [List.getElem?_eq_getElem hj, e], hab⟩)
    exact ⟨ind, h, m, List.getElem?_eq_getElem hit, e1, e2, e3⟩
  obtain ⟨hml, hhm⟩ := mapM_exists_ok (l := X.zip table) (f := fun p => msynHitMiss dist X y p.1 p.2) (by
    intro p hp
    obtain ⟨i, hi, e⟩ := List.getElem_of_mem hp
    rw [List.length_zip] at hi
    rw [List.getElem_zip] at e
    have hiy : i < y.length := by omega
    obtain ⟨ind, h, m, g1, g2, _⟩ := hrow i _ (List.getElem?_eq_getElem hiy)
    rw [List.getElem?_eq_getElem (by omega)] at g1
    injection g1 with g1
    refine ⟨(h, m), ?_⟩
    rw [← e, g1, ← g2, List.getD_eq_getElem?_getD, List.getElem?_eq_getElem (by omega)]
    rfl)
  have hf := mapM_ok_iff.1 hhm
  set f3 := cand.map (msynScore dist X hml (labelPositions y s.minLabel) (labelPositions y s.majLabel)) with hf3
  have hfl : f3.length = cand.length := List.length_map _
  obtain ⟨t1, t2, t3, t4⟩ := smallest_take (f := f3) (n := n)
  set ind := ((List.range f3.length).insertionSort (fun i j => f3.getD i 0 ≤ f3.getD j 0)).take n with hind
  obtain ⟨rows, hrows⟩ := takeRows_ok_of_lt (X := cand) (idx := ind) (by rw [← hfl]; exact t3)
  have hil : ind.length = n := by omega
  refine ⟨cand, ind, rows, fun i => (hml.getD i (0, 0)).1, fun i => (hml.getD i (0, 0)).2, hr, ?_, hil, t2, takeRows_forall hrows, ?_, ?_⟩
  · intro i l hy
    have hi : i < y.length := (List.getElem?_eq_some_iff.1 hy).1
    obtain ⟨ind', h, m, g1, g2, g3, g4⟩ := hrow i l hy
    have hzl : i < (X.zip table).length := by rw [List.length_zip]; omega
    have hh := hf.get hzl (by rw [← hf.length_eq]; exact hzl)
    simp only [List.get_eq_getElem, List.getElem_zip] at hh
    rw [List.getElem?_eq_getElem (by omega)] at g1
    injection g1 with g1
    rw [List.getD_eq_getElem?_getD, List.getElem?_eq_getElem (by omega), Option.getD_some, ← g1, hh] at g2
    injection g2 with g2
    have e : hml.getD i (0, 0) = (h, m) := by
      rw [List.getD_eq_getElem?_getD, List.getElem?_eq_getElem (by rw [← hf.length_eq]; exact hzl), Option.getD_some, g2]
    dsimp only
    rw [e]
    exact ⟨g3, g4⟩
  · intro i hi j hj hnj
    have hi' := t3 i hi
    have := t4 i hi j (by omega) hnj
    have e : ∀ k, k < cand.length → f3.getD k 0 = marginScore dist X y s.minLabel s.majLabel (fun i => (hml.getD i (0, 0)).1)
        (fun i => (hml.getD i (0, 0)).2) (cand.getD k []) := by
      intro k hk
      rw [← msynScore_eq, hf3, List.getD_eq_getElem?_getD, List.getElem?_map, List.getD_eq_getElem?_getD, List.getElem?_eq_getElem hk]
      rfl
    rw [e i (by omega), e j hj] at this
    exact this
  · rw [sample_default hs, if_neg (by omega)]
    unfold msynAlg
    rw [stats_count hs hm, stats_count hs hM, detN_eq_requested, ok_bind, if_neg (by omega), hr, ok_bind]
    dsimp only
    rw [List.drop_left, ← htd, hhm, ok_bind, ← hf3, if_neg (by omega)]
    rw [← hind, hrows, ok_bind, hil]
    rfl

/-- **The score is not negative**, and it is zero for a candidate that is not closer to any majority row than the nearest row of the
other class is. -/
theorem C78_score {dist : Row → Row → ℚ} {X : List Row} {y : List Int} {a b : Int} {hit miss : Nat → ℚ} {z : Row} :
    0 ≤ marginScore dist X y a b hit miss z ∧
    ((∀ i ∈ labelPositions y b, miss i ≤ dist (X.getD i []) z) → marginScore dist X y a b hit miss z = 0) := by
  unfold marginScore
  refine ⟨div_nonneg closerBy_nonneg (add_nonneg closerBy_nonneg (by norm_num)), fun h => ?_⟩
  have : closerBy dist X miss (labelPositions y b) z = 0 := by
    unfold closerBy
    apply List.sum_eq_zero
    intro x hx
    obtain ⟨i, hi, rfl⟩ := List.mem_map.1 hx
    rw [max_eq_left (by linarith [h i hi]), zero_div]
  rw [this, zero_div]

/-! ## Examples -/

def msX : List Row := [[0], [1], [8], [4], [10], [15], [21]]
def msDraws : Draws := { exDraws with choiceU := fun i => if i = 0 then 9 / 10 else 1 / 10 }
def msY : List Int := [1, 1, 1, 0, 0, 0, 0]

example : WF 1 msX msY ∧ IsMinority msY 1 0 ∧ KnnOK bruteKnn ∧ exDraws.OK ∧ (∀ i j, 0 < exDraws.simplexU i j) ∧
    (∀ i ind, (bruteKnn msX.length msX)[i]? = some ind → NearestRows sqDist msX (msX.getD i []) ind) ∧ (∀ x, sqDist x x = 0) ∧
    (∀ i j, i < msX.length → j < msX.length → i ≠ j → 0 < sqDist (msX.getD i []) (msX.getD j [])) ∧ 2 < msY.count 1 ∧
    0 < requested 1 (msY.count 0) (msY.count 1) := by
  refine ⟨⟨by decide, by decide +kernel⟩, ⟨by decide, by decide, by decide, Or.inl (by decide)⟩, bruteKnn_ok, exDraws_ok,
    (by intro i j; simp only [exDraws]; positivity), ?_, sqDist_self, ?_, by decide, by decide +kernel⟩
  rotate_left
  · have h : ∀ i, i < msX.length → ∀ j, j < msX.length → i ≠ j → 0 < sqDist (msX.getD i []) (msX.getD j []) := by decide +kernel
    exact fun i j hi hj => h i hi j hj
  intro i ind h
  have hf := bruteQuery_nearest.2 msX.length msX msX le_rfl
  obtain ⟨hi, e⟩ := List.getElem?_eq_some_iff.1 h
  have hi' : i < msX.length := by rw [(bruteKnn_ok msX.length msX le_rfl).1] at hi; exact hi
  have := hf.get hi' hi
  simp only [List.get_eq_getElem] at this
  rw [List.getD_eq_getElem?_getD, List.getElem?_eq_getElem hi', Option.getD_some, ← e]
  exact this

/-- The first of the three candidates, `[24/5]`, is next to the majority row `[4]`: it is not taken. -/
example : smoteSample { exPar with proportion := 3 } (fun _ => 1) msDraws 1 bruteKnn msX msY =
      .ok (msX ++ [[24 / 5], [2 / 5], [2 / 5]], msY ++ [1, 1, 1]) ∧
    sample defaultChecks 1 (msynAlg exPar sqDist (fun _ => 1) msDraws 1 bruteKnn) msX msY = .ok (msX ++ [[2 / 5]], msY ++ [1]) := by
  decide +kernel

end Verif

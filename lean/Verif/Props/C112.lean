import Verif.Model.Labeling
import Verif.Lemmas.Basic
import Verif.Lemmas.Unique
import Verif.Lemmas.SmoteExample

/-!
# C112: the data of the plots
-/

namespace Verif

/-! ## Specification -/

/-- The chosen coordinates of a row and its label, all rounded to four decimals. -/
def pointOf (coords : List Nat) (r : Row) (l : Int) : Row := coords.map (fun c => round4 (r.getD c 0)) ++ [round4 l]

/-- How often a point occurs in data. -/
def occurrences (coords : List Nat) (X : List Row) (y : List Int) (p : Row) : Nat := (List.zipWith (pointOf coords) X y).count p

/-- The count of a point as it is shown: missing for points that do not occur. -/
def shownCount (n : Nat) : Option Nat := if n = 0 then none else some n

/-! ## Lemmas -/

theorem count_map_injOn {α β : Type} [BEq α] [LawfulBEq α] [BEq β] [LawfulBEq β] {f : α → β} {l : List α} {a : α}
    (h : ∀ x ∈ l, f x = f a → x = a) : (l.map f).count (f a) = l.count a := by
  rw [List.count, List.countP_map, List.count]
  apply List.countP_congr
  intro x hx
  simp only [Function.comp, beq_iff_eq]
  exact ⟨h x hx, fun e => by rw [e]⟩

theorem filter_eq_singleton {α : Type} [DecidableEq α] {l : List α} {a : α} (hnd : l.Nodup) (ha : a ∈ l) : l.filter (fun v => v = a) = [a] := by
  induction l with
  | nil => simp at ha
  | cons b l ih =>
    rw [List.nodup_cons] at hnd
    rw [List.filter_cons]
    by_cases hb : b = a
    · subst hb
      rw [if_pos (by simp)]
      congr 1
      rw [List.filter_eq_nil_iff]
      intro x hx
      simp only [decide_eq_true_eq]
      rintro rfl
      exact hnd.1 hx
    · rw [if_neg (by simpa using hb)]
      exact ih hnd.2 (by simpa [Ne.symm hb] using ha)

theorem unique_filter {κ : Row → Row} {U : List Row} (hinj : ∀ u ∈ U, ∀ v ∈ U, κ u = κ v → u = v) (k : Row) :
    ((npUniqueCounts U).map (fun p => (κ p.1, p.2))).filter (fun p => p.1 = k) =
      if (U.map κ).count k = 0 then [] else [(k, (U.map κ).count k)] := by
  unfold npUniqueCounts
  rw [List.map_map, List.filter_map]
  by_cases hk : k ∈ U.map κ
  · obtain ⟨u, hu, rfl⟩ := List.mem_map.1 hk
    rw [if_neg (by have := List.count_pos_iff.2 hk; omega)]
    have hf : (npUnique U).filter ((fun p => decide (p.1 = κ u)) ∘ (fun p => (κ p.1, p.2)) ∘ fun u => (u, U.count u)) = (npUnique U).filter (fun v => v = u) := by
      apply List.filter_congr
      intro v hv
      simp only [Function.comp]
      apply decide_eq_decide.2
      exact ⟨hinj v (mem_npUnique.1 hv) u hu, fun e => by rw [e]⟩
    have hone : (npUnique U).filter (fun v => v = u) = [u] := filter_eq_singleton (npUnique_nodup U) (mem_npUnique.2 hu)
    rw [count_map_injOn (fun x hx => hinj x hx u hu)]
    exact (congrArg _ (hf.trans hone)).trans (by
      rw [List.map_singleton]
      congr! 1
      simp only [Function.comp]
      congr 1
      congr 1
      exact lawful_beq_subsingleton _ _)
  · rw [if_pos (List.count_eq_zero.2 hk), List.map_eq_nil_iff, List.filter_eq_nil_iff]
    intro v hv
    simp only [Function.comp, decide_eq_true_eq]
    intro e
    exact hk (List.mem_map.2 ⟨v, mem_npUnique.1 hv, e⟩)

/-- The key of a rounded row. -/
def keyOfRow (coords : List Nat) (u : Row) : Row := coords.map (fun c => u.dropLast.getD c 0) ++ [u.getLastD 0]

theorem coordKey_ok {coords : List Nat} {u : Row} {d : Nat} (hu : u.length = d + 1) (hc : ∀ c ∈ coords, c < d) :
    coordKey coords u = .ok (keyOfRow coords u) := by
  unfold coordKey
  rw [mapM_ok_of (g := fun c => u.dropLast.getD c 0)]
  · rfl
  · intro c hc'
    have : c < u.dropLast.length := by rw [List.length_dropLast, hu]; exact hc c hc'
    unfold getRow
    rw [List.getD_eq_getElem?_getD, List.getElem?_eq_getElem this]
    rfl

theorem unified_mem {d : Nat} {X : List Row} {y : List Int} {u : Row} (hX : ∀ r ∈ X, r.length = d) (h : u ∈ unifiedRows X y) : u.length = d + 1 := by
  unfold unifiedRows at h
  rw [← List.map_uncurry_zip_eq_zipWith] at h
  obtain ⟨p, hp, rfl⟩ := List.mem_map.1 h
  simp [Function.uncurry, hX p.1 (List.of_mem_zip hp).1]

theorem keyOfRow_inj {coords : List Nat} {u v : Row} {d : Nat} (hu : u.length = d + 1) (hv : v.length = d + 1) (hc : ∀ j, j < d → j ∈ coords)
    (h : keyOfRow coords u = keyOfRow coords v) : u = v := by
  unfold keyOfRow at h
  obtain ⟨h1, h2⟩ := List.append_inj h (by simp)
  have hu' : u ≠ [] := by rintro rfl; simp at hu
  have hv' : v ≠ [] := by rintro rfl; simp at hv
  rw [← List.dropLast_append_getLast hu', ← List.dropLast_append_getLast hv']
  congr 1
  · apply List.ext_getElem (by simp [hu, hv])
    intro i hi hi'
    have hid : i < d := by rw [List.length_dropLast, hu] at hi; exact hi
    have := (List.map_inj_left.1 h1) i (hc i hid)
    rw [List.getD_eq_getElem?_getD, List.getD_eq_getElem?_getD, List.getElem?_eq_getElem hi, List.getElem?_eq_getElem hi'] at this
    exact this
  · injection h2 with h2
    rw [List.getLastD_eq_getLast?, List.getLastD_eq_getLast?, List.getLast?_eq_getLast_of_ne_nil hu',
      List.getLast?_eq_getLast_of_ne_nil hv'] at h2
    simpa using h2

theorem unified_keys {coords : List Nat} {d : Nat} {X : List Row} {y : List Int} (hX : ∀ r ∈ X, r.length = d) (hc : ∀ c ∈ coords, c < d) :
    (unifiedRows X y).map (keyOfRow coords) = List.zipWith (pointOf coords) X y := by
  unfold unifiedRows
  rw [List.map_zipWith, ← List.map_uncurry_zip_eq_zipWith, ← List.map_uncurry_zip_eq_zipWith]
  apply List.map_congr_left
  rintro ⟨r, l⟩ hrl
  have hr := (List.of_mem_zip hrl).1
  simp only [Function.uncurry]
  unfold keyOfRow pointOf
  rw [List.map_append, List.map_singleton, List.dropLast_concat, List.getLastD_concat]
  congr 1
  apply List.map_congr_left
  intro c hc'
  have : c < r.length := by rw [hX r hr]; exact hc c hc'
  simp [List.getD_eq_getElem?_getD, this]

theorem uniqueData_ok {coords : List Nat} {d : Nat} {X : List Row} {y : List Int} (hX : ∀ r ∈ X, r.length = d) (hc : ∀ c ∈ coords, c < d)
    (hall : ∀ j, j < d → j ∈ coords) : ∃ l, uniqueData coords X y = .ok l ∧
      (∀ k, l.filter (fun p => p.1 = k) = if occurrences coords X y k = 0 then [] else [(k, occurrences coords X y k)]) ∧
      ∀ k, k ∈ l.map Prod.fst ↔ occurrences coords X y k ≠ 0 := by
  refine ⟨(npUniqueCounts (unifiedRows X y)).map (fun p => (keyOfRow coords p.1, p.2)), ?_, ?_, ?_⟩
  · unfold uniqueData
    rw [mapM_ok_of (g := fun p => (keyOfRow coords p.1, p.2))]
    · intro p hp
      obtain ⟨u, hu, rfl⟩ := List.mem_map.1 hp
      rw [coordKey_ok (unified_mem hX (mem_npUnique.1 hu)) hc]
      rfl
  · intro k
    rw [unique_filter (fun u hu v hv => keyOfRow_inj (unified_mem hX hu) (unified_mem hX hv) hall), unified_keys hX hc]
    rfl
  · intro k
    unfold npUniqueCounts
    rw [List.map_map, List.map_map]
    unfold occurrences
    rw [← unified_keys hX hc, ← Nat.pos_iff_ne_zero, List.count_pos_iff, List.mem_map, List.mem_map]
    constructor
    · rintro ⟨u, hu, e⟩; exact ⟨u, mem_npUnique.1 hu, e⟩
    · rintro ⟨u, hu, e⟩; exact ⟨u, mem_npUnique.2 hu, e⟩

theorem rint_near (x : ℚ) : |(rint x : ℚ) - x| ≤ 1 / 2 := by
  have h1 := Int.floor_le x
  have h2 := Int.lt_floor_add_one x
  unfold rint
  rw [abs_le]
  split_ifs <;> push_cast <;> constructor <;> linarith

theorem rint_int (z : Int) : rint (z : ℚ) = z := by
  unfold rint
  rw [if_pos (by rw [Int.floor_intCast]; norm_num), Int.floor_intCast]

/-! ## The properties -/

/-- **Rounded values.** They are multiples of 0.0001 within 0.00005 of the value; multiples of 0.0001 are kept. -/
theorem C112_rounded (x : ℚ) : |round4 x - x| ≤ 1 / 20000 ∧ (∃ z : Int, round4 x = z / 10000) ∧ ∀ z : Int, round4 (z / 10000) = z / 10000 := by
  refine ⟨?_, ⟨_, rfl⟩, ?_⟩
  · have h := rint_near (x * 10000)
    unfold round4
    rw [abs_le] at h ⊢
    constructor <;> linarith [h.1, h.2]
  · intro z
    unfold round4
    rw [div_mul_cancel₀ _ (by norm_num), rint_int]

example : round4 (1 / 3) = 3333 / 10000 ∧ round4 (2 / 3) = 6667 / 10000 := by decide +kernel

/-- **Labelling.** If the coordinates are all columns of the data, the result has one row for every point (rounded to four decimals, with its
label) of the original or the new data, with the numbers of its occurrences. -/
theorem C112_labeling {coords : List Nat} {d : Nat} {X Xs : List Row} {y ys : List Int} (hX : ∀ r ∈ X, r.length = d) (hXs : ∀ r ∈ Xs, r.length = d)
    (hc : ∀ c, c ∈ coords ↔ c < d) : ∃ out, vectorLabeling coords X y Xs ys = .ok out ∧ (out.map (·.key)).Pairwise (· < ·) ∧
      (∀ p, p ∈ out.map (·.key) ↔ occurrences coords X y p ≠ 0 ∨ occurrences coords Xs ys p ≠ 0) ∧
      ∀ o ∈ out, o.countsOld = shownCount (occurrences coords X y o.key) ∧ o.counts = shownCount (occurrences coords Xs ys o.key) := by
  obtain ⟨lo, eo, fo, mo⟩ := uniqueData_ok (y := y) hX (fun c h => (hc c).1 h) (fun j h => (hc j).2 h)
  obtain ⟨ln, en, fn, mn⟩ := uniqueData_ok (y := ys) hXs (fun c h => (hc c).1 h) (fun j h => (hc j).2 h)
  have hmem : ∀ k, k ∈ npUnique (ln.map Prod.fst ++ lo.map Prod.fst) ↔ occurrences coords X y k ≠ 0 ∨ occurrences coords Xs ys k ≠ 0 := by
    intro k
    rw [mem_npUnique, List.mem_append, mo, mn]
    exact or_comm
  have hm : outerMerge ln lo = (npUnique (ln.map Prod.fst ++ lo.map Prod.fst)).map (fun k =>
      (⟨k, shownCount (occurrences coords Xs ys k), shownCount (occurrences coords X y k)⟩ : LabRow)) := by
    unfold outerMerge
    rw [List.map_eq_flatMap (l := npUnique _)]
    apply List.flatMap_congr
    intro k hk
    simp only [fn k, fo k]
    have := (hmem k).1 hk
    by_cases h1 : occurrences coords Xs ys k = 0
    · have h2 : occurrences coords X y k ≠ 0 := by tauto
      simp [h1, h2, shownCount]
    · by_cases h2 : occurrences coords X y k = 0
      · simp [h1, h2, shownCount]
      · simp [h1, h2, shownCount]
  refine ⟨_, by unfold vectorLabeling; rw [eo, ok_bind, en, ok_bind]; rfl, ?_, ?_, ?_⟩
  · rw [hm, List.map_map]
    show ((npUnique _).map id).Pairwise _
    rw [List.map_id]
    exact npUnique_sorted _
  · intro p
    rw [hm, List.map_map]
    show p ∈ (npUnique _).map id ↔ _
    rw [List.map_id]
    exact hmem p
  · intro o ho
    rw [hm] at ho
    obtain ⟨k, _, rfl⟩ := List.mem_map.1 ho
    exact ⟨rfl, rfl⟩

/-- **Flags.** Every row of the result has exactly the flag that its numbers of occurrences ask for. -/
theorem C112_flags {coords : List Nat} {d : Nat} {X Xs : List Row} {y ys : List Int} {out : List LabRow} (hX : ∀ r ∈ X, r.length = d)
    (hXs : ∀ r ∈ Xs, r.length = d) (hc : ∀ c, c ∈ coords ↔ c < d) (h : vectorLabeling coords X y Xs ys = .ok out) {o : LabRow} (ho : o ∈ out) :
    (o.flag = some .untouched ↔ occurrences coords X y o.key = occurrences coords Xs ys o.key) ∧
      (o.flag = some .new ↔ occurrences coords X y o.key = 0) ∧ (o.flag = some .removed ↔ occurrences coords Xs ys o.key = 0) ∧
      (o.flag = some .countChanged ↔ occurrences coords X y o.key ≠ 0 ∧ occurrences coords Xs ys o.key ≠ 0 ∧
        occurrences coords X y o.key ≠ occurrences coords Xs ys o.key) ∧
      (o.originalFlag = true ↔ occurrences coords X y o.key ≠ 0) := by
  obtain ⟨out', h', _, hm, hcnt⟩ := C112_labeling (y := y) (ys := ys) hX hXs hc
  obtain rfl : out' = out := by rw [h] at h'; injection h' with e; exact e.symm
  have hm := (hm o.key).1 (List.mem_map.2 ⟨o, ho, rfl⟩)
  obtain ⟨h1, h2⟩ := hcnt o ho
  unfold LabRow.originalFlag LabRow.flag
  rw [h1, h2]
  generalize occurrences coords X y o.key = a at *
  generalize occurrences coords Xs ys o.key = b at *
  unfold shownCount
  by_cases ha : a = 0 <;> by_cases hb : b = 0
  · omega
  · simp [ha, hb, Ne.symm hb]
  · simp [ha, hb]
  · by_cases hab : a = b
    · simp [hb, hab]
    · simp [ha, hb, hab]

/-- **Nothing is removed.** If the new data continue the original data, no row is flagged as removed, and the occurrences do not decrease. -/
theorem C112_extensive {coords : List Nat} {d : Nat} {X S : List Row} {y s : List Int} {out : List LabRow} (hxy : X.length = y.length)
    (hX : ∀ r ∈ X, r.length = d) (hS : ∀ r ∈ S, r.length = d) (hc : ∀ c, c ∈ coords ↔ c < d)
    (h : vectorLabeling coords X y (X ++ S) (y ++ s) = .ok out) {o : LabRow} (ho : o ∈ out) : o.flag ≠ some .removed ∧
      occurrences coords (X ++ S) (y ++ s) o.key = occurrences coords X y o.key + occurrences coords S s o.key := by
  have hXS : ∀ r ∈ X ++ S, r.length = d := fun r hr => (List.mem_append.1 hr).elim (hX r) (hS r)
  have hocc : occurrences coords (X ++ S) (y ++ s) o.key = occurrences coords X y o.key + occurrences coords S s o.key := by
    unfold occurrences
    rw [List.zipWith_append hxy, List.count_append]
  refine ⟨?_, hocc⟩
  obtain ⟨out', h', _, hm, _⟩ := C112_labeling (y := y) (ys := y ++ s) hX hXS hc
  obtain rfl : out' = out := by rw [h] at h'; injection h' with e; exact e.symm
  have hm := (hm o.key).1 (List.mem_map.2 ⟨o, ho, rfl⟩)
  rw [Ne, (C112_flags hX hXS hc h ho).2.2.1]
  omega

/-- **Repeated points are left out.** A point of both data sets has the flag of resampled data only if its number of occurrences is the same in
both. -/
theorem C112_resampled {coords : List Nat} {d : Nat} {X Xs : List Row} {y ys : List Int} {out : List LabRow} (hX : ∀ r ∈ X, r.length = d)
    (hXs : ∀ r ∈ Xs, r.length = d) (hc : ∀ c, c ∈ coords ↔ c < d) (h : vectorLabeling coords X y Xs ys = .ok out) {o : LabRow} (ho : o ∈ out) :
    o.resampledFlag = true ↔ occurrences coords Xs ys o.key ≠ 0 ∧
      (occurrences coords X y o.key = 0 ∨ occurrences coords X y o.key = occurrences coords Xs ys o.key) := by
  obtain ⟨f1, f2, _, _⟩ := C112_flags hX hXs hc h ho
  obtain ⟨out', h', _, hm, _⟩ := C112_labeling (y := y) (ys := ys) hX hXs hc
  obtain rfl : out' = out := by rw [h] at h'; injection h' with e; exact e.symm
  have hm := (hm o.key).1 (List.mem_map.2 ⟨o, ho, rfl⟩)
  unfold LabRow.resampledFlag
  rw [decide_eq_true_eq, f1, f2]
  omega

/-- Two points, the second of which is repeated, and a new one. -/
def lbX : List Row := [[0, 1], [2, 3]]
/-- Their labels. -/
def lbY : List Int := [0, 1]

example : vectorLabeling [0, 1] lbX lbY (lbX ++ [[2, 3], [1, 1 / 3]]) (lbY ++ [1, 1]) =
    .ok [⟨[0, 1, 0], some 1, some 1⟩, ⟨[1, 3333 / 10000, 1], some 1, none⟩, ⟨[2, 3, 1], some 2, some 1⟩] := by decide +kernel

example : ([⟨[0, 1, 0], some 1, some 1⟩, ⟨[1, 3333 / 10000, 1], some 1, none⟩, ⟨[2, 3, 1], some 2, some 1⟩] : List LabRow).map
    (fun r => (r.flag, r.resampledFlag)) = [(some .untouched, true), (some .new, true), (some .countChanged, false)] := by decide +kernel

example : vectorLabeling [0, 1] lbX lbY [[2, 3]] [1] = .ok [⟨[0, 1, 0], none, some 1⟩, ⟨[2, 3, 1], some 1, some 1⟩] := by decide +kernel

/-- **Projections.** If the coordinates leave out a column, rows that differ in that column only are joined with each other: three rows
that agree in the shown columns, and are left as they are, become four, some of them flagged as changed. -/
theorem C112_projection : ∃ (X : List Row) (y : List Int) (out : List LabRow), X.length = 3 ∧ vectorLabeling [0, 1] X y X y = .ok out ∧
    out.length = 4 ∧ ∃ o ∈ out, o.flag = some .countChanged :=
  ⟨[[0, 0, 1], [0, 0, 2], [0, 0, 2]], [0, 0, 0], [⟨[0, 0, 0], some 1, some 1⟩, ⟨[0, 0, 0], some 1, some 2⟩, ⟨[0, 0, 0], some 2, some 1⟩,
    ⟨[0, 0, 0], some 2, some 2⟩], rfl, by decide +kernel, rfl, ⟨[0, 0, 0], some 1, some 2⟩, by decide +kernel, by decide +kernel⟩

/-- **Rounding.** Data on a scale below 0.00005 collapse: a row that was replaced by another one is shown as untouched. -/
theorem C112_rounding : ∃ (X Xs : List Row) (y : List Int) (out : List LabRow), (∀ r ∈ X, r ∉ Xs) ∧ vectorLabeling [0, 1] X y Xs y = .ok out ∧
    ∀ o ∈ out, o.flag = some .untouched :=
  ⟨[[1 / 100000, 0]], [[2 / 100000, 0]], [1], [⟨[0, 0, 1], some 1, some 1⟩], by decide +kernel, by decide +kernel, by decide +kernel⟩

/-- **Names of two classes.** -/
theorem C112_binary {y : List Int} (hy : ∀ l ∈ y, l = 0 ∨ l = 1) (h0 : 0 ∈ y) (h1 : 1 ∈ y) :
    relabelY y = y.map (fun l => if l = 1 then .minority else .majority) := by
  have hu : npUnique y = [0, 1] := by
    have h : (npUnique y).Perm [0, 1] := by
      rw [List.perm_ext_iff_of_nodup (npUnique_nodup y) (by decide)]
      intro a
      rw [mem_npUnique]
      constructor
      · intro ha; rcases hy a ha with rfl | rfl <;> simp
      · intro ha; simp only [List.mem_cons, List.not_mem_nil, or_false] at ha; rcases ha with rfl | rfl <;> assumption
    exact h.eq_of_pairwise (le := (· < ·)) (fun a b _ _ h1 h2 => absurd h1 (not_lt.2 h2.le)) (npUnique_sorted y) (by decide)
  unfold relabelY
  simp only [hu]
  rw [if_pos (by rfl)]
  apply List.map_congr_left
  intro l hl
  rcases hy l hl with rfl | rfl <;> simp

/-- **Names of several classes.** With more than two classes, two rows have the same name iff they have the same label, and the rows with label 0
are the majority. -/
theorem C112_multiclass {y : List Int} (h : (npUnique y).length ≠ 2) {i j : Nat} (hi : i < y.length) (hj : j < y.length) :
    ((relabelY y)[i]? = (relabelY y)[j]? ↔ y[i] = y[j]) ∧ ((relabelY y)[i]? = some .majority ↔ y[i] = 0) ∧
      (relabelY y)[i]? ≠ some .dummy := by
  unfold relabelY
  simp only [if_neg h, List.getElem?_map, List.getElem?_eq_getElem hi, List.getElem?_eq_getElem hj, Option.map_some, Option.some.injEq]
  have hmi : y[i] ∈ npUnique y := mem_npUnique.2 (List.getElem_mem hi)
  have hmj : y[j] ∈ npUnique y := mem_npUnique.2 (List.getElem_mem hj)
  by_cases h1 : y[i] = 0 <;> by_cases h2 : y[j] = 0
  · simp [h1, h2]
  · simp [h1, h2, hmj, Ne.symm h2]
  · simp [h1, h2, hmi]
  · simp [h1, h2, hmi, hmj, List.idxOf_inj hmi]

/-- **Other names of two classes.** If the two labels are not 0 and 1, the classes cannot be told apart. -/
theorem C112_dummy {y : List Int} (h : (npUnique y).length = 2) (h0 : 0 ∉ y) (h1 : 1 ∉ y) : relabelY y = y.map (fun _ => .dummy) := by
  unfold relabelY
  simp only [if_pos h]
  apply List.map_congr_left
  intro l hl
  rw [if_neg (by rintro rfl; exact h1 hl), if_neg (by rintro rfl; exact h0 hl)]

example : relabelY [0, 1, 1, 0] = [.majority, .minority, .minority, .majority] := by decide +kernel
example : relabelY [0, 1, 2, 0] = [.majority, .minorityNr 1, .minorityNr 2, .majority] := by decide +kernel
example : relabelY [2, 3, 2] = [.dummy, .dummy, .dummy] := by decide +kernel

end Verif

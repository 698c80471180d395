import Verif.Model.Sundo
import Verif.Lemmas.Noise
import Verif.Lemmas.ClassRows
import Verif.Lemmas.Interp
import Verif.Props.C63
import Verif.Props.C66
import Verif.Props.C68
import Verif.Props.C79

/-!
# C80: SUNDO removes both ends of the close pairs

`C80_sundo`: the rows generated and the rows removed. `C80_count`: the number `N`. `C80_reversed`: the majority class may end with fewer
rows than the minority class, as both rows of a close pair are removed.
-/

namespace Verif

/-- A matrix of distances of `n` rows. -/
structure IsDistMatrix (n : Nat) (D : List (List ℚ)) : Prop where
  rows : D.length = n
  cols : ∀ r ∈ D, r.length = n
  diag : ∀ i, i < n → (D.getD i []).getD i 0 = 0
  nonneg : ∀ r ∈ D, ∀ v ∈ r, 0 ≤ v
  symm : ∀ i, i < n → ∀ j, j < n → (D.getD i []).getD j 0 = (D.getD j []).getD i 0

/-- `v` is the entry at position `k` of the sorted list. -/
def IsRank (l : List ℚ) (k : Nat) (v : ℚ) : Prop := v ∈ l ∧ l.countP (fun x => decide (x < v)) ≤ k ∧ k < l.countP (fun x => decide (x ≤ v))

/-- Row `i` has another row closer than `thr`. -/
def HasClose (n : Nat) (D : List (List ℚ)) (thr : ℚ) (i : Nat) : Prop := ∃ j, j < n ∧ j ≠ i ∧ (D.getD i []).getD j 0 < thr

/-- The number of rows SUNDO generates, by the difference of the sizes of the classes. -/
def sundoCount (diff : Nat) : Nat := if diff % 2 = 1 then (diff + 1) / 2 else if diff % 4 = 0 then diff / 2 else diff / 2 + 1

theorem IsMinority.ne {y : List Int} {a b : Int} (h : IsMinority y a b) : a ≠ b := by
  rintro rfl
  rcases h.2.2.2 with h | h
  · omega
  · exact absurd h.2 (lt_irrefl _)

theorem sundo_rint (n0 n1 : Nat) (h : n1 ≤ n0) :
    rint (1 / 2 * (n0 : ℚ) - 1 / 2 * (n1 : ℚ) + 1 / 2) = (sundoCount (n0 - n1) : Nat) := by
  obtain ⟨k, rfl⟩ := Nat.exists_eq_add_of_le h
  have e : (1 / 2 * ((n1 + k : Nat) : ℚ) - 1 / 2 * (n1 : ℚ) + 1 / 2) = ((k : ℚ) + 1) / 2 := by push_cast; ring
  rw [e, Nat.add_sub_cancel_left]
  unfold sundoCount rint
  rcases Nat.even_or_odd' k with ⟨m, rfl | rfl⟩
  · have hfl : ⌊(((2 * m : Nat) : ℚ) + 1) / 2⌋ = (m : Int) := by
      rw [Int.floor_eq_iff]; push_cast; constructor <;> linarith
    rw [hfl]
    have : (((2 * m : Nat) : ℚ) + 1) / 2 - ((m : Int) : ℚ) = 1 / 2 := by push_cast; ring
    rw [this, if_neg (lt_irrefl _), if_neg (lt_irrefl _), if_neg (by omega : ¬ 2 * m % 2 = 1)]
    by_cases hm : m % 2 = 0
    · rw [if_pos (by omega), if_pos (by omega)]; omega
    · rw [if_neg (by omega), if_neg (by omega)]; omega
  · have hfl : ⌊(((2 * m + 1 : Nat) : ℚ) + 1) / 2⌋ = (m + 1 : Int) := by
      rw [Int.floor_eq_iff]; push_cast; constructor <;> linarith
    rw [hfl]
    have : (((2 * m + 1 : Nat) : ℚ) + 1) / 2 - ((m + 1 : Int) : ℚ) = 0 := by push_cast; ring
    rw [this, if_pos (by norm_num), if_pos (by omega)]
    omega

theorem sorted_rank {l : List ℚ} {k : Nat} (hk : k < l.length) :
    ∃ v, (l.insertionSort (· ≤ ·))[k]? = some v ∧ IsRank l k v := by
  have hp := List.perm_insertionSort (· ≤ ·) l
  have hs := List.pairwise_insertionSort (· ≤ ·) l
  set S := l.insertionSort (· ≤ ·) with hS
  have hkS : k < S.length := by rw [hp.length_eq]; exact hk
  have hle : ∀ i j (hi : i < S.length) (hj : j < S.length), i ≤ j → S[i] ≤ S[j] := by
    intro i j hi hj hij
    rcases Nat.lt_or_eq_of_le hij with h | rfl
    · exact List.pairwise_iff_getElem.1 hs i j hi hj h
    · exact le_refl _
  obtain ⟨v, hv⟩ : ∃ v, v = S[k] := ⟨_, rfl⟩
  refine ⟨v, by rw [hv]; exact List.getElem?_eq_getElem hkS, hv ▸ hp.subset (List.getElem_mem hkS), ?_, ?_⟩
  · have h0 : (S.drop k).countP (fun x => decide (x < v)) = 0 := by
      rw [List.countP_eq_zero]
      intro x hx
      obtain ⟨i, hi, rfl⟩ := List.getElem_of_mem hx
      rw [List.length_drop] at hi
      rw [List.getElem_drop]
      have := hle k (k + i) hkS (by omega) (by omega)
      rw [← hv] at this
      simpa using this
    have h1 : (S.take k).countP (fun x => decide (x < v)) ≤ (S.take k).length := List.countP_le_length
    rw [List.length_take] at h1
    rw [← hp.countP_eq, ← List.take_append_drop k S, List.countP_append, h0]
    omega
  · have h1 : (S.take (k + 1)).countP (fun x => decide (x ≤ v)) = (S.take (k + 1)).length := by
      rw [List.countP_eq_length]
      intro x hx
      obtain ⟨i, hi, rfl⟩ := List.getElem_of_mem hx
      rw [List.length_take] at hi
      rw [List.getElem_take]
      have := hle i k (by omega) hkS (by omega)
      rw [← hv] at this
      simpa using this
    rw [← hp.countP_eq, ← List.take_append_drop (k + 1) S, List.countP_append, h1, List.length_take]
    omega

theorem countP_positions {l : List ℚ} {p : ℚ → Bool} : l.countP p = ((List.range l.length).filter (fun i => p (l.getD i 0))).length := by
  have : l = (List.range l.length).map (fun i => l.getD i 0) := by
    apply List.ext_getElem
    · simp
    · intro i h1 h2; simp [List.getD_eq_getElem?_getD, List.getElem?_eq_getElem h1]
  conv_lhs => rw [this]
  rw [List.countP_map, List.countP_eq_length_filter]
  rfl

theorem two_le_countP {l : List ℚ} {p : ℚ → Bool} {i j : Nat} (hi : i < l.length) (hj : j < l.length) (hij : i ≠ j)
    (h1 : p (l.getD i 0) = true) (h2 : p (l.getD j 0) = true) : 2 ≤ l.countP p := by
  rw [countP_positions]
  have : [i, j] ⊆ (List.range l.length).filter (fun i => p (l.getD i 0)) := by
    intro k hk
    rw [List.mem_filter, List.mem_range]
    rcases List.mem_cons.1 hk with rfl | hk
    · exact ⟨hi, h1⟩
    · obtain rfl := List.mem_singleton.1 hk
      exact ⟨hj, h2⟩
  exact (List.subperm_of_subset (by simp [hij]) this).length_le

theorem one_le_countP {l : List ℚ} {p : ℚ → Bool} {i : Nat} (hi : i < l.length) (h1 : p (l.getD i 0) = true) : 1 ≤ l.countP p := by
  rw [Nat.one_le_iff_ne_zero, ← Nat.pos_iff_ne_zero, List.countP_pos_iff]
  refine ⟨l[i], List.getElem_mem hi, ?_⟩
  rwa [List.getD_eq_getElem?_getD, List.getElem?_eq_getElem hi] at h1

/-- The removed rows: exactly those with a close row, at most `2 N` of them. -/
theorem sundoRemoval_spec {n N : Nat} {D : List (List ℚ)} (hn : 0 < n) (hD : IsDistMatrix n D) :
    ∃ rem thr, sundoRemoval D N = .ok rem ∧ IsRank D.flatten (min (n + 2 * N) (n ^ 2 - 1)) thr ∧ rem.Nodup ∧
      (∀ i, i ∈ rem ↔ i < n ∧ HasClose n D thr i) ∧ rem.length ≤ 2 * N := by
  have hfl : D.flatten.length = n ^ 2 := by
    rw [List.length_flatten]
    have : D.map List.length = List.replicate n n := by
      rw [List.eq_replicate_iff]
      refine ⟨by rw [List.length_map, hD.rows], ?_⟩
      intro k hk
      obtain ⟨r, hr, rfl⟩ := List.mem_map.1 hk
      exact hD.cols r hr
    rw [this]; simp [pow_two]
  have hpos : 0 < n ^ 2 := by positivity
  obtain ⟨thr, h1, h2⟩ := sorted_rank (l := D.flatten) (k := min (n + 2 * N) (n ^ 2 - 1)) (by rw [hfl]; omega)
  obtain ⟨rem, hrem⟩ : ∃ rem, rem = ((((List.range n).flatMap (fun i =>
    ((List.range n).filter (fun j => decide (i ≠ j ∧ (D.getD i []).getD j 0 < thr))).map (fun j => (i, j)))).map
      Prod.fst).insertionSort (· ≤ ·)).dedup := ⟨_, rfl⟩
  have hmem : ∀ i, i ∈ rem ↔ i < n ∧ HasClose n D thr i := by
    intro i
    rw [hrem, List.mem_dedup, (List.perm_insertionSort _ _).mem_iff]
    simp only [List.mem_map, List.mem_flatMap, List.mem_range, List.mem_filter, decide_eq_true_eq]
    constructor
    · rintro ⟨p, ⟨a, ha, j, ⟨hj, hne, hlt⟩, rfl⟩, rfl⟩
      exact ⟨ha, j, hj, Ne.symm hne, hlt⟩
    · rintro ⟨hi, j, hj, hne, hlt⟩
      exact ⟨(i, j), ⟨i, hi, j, ⟨hj, Ne.symm hne, hlt⟩, rfl⟩, rfl⟩
  have hnd : rem.Nodup := hrem ▸ List.nodup_dedup _
  refine ⟨rem, thr, ?_, h2, hnd, hmem, ?_⟩
  · unfold sundoRemoval
    dsimp only
    rw [hD.rows, getRow_ok.2 h1, ok_bind, hrem]
    rfl
  · clear hrem
    have hrow : ∀ i, i < n → D.getD i [] ∈ D ∧ (D.getD i []).length = n := by
      intro i hi
      have hi' : i < D.length := by rw [hD.rows]; exact hi
      have : D.getD i [] = D[i] := by rw [List.getD_eq_getElem?_getD, List.getElem?_eq_getElem hi']; rfl
      rw [this]
      exact ⟨List.getElem_mem hi', hD.cols _ (List.getElem_mem hi')⟩
    by_cases ht : thr ≤ 0
    · have : rem = [] := by
        rw [List.eq_nil_iff_forall_not_mem]
        intro i hi
        obtain ⟨hi, j, hj, _, hlt⟩ := (hmem i).1 hi
        obtain ⟨r1, r2⟩ := hrow i hi
        have hv : (D.getD i []).getD j 0 ∈ D.getD i [] := by
          rw [List.getD_eq_getElem?_getD (l := D.getD i []), List.getElem?_eq_getElem (by rw [r2]; exact hj)]
          exact List.getElem_mem _
        have := hD.nonneg _ r1 _ hv
        linarith
      rw [this]; simp
    · rw [not_le] at ht
      have hc : ∀ i ∈ List.range n, 1 + (if i ∈ rem then 1 else 0) ≤ (D.getD i []).countP (fun x => decide (x < thr)) := by
        intro i hi
        rw [List.mem_range] at hi
        obtain ⟨r1, r2⟩ := hrow i hi
        have hd : decide ((D.getD i []).getD i 0 < thr) = true := by rw [hD.diag i hi]; simpa using ht
        split
        · rename_i hm
          obtain ⟨_, j, hj, hne, hlt⟩ := (hmem i).1 hm
          exact two_le_countP (by omega) (by omega) (Ne.symm hne) hd (by simpa using hlt)
        · exact one_le_countP (by omega) hd
      have hsum := List.sum_le_sum hc
      have hDm : D = (List.range n).map (fun i => D.getD i []) := by
        apply List.ext_getElem
        · rw [List.length_map, List.length_range, hD.rows]
        · intro i h1 h2; simp [List.getD_eq_getElem?_getD, List.getElem?_eq_getElem h1]
      have htot : ((List.range n).map (fun i => (D.getD i []).countP (fun x => decide (x < thr)))).sum =
          D.flatten.countP (fun x => decide (x < thr)) := by
        rw [List.countP_flatten]
        conv_rhs => rw [hDm]
        rw [List.map_map]
        rfl
      have hind : ((List.range n).map (fun i => 1 + (if i ∈ rem then 1 else 0))).sum =
          n + ((List.range n).filter (fun i => decide (i ∈ rem))).length := by
        rw [List.sum_map_add, ← List.countP_eq_length_filter]
        congr 1
        · simp
        · induction (List.range n) with
          | nil => rfl
          | cons a l ih =>
            rw [List.map_cons, List.sum_cons, ih, List.countP_cons]
            by_cases h : a ∈ rem <;> simp [h, Nat.add_comm]
      have hle : rem.length ≤ ((List.range n).filter (fun i => decide (i ∈ rem))).length := by
        refine (List.subperm_of_subset hnd ?_).length_le
        intro i hi
        rw [List.mem_filter, List.mem_range]
        exact ⟨((hmem i).1 hi).1, by simpa using hi⟩
      have := h2.2.1
      rw [htot, hind] at hsum
      omega

/-- The distance to the nearest majority row. -/
def ToNearest (dst : Row → Row → ℚ) (B : List Row) (f : Row → ℚ) : Prop :=
  ∀ z, (∃ m ∈ B, f z = dst z m) ∧ ∀ m ∈ B, f z ≤ dst z m

/-- A row generated by SUNDO: a minority row plus a multiple of the standard deviation in each attribute; of three trials none is farther
from the majority class. -/
def SundoOrigin (d : Nat) (std : Row) (dst : Row → Row → ℚ) (A B : List Row) (z : Row) : Prop :=
  z.length = d ∧ ∃ base ∈ A, ∃ trials : List Row, trials.length = 3 ∧ z ∈ trials ∧
    (∀ u ∈ trials, ∃ g : Nat → ℚ, ∀ j, j < d → u.getD j 0 = base.getD j 0 + g j * std.getD j 0) ∧
    ∀ u ∈ trials, ∃ m ∈ B, ∀ m' ∈ B, dst u m ≤ dst z m'

theorem sundoRow_spec {d : Nat} {std : Row} {toMaj : Row → ℚ} {bases : Nat → Nat → Nat} {normal : Nat → Nat → Nat → ℚ} {A B : List Row}
    {dst : Row → Row → ℚ} (hA : ∀ r ∈ A, r.length = d) (hne : A ≠ []) (hstd : std.length = d) (hb : ∀ t m, 0 < m → bases t m < m)
    (hto : ToNearest dst B toMaj) (t : Nat) : ∃ z, sundoRow d std toMaj bases normal A t = .ok z ∧ SundoOrigin d std dst A B z := by
  have hlt := hb t A.length (List.length_pos_iff.2 hne)
  unfold sundoRow
  rw [getRow_ok.2 (List.getElem?_eq_getElem hlt), ok_bind]
  set base := A[bases t A.length] with hbase
  have hbm : base ∈ A := List.getElem_mem hlt
  have hbl := hA _ hbm
  dsimp only
  set trials := (List.range 3).map (fun k => Row.add base (List.zipWith (· * ·) ((List.range d).map (normal t k)) std)) with htr
  have h3 : trials.length = 3 := by simp [htr]
  obtain ⟨i, x, f1, f2, f3⟩ := firstMax_spec (l := trials.map toMaj) (by intro h; have := congrArg List.length h; simp [h3] at this)
  have hi : i < trials.length := by
    have := (List.getElem?_eq_some_iff.1 f2).1
    rwa [List.length_map] at this
  rw [f1, ok_bind]
  refine ⟨trials[i], getRow_ok.2 (List.getElem?_eq_getElem hi), ?_, base, hbm, trials, h3, List.getElem_mem hi, ?_, ?_⟩
  · simp only [htr, List.getElem_map, Row.add, List.length_zipWith, List.length_map, List.length_range]
    omega
  · intro u hu
    obtain ⟨k, _, rfl⟩ := List.mem_map.1 hu
    refine ⟨normal t k, fun j hj => ?_⟩
    unfold Row.add
    rw [List.getD_eq_getElem?_getD, List.getElem?_eq_getElem (by simp; omega)]
    simp only [List.getElem_zipWith, List.getElem_map, List.getElem_range, Option.getD_some]
    rw [List.getD_eq_getElem?_getD, List.getElem?_eq_getElem (by omega), List.getD_eq_getElem?_getD, List.getElem?_eq_getElem (by omega)]
    rfl
  · intro u hu
    have hx : x = toMaj trials[i] := by
      rw [List.getElem?_map, List.getElem?_eq_getElem hi] at f2
      injection f2 with f2
      exact f2.symm
    obtain ⟨m, hm, e⟩ := (hto u).1
    refine ⟨m, hm, fun m' hm' => ?_⟩
    rw [← e]
    exact (f3 _ (List.mem_map_of_mem hu)).trans (hx ▸ (hto _).2 m' hm')

/-- **SUNDO.** With `N` the number of rows to generate: `N` new minority rows, and exactly the majority rows with another one closer than
the threshold are gone; these are at most `2 N`. -/
theorem C80_sundo {d : Nat} {std : List Row → Row} {toMaj : List Row → Row → ℚ} {distm : List Row → List (List ℚ)} {bases : Nat → Nat → Nat}
    {normal : Nat → Nat → Nat → ℚ} {dst : Row → Row → ℚ} {X : List Row} {y : List Int} {a b : Int} (hwf : WF d X y) (hmin : IsMinority y a b)
    (h3 : 2 < y.count a) (hstd : (std (classRows X y a)).length = d) (hb : ∀ t m, 0 < m → bases t m < m)
    (hto : ToNearest dst (classRows X y b) (toMaj (classRows X y b))) (hD : IsDistMatrix (y.count b) (distm (classRows X y b)))
    (hN : sundoCount (y.count b - y.count a) ≠ 0) :
    ∃ samples pos cleaned thr,
      sample defaultChecks d (sundoAlg d std toMaj distm bases normal) X y = .ok (classRows X y a ++ samples ++ cleaned,
        List.replicate (y.count a + sundoCount (y.count b - y.count a)) a ++ List.replicate cleaned.length b) ∧
      samples.length = sundoCount (y.count b - y.count a) ∧
      (∀ z ∈ samples, SundoOrigin d (std (classRows X y a)) dst (classRows X y a) (classRows X y b) z) ∧
      IsRank (distm (classRows X y b)).flatten (min (y.count b + 2 * sundoCount (y.count b - y.count a)) (y.count b ^ 2 - 1)) thr ∧
      List.Forall₂ (fun i r => (classRows X y b)[i]? = some r) pos cleaned ∧ pos.Pairwise (· < ·) ∧
      (∀ i, i ∈ pos ↔ i < y.count b ∧ ¬ HasClose (y.count b) (distm (classRows X y b)) thr i) ∧
      y.count b ≤ cleaned.length + 2 * sundoCount (y.count b - y.count a) := by
  have hab : y.count a ≤ y.count b := by have := hmin.2.2.2; omega
  have hsplit := length_two_labels hmin.ne hmin.2.2.1
  obtain ⟨s, hs, rfl, rfl⟩ := stats_of_isMinority hmin
  have hA : (classRows X y s.minLabel).length = y.count s.minLabel := classRows_length hwf.1 _
  have hB : (classRows X y s.majLabel).length = y.count s.majLabel := classRows_length hwf.1 _
  set A := classRows X y s.minLabel with hAd
  set B := classRows X y s.majLabel with hBd
  have hxy := hwf.1
  have hlen : ∀ r ∈ A, r.length = d := fun r hr => hwf.2 r (mem_of_mem_classRows hr)
  have hAne : A ≠ [] := by intro h; rw [h, List.length_nil] at hA; omega
  have hspec := fun t => sundoRow_spec (normal := normal) (B := B) hlen hAne hstd hb hto t
  set N := sundoCount (y.count s.majLabel - y.count s.minLabel) with hNd
  obtain ⟨samples, hsam⟩ := mapM_exists_ok (l := List.range N)
    (f := sundoRow d (std A) (toMaj B) bases normal A) (fun i _ => (hspec i).imp (fun _ h => h.1))
  have hf := mapM_ok_iff.1 hsam
  have hsl : samples.length = N := by rw [← hf.length_eq, List.length_range]
  obtain ⟨rem, thr, r1, r2, r3, r4, r5⟩ := sundoRemoval_spec (N := N) (by omega) hD
  have hcl := npDelete_forall B rem
  rw [hB] at hcl
  refine ⟨samples, kept (y.count s.majLabel) rem, npDelete B rem, thr, ?_, hsl, ?_, r2, hcl, ?_, ?_, ?_⟩
  · rw [sample_default hs, if_neg (by omega)]
    unfold sundoAlg
    simp only [selectLabel_eq_classRows, ← hAd, ← hBd]
    have hn0 : X.length - A.length = y.count s.majLabel := by omega
    rw [hn0, hA, sundo_rint _ _ hab, ← hNd]
    rw [if_neg (by exact_mod_cast hN), if_neg (by omega), Int.toNat_natCast]
    rw [hsam, ok_bind, r1, ok_bind]
    simp only [List.length_append, hA, hsl]
    rfl
  · intro z hz
    obtain ⟨i, _, hi⟩ := forall₂_mem_right hf hz
    obtain ⟨z', e, h⟩ := hspec i
    rw [hi] at e
    injection e with e
    rw [e]; exact h
  · exact List.Pairwise.filter _ List.pairwise_lt_range
  · intro i
    rw [mem_kept, r4]
    constructor
    · rintro ⟨h1, h2⟩; exact ⟨h1, fun h => h2 ⟨h1, h⟩⟩
    · rintro ⟨h1, h2⟩; exact ⟨h1, fun h => h2 h.2⟩
  · rw [← hcl.length_eq]
    have hk : (kept (y.count s.majLabel) rem).length + ((List.range (y.count s.majLabel)).filter (fun i => rem.contains i)).length =
        y.count s.majLabel := by
      have := List.length_eq_length_filter_add (l := List.range (y.count s.majLabel)) (fun i => rem.contains i)
      rw [List.length_range] at this
      unfold kept
      omega
    have : ((List.range (y.count s.majLabel)).filter (fun i => rem.contains i)).length ≤ rem.length := by
      refine (List.subperm_of_subset (List.nodup_range.filter _) ?_).length_le
      intro i hi
      simpa using (List.mem_filter.1 hi).2
    omega

/-- **Nothing to do**: the input comes back when the classes are of the same size. -/
theorem C80_none {d : Nat} {std : List Row → Row} {toMaj : List Row → Row → ℚ} {distm : List Row → List (List ℚ)} {bases : Nat → Nat → Nat}
    {normal : Nat → Nat → Nat → ℚ} {X : List Row} {y : List Int} {a b : Int} (hwf : WF d X y) (hmin : IsMinority y a b)
    (h3 : 2 < y.count a) (hN : y.count b = y.count a) :
    sample defaultChecks d (sundoAlg d std toMaj distm bases normal) X y = .ok (X, y) := by
  have hlen := length_two_labels hmin.ne hmin.2.2.1
  obtain ⟨s, hs, rfl, rfl⟩ := stats_of_isMinority hmin
  have hA : (classRows X y s.minLabel).length = y.count s.minLabel := classRows_length hwf.1 _
  have hxy := hwf.1
  rw [sample_default hs, if_neg (by omega)]
  unfold sundoAlg
  simp only [selectLabel_eq_classRows]
  rw [hA, show X.length - y.count s.minLabel = y.count s.majLabel by omega, sundo_rint _ _ (by omega), hN, Nat.sub_self]
  rfl

/-- **The number of rows**: half the difference of the sizes, plus a half when the difference is odd, plus one when half the difference
is odd. Zero exactly for classes of the same size. -/
theorem C80_count (k : Nat) : sundoCount (2 * k + 1) = k + 1 ∧ sundoCount (4 * k) = 2 * k ∧ sundoCount (4 * k + 2) = 2 * k + 2 := by
  unfold sundoCount
  refine ⟨?_, ?_, ?_⟩
  · rw [if_pos (by omega)]; omega
  · rw [if_neg (by omega), if_pos (by omega)]; omega
  · rw [if_neg (by omega), if_neg (by omega)]; omega

/-- **Both rows of a close pair are removed.** -/
theorem C80_both {n : Nat} {D : List (List ℚ)} {thr : ℚ} (hD : IsDistMatrix n D) {i j : Nat} (hi : i < n) (hj : j < n) (hij : i ≠ j)
    (h : (D.getD i []).getD j 0 < thr) : HasClose n D thr i ∧ HasClose n D thr j :=
  ⟨⟨j, hj, Ne.symm hij, h⟩, ⟨i, hi, hij, by rw [hD.symm j hj i hi]; exact h⟩⟩

/-! ## Examples -/

/-- Three minority rows, seven majority rows among them two close pairs. -/
def suX : List Row := [[0], [1], [2], [100], [101], [150], [152], [200], [240], [300]]
def suY : List Int := [1, 1, 1, 0, 0, 0, 0, 0, 0, 0]

def suDist (B : List Row) : List (List ℚ) := B.map (fun r => B.map (fun q => |r.getD 0 0 - q.getD 0 0|))

/-- **The classes may be reversed**: two rows are to be generated and two to be removed (5 and 5), but four are removed, so that the
minority class has five rows and the majority class three. -/
theorem C80_reversed : ∃ X', sample defaultChecks 1 (sundoAlg 1 (fun _ => [1]) (fun B z => minL (B.map (fun r => |r.getD 0 0 - z.getD 0 0|)))
      suDist (fun t _ => t) (fun _ k _ => k)) suX suY = .ok (X', [1, 1, 1, 1, 1, 0, 0, 0]) := by
  refine ⟨[[0], [1], [2], [0], [1], [200], [240], [300]], ?_⟩
  decide +kernel

example : WF 1 suX suY ∧ IsMinority suY 1 0 ∧ 2 < suY.count 1 ∧ sundoCount (suY.count 0 - suY.count 1) ≠ 0 ∧
    IsDistMatrix (suY.count 0) (suDist (classRows suX suY 0)) := by
  refine ⟨⟨by decide, by decide +kernel⟩, ⟨by decide, by decide, by decide, Or.inl (by decide)⟩, by decide, by decide, by decide +kernel,
    by decide +kernel, by decide +kernel, by decide +kernel, by decide +kernel⟩

example : ToNearest (fun z m => |m.getD 0 0 - z.getD 0 0|) (classRows suX suY 0)
    (fun z => minL ((classRows suX suY 0).map (fun r => |r.getD 0 0 - z.getD 0 0|))) := by
  intro z
  obtain ⟨h1, h2⟩ := minL_spec (l := (classRows suX suY 0).map (fun r => |r.getD 0 0 - z.getD 0 0|))
    (by have : classRows suX suY 0 ≠ [] := by decide +kernel
        simpa using this)
  obtain ⟨m, hm, e⟩ := List.mem_map.1 h1
  exact ⟨⟨m, hm, e.symm⟩, fun m' hm' => h2 _ (List.mem_map_of_mem hm')⟩

end Verif

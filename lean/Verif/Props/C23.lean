import Mathlib.Data.List.Lex
import Verif.Lemmas.Folding

/-!
# C23 Fold descriptors identify folds
-/

namespace Verif

/-- A consumer that reads each descriptor when its fold is yielded sees `repeats * splits` folds, numbered in order,
whose (repeat, fold) pairs are pairwise distinct and cover the grid; fold `i` is made of the rows and labels at the
positions of the `i`-th split. -/
theorem C23_descriptors {data : List Row} {target : List Int} {nRepeats nSplits : Nat} (hs : 1 ≤ nSplits) {cell : Desc}
    {sps : List (List Nat × List Nat)} (hlen : sps.length = nRepeats * nSplits) {l : List (Desc × FoldItem)}
    (h : foldSnapshots data target nSplits cell sps = .ok l) :
    l.length = nRepeats * nSplits ∧
    (l.map (fun p => p.1.splitIdx)) = List.range (nRepeats * nSplits) ∧
    (l.map (fun p => (p.1.repeatIdx, p.1.foldIdx))).Nodup ∧
    (∀ a b, (a, b) ∈ l.map (fun p => (p.1.repeatIdx, p.1.foldIdx)) ↔ a < nRepeats ∧ b < nSplits) ∧
    List.Forall₂ (fun sp (p : Desc × FoldItem) =>
      List.Forall₂ (fun i r => data[i]? = some r) sp.1 p.2.xTrain ∧
      List.Forall₂ (fun i r => target[i]? = some r) sp.1 p.2.yTrain ∧
      List.Forall₂ (fun i r => data[i]? = some r) sp.2 p.2.xTest ∧
      List.Forall₂ (fun i r => target[i]? = some r) sp.2 p.2.yTest) sps l := by
  obtain ⟨items, hm, rfl⟩ := foldSnapshots_ok h
  have hil := mapM_ok_length hm
  have hfst : ((List.range sps.length).zip items).map Prod.fst = List.range sps.length :=
    List.map_fst_zip (by simp [hil])
  have hsnd : ((List.range sps.length).zip items).map Prod.snd = items :=
    List.map_snd_zip (by simp [hil])
  have hpairs : (((List.range sps.length).zip items).map (fun p => (descOf nSplits p.1, p.2))).map
      (fun p => (p.1.repeatIdx, p.1.foldIdx)) = (List.range sps.length).map (fun i => (i / nSplits, i % nSplits)) := by
    rw [List.map_map]
    conv_rhs => rw [← hfst, List.map_map]
    apply List.map_congr_left
    intro p _
    simp only [Function.comp_apply, descOf_fold]
    rfl
  refine ⟨by simp [hil, hlen], ?_, ?_, ?_, ?_⟩
  · rw [List.map_map, ← hlen]
    conv_rhs => rw [← hfst]
    apply List.map_congr_left
    intro p _
    rfl
  · rw [hpairs]
    apply List.Nodup.map_on _ List.nodup_range
    intro i _ j _ e
    simp only [Prod.mk.injEq] at e
    rw [← Nat.div_add_mod i nSplits, ← Nat.div_add_mod j nSplits, e.1, e.2]
  · intro a b
    rw [hpairs]
    simp only [List.mem_map, List.mem_range, Prod.mk.injEq, hlen]
    constructor
    · rintro ⟨i, hi, rfl, rfl⟩
      exact ⟨Nat.div_lt_of_lt_mul (by rw [Nat.mul_comm]; exact hi), Nat.mod_lt _ hs⟩
    · rintro ⟨ha, hb⟩
      refine ⟨a * nSplits + b, ?_, ?_, ?_⟩
      · calc a * nSplits + b < a * nSplits + nSplits := by omega
          _ = (a + 1) * nSplits := by ring
          _ ≤ nRepeats * nSplits := Nat.mul_le_mul_right _ ha
      · rw [Nat.add_comm, Nat.add_mul_div_right _ _ hs, Nat.div_eq_of_lt hb, Nat.zero_add]
      · rw [Nat.add_comm, Nat.add_mul_mod_self_right, Nat.mod_eq_of_lt hb]
  · have h2 : List.Forall₂ (fun sp (item : FoldItem) => foldItem data target sp = .ok item) sps items :=
      mapM_ok_iff.1 hm
    have h3 : List.Forall₂ (fun sp (item : FoldItem) => foldItem data target sp = .ok item) sps
        (((List.range sps.length).zip items).map Prod.snd) := by rw [hsnd]; exact h2
    rw [List.forall₂_map_right_iff] at h3 ⊢
    refine h3.imp ?_
    intro sp p hp
    unfold foldItem at hp
    simp only [bind_ok] at hp
    obtain ⟨a, ha, b, hb, c, hc, d, hd, e⟩ := hp
    injection e with e
    dsimp only
    rw [← e]
    have conv : ∀ {α : Type} {X : List α} {idx : List Nat} {r : List α}, takeRows X idx = .ok r →
        List.Forall₂ (fun i r => X[i]? = some r) idx r := by
      intro α X idx r hr
      exact (mapM_ok_iff.1 hr).imp (fun i r h => getRow_ok.1 h)
    exact ⟨conv ha, conv hb, conv hc, conv hd⟩

/-- Keeping the yielded items and reading the descriptors afterwards gives the same (last) descriptor for all of
them. -/
theorem C23_list_shares_descriptor {data : List Row} {target : List Int} {nSplits : Nat} {cell : Desc}
    {sps : List (List Nat × List Nat)} {l : List (Desc × FoldItem)}
    (h : foldList data target nSplits cell sps = .ok l) :
    ∀ p ∈ l, p.1.splitIdx = sps.length - 1 := by
  obtain ⟨items, hm, rfl⟩ := foldList_ok h
  intro p hp
  obtain ⟨item, hi, rfl⟩ := List.mem_map.1 hp
  have : sps ≠ [] := by
    rintro rfl
    have := mapM_ok_length hm
    simp at this
    subst this
    simp at hi
  rw [if_neg this]
  rfl

/-- Hence "the descriptors of a collected list are pairwise distinct" is false as soon as there are two folds. -/
theorem C23_list_descriptors_not_distinct {data : List Row} {target : List Int} {nSplits : Nat} {cell : Desc}
    {sps : List (List Nat × List Nat)} (h2 : 2 ≤ sps.length) {l : List (Desc × FoldItem)}
    (h : foldList data target nSplits cell sps = .ok l) : ¬ (l.map Prod.fst).Nodup := by
  obtain ⟨items, hm, rfl⟩ := foldList_ok h
  have hil := mapM_ok_length hm
  match items, hil with
  | [], hil => simp at hil; omega
  | [_], hil => simp at hil; omega
  | a :: b :: rest, _ => simp

/-- A fresh cache: the files returned are exactly the `nFolds` files just written, all with different names, in sorted
order. -/
theorem C23_cache_complete {ser : List Char} {nSplits nFolds : Nat} {dir out dir' : List Path}
    (hfresh : ∀ name ∈ dir, matchesFold ser name = false)
    (h : foldingFiles ser nSplits nFolds dir = .ok (out, dir')) :
    out.Nodup ∧ out.length = nFolds ∧
    ∀ name, name ∈ out ↔ ∃ i < nFolds, name = foldFileName ser (descOf nSplits i) := by
  unfold foldingFiles at h
  have hf : dir.filter (matchesFold ser) = [] := by
    rw [List.filter_eq_nil_iff]
    intro a ha
    simp [hfresh a ha]
  have hc : (cacheNames ser nSplits nFolds).filter (matchesFold ser) = cacheNames ser nSplits nFolds := by
    rw [List.filter_eq_self]
    intro a ha
    exact cacheNames_match ha
  split at h
  · rw [List.filter_append, hf, hc, List.nil_append] at h
    injection h with h
    obtain ⟨rfl, -⟩ := Prod.mk.inj h
    have hp := List.perm_insertionSort (fun a b => strLe a b = true) (cacheNames ser nSplits nFolds)
    refine ⟨hp.nodup_iff.2 (cacheNames_nodup _ _ _), ?_, ?_⟩
    · unfold sortNames
      rw [hp.length_eq]; simp [cacheNames]
    · intro name
      unfold sortNames
      rw [hp.mem_iff]
      simp only [cacheNames, List.mem_map, List.mem_range]
      constructor
      · rintro ⟨i, hi, rfl⟩; exact ⟨i, hi, rfl⟩
      · rintro ⟨i, hi, rfl⟩; exact ⟨i, hi, rfl⟩
  · cases h

theorem strLe_iff : ∀ a b : List Char, strLe a b = true ↔ ¬ b.map Char.toNat < a.map Char.toNat
  | [], b => by simp [strLe]
  | _ :: _, [] => by simp [strLe]
  | a :: as, b :: bs => by
    have ih := strLe_iff as bs
    rw [List.map_cons, List.map_cons, List.cons_lt_cons_iff]
    unfold strLe
    by_cases h1 : a.toNat < b.toNat
    · rw [if_pos h1]
      simp only [true_iff]
      omega
    · by_cases h2 : b.toNat < a.toNat
      · rw [if_neg h1, if_pos h2]
        simp [h2]
      · have h3 : b.toNat = a.toNat := by omega
        rw [if_neg h1, if_neg h2, ih]
        simp [h3]

/-- The files are returned in the order of their names: no name is before an earlier one. -/
theorem C23_files_sorted {ser : List Char} {nSplits nFolds : Nat} {dir out dir' : List Path}
    (h : foldingFiles ser nSplits nFolds dir = .ok (out, dir')) : out.Pairwise (fun a b => ¬ b.map Char.toNat < a.map Char.toNat) := by
  have hs : ∀ l : List Path, (sortNames l).Pairwise (fun a b => ¬ b.map Char.toNat < a.map Char.toNat) := by
    intro l
    unfold sortNames
    have : Std.Total (fun a b : Path => strLe a b = true) := ⟨fun a b => by
      rw [strLe_iff, strLe_iff, not_lt, not_lt]; exact le_total _ _⟩
    have : IsTrans Path (fun a b : Path => strLe a b = true) := ⟨fun a b c => by
      rw [strLe_iff, strLe_iff, strLe_iff, not_lt, not_lt, not_lt]; exact le_trans⟩
    exact (List.pairwise_insertionSort (fun a b : Path => strLe a b = true) l).imp (fun h => (strLe_iff _ _).1 h)
  unfold foldingFiles at h
  split at h
  · split at h <;>
    · injection h with h
      obtain ⟨rfl, -⟩ := Prod.mk.inj h
      exact hs _
  · cases h

/-- Different folds of a cross-validation get different file names. -/
theorem C23_file_names_distinct (ser : List Char) {d e : Desc}
    (h : (d.repeatIdx, d.foldIdx) ≠ (e.repeatIdx, e.foldIdx)) : foldFileName ser d ≠ foldFileName ser e := by
  intro he
  obtain ⟨h1, h2⟩ := foldFileName_inj he
  exact h (by rw [h1, h2])

/-- Completeness fails after a crash: when caching was cut off after `m ≥ 1` of the `nFolds` files, the next call
returns only those `m` files, and never writes the others. -/
theorem C23_incomplete_after_crash {ser : List Char} (hser : ser = sJson ∨ ser = sPickle) {nSplits nFolds m : Nat}
    (hm : 1 ≤ m) (_hlt : m < nFolds) :
    ∃ out, foldingFiles ser nSplits nFolds (cacheNames ser nSplits m) = .ok (out, cacheNames ser nSplits m) ∧
      out.length = m := by
  have hc : (cacheNames ser nSplits m).filter (matchesFold ser) = cacheNames ser nSplits m := by
    rw [List.filter_eq_self]
    intro a ha
    exact cacheNames_match ha
  have hne : cacheNames ser nSplits m ≠ [] := by
    intro he
    have := congrArg List.length he
    simp [cacheNames] at this
    omega
  refine ⟨sortNames (cacheNames ser nSplits m), ?_, ?_⟩
  · unfold foldingFiles
    rw [if_pos hser, hc, if_neg hne]
    rfl
  · unfold sortNames
    rw [(List.perm_insertionSort _ _).length_eq]
    simp [cacheNames]

/-- Likewise files of a run with other validator parameters are returned as they are. -/
theorem C23_stale_files_returned {ser : List Char} (hser : ser = sJson ∨ ser = sPickle) (nSplits nFolds : Nat)
    {dir : List Path} {name : Path} (hn : name ∈ dir) (hmatch : matchesFold ser name = true) :
    foldingFiles ser nSplits nFolds dir = .ok (sortNames (dir.filter (matchesFold ser)), dir) := by
  have hne : dir.filter (matchesFold ser) ≠ [] := by
    intro he
    rw [List.filter_eq_nil_iff] at he
    exact he name hn hmatch
  unfold foldingFiles
  rw [if_pos hser, if_neg hne]
  rfl

/-- The class sizes recorded in the descriptor are right when the labels are 0 and 1. -/
theorem C23_label_stats_binary {target : List Int} (h0 : (0 : Int) ∈ target) (h1 : (1 : Int) ∈ target)
    (hall : ∀ t ∈ target, t = 0 ∨ t = 1) :
    ∃ s, foldingStats target = .ok s ∧ s.nMin = target.count s.minLabel ∧ s.nMaj = target.count s.majLabel ∧
      s.nMin ≤ s.nMaj ∧ s.minLabel ≠ s.majLabel := by
  have hu : npUnique target = [0, 1] := by
    have hs := npUnique_sorted target
    have hm : ∀ b, b ∈ npUnique target ↔ b = 0 ∨ b = 1 := by
      intro b
      rw [mem_npUnique]
      constructor
      · exact hall b
      · rintro (rfl | rfl) <;> assumption
    generalize npUnique target = u at hs hm
    match u, hs, hm with
    | [], _, hm => exact absurd ((hm 0).2 (Or.inl rfl)) (by simp)
    | [a], _, hm =>
      have e0 := (hm 0).2 (Or.inl rfl)
      have e1 := (hm 1).2 (Or.inr rfl)
      simp only [List.mem_singleton] at e0 e1
      omega
    | a :: b :: [], hs, hm =>
      have ea := (hm a).1 (by simp)
      have eb := (hm b).1 (by simp)
      have hab : a < b := by simpa using hs
      have h1 : a = 0 := by omega
      have h2 : b = 1 := by omega
      rw [h1, h2]
    | a :: b :: c :: rest, hs, hm =>
      have ea := (hm a).1 (by simp)
      have eb := (hm b).1 (by simp)
      have ec := (hm c).1 (by simp)
      simp only [List.pairwise_cons] at hs
      have := hs.1 b (by simp)
      have := hs.2.1 c (by simp)
      omega
  unfold foldingStats npUniqueCounts
  rw [hu]
  simp only [List.map_cons, List.map_nil, minCount, List.foldl_cons, List.foldl_nil]
  by_cases hlt : target.count 0 < target.count 1
  · refine ⟨⟨0, 1, target.count 0, target.count 1⟩, ?_, rfl, rfl, by dsimp only; omega, by dsimp only; decide⟩
    have e1 : min (target.count 0) (target.count 1) = target.count 0 := by omega
    have e2 : (target.count 1 == target.count 0) = false := by simp; omega
    have e3 : labelsWithCount [(0, target.count 0), (1, target.count 1)] (target.count 0) = [0] := by
      simp [labelsWithCount, e2]
    simp only [pure_bind, e1, e3, maxLabel, List.foldl_nil]
    rfl
  · refine ⟨⟨1, 0, target.count 1, target.count 0⟩, ?_, rfl, rfl, by dsimp only; omega, by dsimp only; decide⟩
    have e1 : min (target.count 0) (target.count 1) = target.count 1 := by omega
    by_cases heq : target.count 0 = target.count 1
    · have e3 : labelsWithCount [(0, target.count 0), (1, target.count 1)] (target.count 1) = [0, 1] := by
        simp [labelsWithCount, heq]
      simp only [pure_bind, e1, e3, maxLabel, List.foldl_nil, List.foldl_cons]
      rfl
    · have e3 : labelsWithCount [(0, target.count 0), (1, target.count 1)] (target.count 1) = [1] := by
        simp [labelsWithCount, heq]
      simp only [pure_bind, e1, e3, maxLabel, List.foldl_nil]
      rfl

/-- With other labels they are not: with labels -1 and 1 both sizes are the size of class 1, so a 1 : 3 data set is
recorded as balanced. -/
theorem C23_label_stats_wrong :
    foldingStats [-1, 1, 1, 1] = .ok ⟨-1, 1, 3, 3⟩ ∧ [-1, 1, 1, 1].count (-1 : Int) = 1 := by
  decide +kernel

/-- With labels 1 and 2 the constructor raises `IndexError`. -/
theorem C23_label_stats_index_error : foldingStats [1, 2, 2] = .error .indexError := by decide +kernel

/-- Hypotheses met: two repeats of two splits of four rows. -/
example : ∃ l, foldSnapshots [[0], [1], [2], [3]] [0, 0, 1, 1] 2 ⟨0, 0, 0⟩
    [([0, 2], [1, 3]), ([1, 3], [0, 2]), ([0, 3], [1, 2]), ([1, 2], [0, 3])] = .ok l ∧
    l.map (fun p => (p.1.repeatIdx, p.1.foldIdx)) = [(0, 0), (0, 1), (1, 0), (1, 1)] := by
  refine ⟨_, rfl, ?_⟩
  decide +kernel

example : ∃ l, foldList [[0], [1], [2], [3]] [0, 0, 1, 1] 2 ⟨0, 0, 0⟩
    [([0, 2], [1, 3]), ([1, 3], [0, 2])] = .ok l ∧ l.map (fun p => (p.1.repeatIdx, p.1.foldIdx)) = [(0, 1), (0, 1)] := by
  refine ⟨_, rfl, ?_⟩
  decide +kernel

example : foldFileName sJson (descOf 5 7) = "fold_0001_0002.json".toList := by decide +kernel
example : ∀ name ∈ ["readme.txt".toList, "fold_x.pickle".toList], matchesFold sJson name = false := by decide +kernel
example : (0 : Int) ∈ [0, 1, 0] ∧ (1 : Int) ∈ [0, 1, 0] := by decide

end Verif

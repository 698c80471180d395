import Verif.Model.LnSmote
import Verif.Props.C19
import Verif.Props.C75
import Verif.Spec.Neighbors

/-! # C77: LN_SMOTE -/

namespace Verif

/-! ## Specification -/

/-- How many of the rows named by `l` have label `a`. -/
def safeCount (y : List Int) (a : Int) (l : List Nat) : Nat := l.countP (fun q => decide (y[q]? = some a))

/-- The `k` neighbours of the row whose line of the table is `row` (the row itself comes first). -/
def kNearest (k : Nat) (row : List Nat) : List Nat := (row.drop 1).take k

/-- The neighbours that count for `n` seen from `p`: the `k` nearest; but if `n` is a majority row and `p` one of these, `p` is left
out and the next neighbour takes its place. -/
def seenFrom (y : List Int) (b : Int) (k p n : Nat) (row : List Nat) : List Nat :=
  if y[n]? = some b ∧ p ∈ kNearest k row then (row.drop 1).filter (fun q => decide (q ≠ p)) else kNearest k row

/-- `p` is a minority row, `n` one of its neighbours, and both have minority rows near them: `sp` and `sn` many. -/
def LnGood (y : List Int) (a b : Int) (k : Nat) (table : List (List Nat)) (p n sp sn : Nat) : Prop :=
  ∃ rp rn, y[p]? = some a ∧ table[p]? = some rp ∧ table[n]? = some rn ∧ n ∈ kNearest k rp ∧
    sp = safeCount y a (kNearest k rp) ∧ sn = safeCount y a (seenFrom y b k p n rn) ∧ 0 < sp ∧ 0 < sn

/-- The range of the step: the safer of the two rows attracts the new one. -/
def LnRange (sp sn : Nat) (e : ℚ) : Prop :=
  (sn ≤ sp → 0 ≤ e ∧ e ≤ (sn : ℚ) / sp) ∧ (sp < sn → 1 - (sp : ℚ) / sn ≤ e ∧ e ≤ 1)

/-- `z` comes from a good pair; the step towards a majority neighbour is shortened by `sn / k`. -/
def LnOrigin (d : Nat) (a b : Int) (k : Nat) (X : List Row) (y : List Int) (table : List (List Nat)) (z : Row) : Prop :=
  ∃ (p n sp sn : Nat) (x nb : Row), LnGood y a b k table p n sp sn ∧ sn ≤ k ∧ X[p]? = some x ∧ X[n]? = some nb ∧ z.length = d ∧
    ∀ j, j < d → ∃ e, LnRange sp sn e ∧
      (y[n]? = some a → z.getD j 0 = x.getD j 0 + e * (nb.getD j 0 - x.getD j 0)) ∧
      (y[n]? = some b → z.getD j 0 = x.getD j 0 + e * ((sn : ℚ) / k) * (nb.getD j 0 - x.getD j 0))

/-! ## The levels -/

theorem innerPart_eq {k : Nat} {row : List Nat} (h : row.length = k + 2) : innerPart row = kNearest k row := by
  unfold innerPart kNearest
  rw [List.dropLast_eq_take, List.length_drop, h]
  rfl

theorem lnCount_eq {a : Int} {y : List Int} {k : Nat} {row : List Nat} (h : row.length = k + 2) (hl : ∀ q ∈ row, q < y.length) :
    lnCount a y row = .ok (safeCount y a (kNearest k row) : Int) := by
  unfold lnCount
  rw [innerPart_eq h]
  have hl' : ∀ q ∈ kNearest k row, q < y.length := fun q hq => hl q (List.mem_of_mem_drop (List.mem_of_mem_take hq))
  generalize kNearest k row = l at hl'
  have : ∃ ls, l.mapM (getRow y) = .ok ls ∧ ls.count a = safeCount y a l := by
    induction l with
    | nil => exact ⟨[], rfl, rfl⟩
    | cons q l ih =>
      obtain ⟨ls, h1, h2⟩ := ih (fun q' hq' => hl' q' (List.mem_cons_of_mem _ hq'))
      have hq := hl' q List.mem_cons_self
      refine ⟨y[q] :: ls, ?_, ?_⟩
      · rw [List.mapM_cons, getRow_ok.2 (List.getElem?_eq_getElem hq), ok_bind, h1]
        rfl
      · unfold safeCount at h2 ⊢
        rw [List.countP_cons, List.count_cons, h2]
        simp [List.getElem?_eq_getElem hq]
  obtain ⟨ls, h1, h2⟩ := this
  rw [h1, ok_bind, h2]
  rfl

theorem seenFrom_count {y : List Int} {a : Int} {k p : Nat} {row : List Nat} {q : Nat} (h : row.length = k + 2) (hd : row.Nodup)
    (hp : y[p]? = some a) (hm : p ∈ kNearest k row) (hq : row.getLast? = some q) :
    (safeCount y a ((row.drop 1).filter (fun q => decide (q ≠ p))) : Int) =
      safeCount y a (kNearest k row) - 1 + (if y[q]? = some a then 1 else 0) := by
  have hsplit : row.drop 1 = kNearest k row ++ [q] := by
    have hne : row.drop 1 ≠ [] := by
      intro h0
      have := congrArg List.length h0
      rw [List.length_drop, h] at this
      simp at this
    rw [← innerPart_eq h]
    unfold innerPart
    have hl : (row.drop 1).getLast? = some q := by
      rw [List.getLast?_drop, if_neg (by omega), hq]
    rw [List.getLast?_eq_some_getLast hne] at hl
    injection hl with hl
    rw [← hl, List.dropLast_append_getLast]
  have hnd : (row.drop 1).Nodup := hd.sublist (List.drop_sublist _ _)
  rw [hsplit] at hnd ⊢
  generalize kNearest k row = l at *
  have hlq : q ≠ p := by
    rintro rfl
    have := List.disjoint_of_nodup_append hnd hm
    simp at this
  have hl := List.Nodup.of_append_left hnd
  have key : (safeCount y a (l.filter (fun q => decide (q ≠ p))) : Int) + 1 = safeCount y a l := by
    have := hl.erase_eq_filter p
    have e : l.filter (fun q => decide (q ≠ p)) = l.erase p := by
      rw [this]
      apply List.filter_congr
      intro x _
      simp [bne, beq_eq_decide]
    rw [e]
    have hperm := List.perm_cons_erase hm
    unfold safeCount
    rw [hperm.countP_eq, List.countP_cons]
    simp [hp]
  rw [List.filter_append]
  unfold safeCount at key ⊢
  rw [List.countP_append, List.filter_cons_of_pos (by simpa using hlq), List.filter_nil, List.countP_cons, List.countP_nil]
  push_cast
  have e2 : ((if (decide (y[q]? = some a)) = true then 1 else 0 : Nat) : Int) = if y[q]? = some a then 1 else 0 := by
    by_cases hc : y[q]? = some a <;> simp [hc]
  push_cast at e2
  rw [zero_add, e2, ← key]
  ring

theorem lnLevel_eq {a b : Int} {y : List Int} {k p n : Nat} {table : List (List Nat)} {row : List Nat}
    (hn : n < y.length) (hr : table[n]? = some row) (h : row.length = k + 2) (hl : ∀ q ∈ row, q < y.length) (hd : row.Nodup)
    (hp : y[p]? = some a) :
    lnLevel a b y table p n = .ok (safeCount y a (seenFrom y b k p n row) : Int) := by
  unfold lnLevel seenFrom
  rw [getRow_ok.2 (List.getElem?_eq_getElem hn), ok_bind, getRow_ok.2 hr, ok_bind, innerPart_eq h, lnCount_eq h hl]
  have e : (y[n]? = some b) ↔ y[n] = b := by rw [List.getElem?_eq_getElem hn]; exact Option.some_inj
  by_cases hc : y[n] = b ∧ p ∈ kNearest k row
  · rw [if_pos hc, if_pos ⟨e.2 hc.1, hc.2⟩, ok_bind]
    have hne : row ≠ [] := by intro h0; rw [h0] at h; simp at h
    have hlast := List.getLast?_eq_some_getLast hne
    have hq := hl _ (List.getLast_mem hne)
    rw [seenFrom_count h hd hp hc.2 hlast, hlast]
    dsimp only
    rw [getRow_ok.2 (List.getElem?_eq_getElem hq), ok_bind, List.getElem?_eq_getElem hq]
    by_cases h2 : y[row.getLast hne] = a
    · simp [h2]
    · simp [h2]
  · rw [if_neg hc, if_neg (fun hh => hc ⟨e.1 hh.1, hh.2⟩)]

/-! ## The pairs -/

theorem lnPairs_spec {a b : Int} {y : List Int} {k : Nat} {table : List (List Nat)} (ht : table.length = y.length)
    (hok : TableOK table (k + 2) y.length) (hnd : ∀ row ∈ table, row.Nodup) :
    ∃ all, lnPairs a b y table ((List.range y.length).filter (fun i => decide (y[i]? = some a))) = .ok all ∧
      ∀ q : LnPair, (q ∈ all ∧ 0 < q.slp ∧ 0 < q.sln) ↔
        ∃ sp sn : Nat, q.slp = sp ∧ q.sln = sn ∧ LnGood y a b k table q.p q.n sp sn := by
  set min := (List.range y.length).filter (fun i => decide (y[i]? = some a)) with hmin
  set part : Nat → Res (List LnPair) := fun p => (do
    let row ← getRow table p
    let slp ← lnCount a y row
    (innerPart row).mapM (fun n => do
      let sln ← lnLevel a b y table p n
      return LnPair.mk p n slp sln)) with hpart
  have hone : ∀ p ∈ min, ∃ l, part p = .ok l ∧ ∀ q : LnPair, (q ∈ l ↔ ∃ rp rn, table[p]? = some rp ∧ table[q.n]? = some rn ∧
      q.p = p ∧ q.n ∈ kNearest k rp ∧ q.slp = (safeCount y a (kNearest k rp) : Nat) ∧ q.sln = (safeCount y a (seenFrom y b k p q.n rn) : Nat)) := by
    intro p hp
    rw [hmin, List.mem_filter, List.mem_range] at hp
    obtain ⟨hp1, hp2⟩ := hp
    have hp2 : y[p]? = some a := by simpa using hp2
    have hpt : p < table.length := by omega
    obtain ⟨r1, r2⟩ := hok _ (List.getElem_mem hpt)
    set rp := table[p] with hrp
    have hlev : ∀ n ∈ kNearest k rp, ∃ rn, table[n]? = some rn ∧
        lnLevel a b y table p n = .ok (safeCount y a (seenFrom y b k p n rn) : Int) := by
      intro n hn
      have hn' := r2 n (List.mem_of_mem_drop (List.mem_of_mem_take hn))
      have hnt : n < table.length := by omega
      obtain ⟨s1, s2⟩ := hok _ (List.getElem_mem hnt)
      exact ⟨_, List.getElem?_eq_getElem hnt, lnLevel_eq hn' (List.getElem?_eq_getElem hnt) s1 s2 (hnd _ (List.getElem_mem hnt)) hp2⟩
    obtain ⟨l, hl⟩ := mapM_exists_ok (l := kNearest k rp) (f := fun n => (do
      let sln ← lnLevel a b y table p n
      return LnPair.mk p n (safeCount y a (kNearest k rp) : Nat) sln : Res LnPair)) (by
        intro n hn
        obtain ⟨rn, _, h⟩ := hlev n hn
        exact ⟨LnPair.mk p n (safeCount y a (kNearest k rp) : Nat) (safeCount y a (seenFrom y b k p n rn) : Nat), by rw [h]; rfl⟩)
    refine ⟨l, ?_, ?_⟩
    · rw [hpart]
      dsimp only
      rw [getRow_ok.2 (List.getElem?_eq_getElem hpt), ok_bind, lnCount_eq r1 r2, ok_bind, innerPart_eq r1]
      exact hl
    · have hf := mapM_ok_iff.1 hl
      intro q
      constructor
      · intro hq
        obtain ⟨n, hn, h⟩ := forall₂_mem_right hf hq
        obtain ⟨rn, h1, h2⟩ := hlev n hn
        rw [h2] at h
        injection h with h
        subst h
        exact ⟨rp, rn, List.getElem?_eq_getElem hpt, h1, rfl, hn, rfl, rfl⟩
      · rintro ⟨rp', rn, h1, h2, h3, h4, h5, h6⟩
        rw [List.getElem?_eq_getElem hpt] at h1
        injection h1 with h1
        subst h1
        obtain ⟨q', hq', h⟩ := forall₂_mem_left hf h4
        obtain ⟨rn', g1, g2⟩ := hlev _ h4
        rw [h2] at g1
        injection g1 with g1
        subst g1
        rw [g2] at h
        injection h with h
        have : q = q' := by
          rw [← h]
          cases q
          simp_all
        rw [this]
        exact hq'
  obtain ⟨parts, hparts⟩ := mapM_exists_ok (l := min) (f := part) (fun p hp => (hone p hp).imp (fun _ h => h.1))
  refine ⟨parts.flatten.eraseDups, ?_, ?_⟩
  · unfold lnPairs
    rw [show min.mapM _ = _ from hparts]
    rfl
  · have hf := mapM_ok_iff.1 hparts
    intro q
    rw [List.mem_eraseDups, List.mem_flatten]
    constructor
    · rintro ⟨⟨l, hl, hq⟩, g1, g2⟩
      obtain ⟨p, hp, h⟩ := forall₂_mem_right hf hl
      obtain ⟨l', h1, h2⟩ := hone p hp
      rw [h] at h1
      injection h1 with h1
      subst h1
      obtain ⟨rp, rn, e1, e2, e3, e4, e5, e6⟩ := (h2 q).1 hq
      rw [hmin, List.mem_filter] at hp
      refine ⟨_, _, e5, e6, rp, rn, ?_, by rw [e3]; exact e1, e2, e4, rfl, by rw [e3], by omega, by omega⟩
      rw [e3]
      simpa using hp.2
    · rintro ⟨sp, sn, e1, e2, rp, rn, h1, h2, h3, h4, h5, h6, h7, h8⟩
      have hp : q.p ∈ min := by
        rw [hmin, List.mem_filter, List.mem_range]
        exact ⟨(List.getElem?_eq_some_iff.1 h1).1, by simpa using h1⟩
      obtain ⟨l, hl, h⟩ := forall₂_mem_left hf hp
      obtain ⟨l', g1, g2⟩ := hone _ hp
      rw [h] at g1
      injection g1 with g1
      subst g1
      exact ⟨⟨l, hl, (g2 q).2 ⟨rp, rn, h2, h3, rfl, h4, by rw [e1, h5], by rw [e2, h6]⟩⟩, by omega, by omega⟩

/-! ## One row -/

theorem lnGap_eq {a l : Int} {sp sn k : Nat} {u : ℚ} (h1 : 0 < sp) (h2 : 0 < sn) (hu : 0 ≤ u ∧ u < 1) :
    ∃ e, LnRange sp sn e ∧ lnGap a sp sn l k u = .ok (if l ≠ a then e * ((sn : ℚ) / k) else e) := by
  have p1 : (0 : ℚ) < sp := by exact_mod_cast h1
  have p2 : (0 : ℚ) < sn := by exact_mod_cast h2
  have hne : ((sn : Nat) : Int) ≠ 0 := by omega
  have hR : ∀ e, LnRange sp sn e → lnGap a sp sn l k u = .ok (if l ≠ a then e * (sn : ℚ) / k else e) →
      ∃ e, LnRange sp sn e ∧ lnGap a sp sn l k u = .ok (if l ≠ a then e * ((sn : ℚ) / k) else e) := by
    intro e h h'
    refine ⟨e, h, ?_⟩
    rw [h', mul_div_assoc]
  unfold lnGap at hR ⊢
  rw [if_neg (fun h => hne h.1), if_neg hne] at hR ⊢
  dsimp only at hR ⊢
  rw [show (((sp : Nat) : Int) : ℚ) = (sp : ℚ) by norm_cast, show (((sn : Nat) : Int) : ℚ) = (sn : ℚ) by norm_cast] at hR ⊢
  by_cases c1 : (sp : ℚ) / sn = 1
  · have he : sp = sn := by
      have := (div_eq_one_iff_eq p2.ne').1 c1
      exact_mod_cast this
    refine hR u ⟨fun _ => ⟨hu.1, ?_⟩, fun h => by omega⟩ (by rw [if_pos c1])
    rw [he, div_self p2.ne']
    exact hu.2.le
  · by_cases c2 : 1 < (sp : ℚ) / sn
    · have hlt : sn < sp := by
        have := (one_lt_div p2).1 c2
        exact_mod_cast this
      refine hR (u / ((sp : ℚ) / sn)) ⟨fun _ => ⟨div_nonneg hu.1 (by linarith), ?_⟩, fun h => by omega⟩ (by rw [if_neg c1, if_pos c2])
      rw [div_div_eq_mul_div]
      apply div_le_div_of_nonneg_right _ p1.le
      nlinarith [hu.2]
    · have hlt : (sp : ℚ) / sn < 1 := lt_of_le_of_ne (not_lt.1 c2) c1
      have hlt' : sp < sn := by
        have := (div_lt_one p2).1 hlt
        exact_mod_cast this
      have h0 : 0 ≤ (sp : ℚ) / sn := div_nonneg p1.le p2.le
      refine hR (1 - u * ((sp : ℚ) / sn)) ⟨fun h => by omega, fun _ => ⟨?_, ?_⟩⟩ (by rw [if_neg c1, if_neg c2])
      · nlinarith [hu.2]
      · nlinarith [hu.1]

theorem safeCount_le {y : List Int} {a b : Int} {k p n : Nat} {row : List Nat} (h : row.length = k + 2) (hd : row.Nodup)
    : safeCount y a (seenFrom y b k p n row) ≤ k := by
  have hle : ∀ l : List Nat, safeCount y a l ≤ l.length := fun l => List.countP_le_length
  unfold seenFrom
  split
  · rename_i hc
    refine le_trans (hle _) ?_
    have hm : p ∈ row.drop 1 := List.mem_of_mem_take hc.2
    have hnd : (row.drop 1).Nodup := hd.sublist (List.drop_sublist _ _)
    have e : (row.drop 1).filter (fun q => decide (q ≠ p)) = (row.drop 1).erase p := by
      rw [hnd.erase_eq_filter p]
      apply List.filter_congr
      intro x _
      simp [bne, beq_eq_decide]
    rw [e, List.length_erase_of_mem hm, List.length_drop]
    omega
  · refine le_trans (hle _) ?_
    unfold kNearest
    rw [List.length_take]
    omega

theorem lnRow_spec {a b : Int} {ix : Nat → Nat → Nat} {gap : Nat → Nat → ℚ} {pairs : List LnPair} {X : List Row} {y : List Int} {d k t : Nat}
    {table : List (List Nat)} (hwf : WF d X y) (hab : a ≠ b) (hix : ∀ t m, 0 < m → ix t m < m) (hg : ∀ t j, 0 ≤ gap t j ∧ gap t j < 1)
    (hok : TableOK table (k + 2) y.length) (hnd : ∀ row ∈ table, row.Nodup) (hpos : 0 < pairs.length)
    (hpairs : ∀ q ∈ pairs, ∃ sp sn : Nat, q.slp = sp ∧ q.sln = sn ∧ LnGood y a b k table q.p q.n sp sn) :
    ∃ z, lnRow a ix gap pairs X y k t = .ok z ∧ LnOrigin d a b k X y table z := by
  have hxy := hwf.1
  have hi := hix t _ hpos
  obtain ⟨sp, sn, e1, e2, hgood⟩ := hpairs _ (List.getElem_mem hi)
  set q := pairs[ix t pairs.length] with hq
  obtain ⟨rp, rn, h1, h2, h3, h4, h5, h6, h7, h8⟩ := id hgood
  obtain ⟨hpl, _⟩ := List.getElem?_eq_some_iff.1 h1
  have hrp := hok _ (List.mem_of_getElem? h2)
  have hnl := hrp.2 _ (List.mem_of_mem_drop (List.mem_of_mem_take h4))
  have hrn := hok _ (List.mem_of_getElem? h3)
  have hpX : q.p < X.length := by omega
  have hnX : q.n < X.length := by omega
  have hx := hwf.2 _ (List.getElem_mem hpX)
  have hnb := hwf.2 _ (List.getElem_mem hnX)
  obtain ⟨deltas, hds⟩ := mapM_exists_ok (l := List.range X[q.p].length) (f := fun j => lnGap a q.slp q.sln y[q.n] k (gap t j)) (by
    intro j _
    obtain ⟨e, _, he⟩ := lnGap_eq (a := a) (l := y[q.n]) (k := k) h7 h8 (hg t j)
    exact ⟨_, by rw [e1, e2]; exact he⟩)
  refine ⟨mixRow X[q.p] X[q.n] (fun j => deltas.getD j 0), ?_, q.p, q.n, sp, sn, _, _, hgood, ?_, List.getElem?_eq_getElem hpX,
    List.getElem?_eq_getElem hnX, mixRow_length hx hnb, ?_⟩
  · unfold lnRow
    rw [getRow_ok.2 (List.getElem?_eq_getElem hi), ok_bind, ← hq, getRow_ok.2 (List.getElem?_eq_getElem hnl), ok_bind,
      getRow_ok.2 (List.getElem?_eq_getElem hpX), ok_bind, getRow_ok.2 (List.getElem?_eq_getElem hnX), ok_bind, hds]
    rfl
  · rw [h6]
    exact safeCount_le hrn.1 (hnd _ (List.mem_of_getElem? h3))
  · intro j hj
    obtain ⟨e, r, he⟩ := lnGap_eq (a := a) (l := y[q.n]) (k := k) h7 h8 (hg t j)
    have hf := mapM_ok_iff.1 hds
    have hl := hf.length_eq
    rw [List.length_range, hx] at hl
    have hd' := hf.get (i := j) (by rw [List.length_range, hx]; exact hj) (by omega)
    simp only [List.get_eq_getElem, List.getElem_range] at hd'
    rw [e1, e2, he] at hd'
    injection hd' with hd'
    have hgd : deltas.getD j 0 = if y[q.n] ≠ a then e * ((sn : ℚ) / k) else e := by
      rw [hd', List.getD_eq_getElem?_getD, List.getElem?_eq_getElem (by omega)]
      rfl
    refine ⟨e, r, ?_, ?_⟩
    · intro hl
      rw [List.getElem?_eq_getElem hnl] at hl
      injection hl with hl
      rw [mixRow_getD hx hnb hj, hgd, if_neg (by simpa using hl)]
      ring
    · intro hl
      rw [List.getElem?_eq_getElem hnl] at hl
      injection hl with hl
      rw [mixRow_getD hx hnb hj, hgd, if_pos (by rw [hl]; exact hab.symm)]
      ring

/-- **LN_SMOTE**: exactly the requested number of minority rows, each from a good pair; the input if there is no good pair. -/
theorem C77_ln {proportion : ℚ} {nNeighbors : Nat} {ix : Nat → Nat → Nat} {gap : Nat → Nat → ℚ} {knn : Nat → List Row → List (List Nat)}
    {d : Nat} {X : List Row} {y : List Int} {a b : Int} (hwf : WF d X y) (hk : KnnOK knn) (hnd : ∀ k, ∀ row ∈ knn k X, row.Nodup)
    (hix : ∀ t m, 0 < m → ix t m < m) (hg : ∀ t j, 0 ≤ gap t j ∧ gap t j < 1) (hmin : IsMinority y a b)
    (h3 : 2 < y.count a) (hn : 0 < requested proportion (y.count b) (y.count a)) (h2 : 2 ≤ nNeighbors) :
    let k := min (X.length - 2) nNeighbors
    ∃ X' y', sample defaultChecks d (lnSmoteAlg proportion nNeighbors ix gap knn) X y = .ok (X', y') ∧
      ((∃ p n sp sn, LnGood y a b k (knn (k + 2) X) p n sp sn) →
        OversampledBy X y a (requested proportion (y.count b) (y.count a)) (LnOrigin d a b k X y (knn (k + 2) X)) X' y') ∧
      ((∀ p n sp sn, ¬ LnGood y a b k (knn (k + 2) X) p n sp sn) → X' = X ∧ y' = y) := by
  intro k
  obtain ⟨s, hs, rfl, rfl⟩ := stats_of_isMinority hmin
  obtain ⟨hm, hM, hab⟩ := stats_min_mem hs
  have hxy := hwf.1
  have hlen := count_pair_le (y := y) hab
  have hM1 : 0 < y.count s.majLabel := List.count_pos_iff.2 hM
  have hkd : k = min (X.length - 2) nNeighbors := rfl
  have hk2 : 2 ≤ k := by omega
  obtain ⟨k1, k2⟩ := hk (k + 2) X (by omega)
  have hnd' := hnd (k + 2)
  set table := knn (k + 2) X with htd
  rw [hxy] at k2
  obtain ⟨all, ha1, ha2⟩ := lnPairs_spec (a := s.minLabel) (b := s.majLabel) (by omega) k2 hnd'
  set pairs := all.filter (fun q => decide (0 < q.slp ∧ 0 < q.sln)) with hpd
  have hpairs : ∀ q, q ∈ pairs ↔ ∃ sp sn : Nat, q.slp = sp ∧ q.sln = sn ∧ LnGood y s.minLabel s.majLabel k table q.p q.n sp sn := by
    intro q
    rw [← ha2 q, hpd, List.mem_filter]
    simp
  set n := requested proportion (y.count s.majLabel) (y.count s.minLabel) with hnd
  have hrun : sample defaultChecks d (lnSmoteAlg proportion nNeighbors ix gap knn) X y = (if pairs.length = 0 then
      .ok (withSamples X y s.minLabel []) else do
      let samples ← (List.range n).mapM (lnRow s.minLabel ix gap pairs X y k)
      return withSamples X y s.minLabel samples) := by
    rw [sample_default hs, if_neg (by omega)]
    unfold lnSmoteAlg
    rw [stats_count hs hm, stats_count hs hM, detN_eq_requested, ok_bind, if_neg (by omega)]
    dsimp only
    rw [← hkd, if_neg (by omega), ← htd, ha1, ok_bind]
    rfl
  by_cases h0 : pairs.length = 0
  · refine ⟨X, y, ?_, ?_, fun _ => ⟨rfl, rfl⟩⟩
    · rw [hrun, if_pos h0]
      simp [withSamples]
    · rintro ⟨p, n', sp, sn, h⟩
      have := (hpairs ⟨p, n', sp, sn⟩).2 ⟨sp, sn, rfl, rfl, h⟩
      rw [List.length_eq_zero_iff.1 h0] at this
      simp at this
  · have hspec : ∀ t, ∃ z, lnRow s.minLabel ix gap pairs X y k t = .ok z ∧ LnOrigin d s.minLabel s.majLabel k X y table z :=
      fun t => lnRow_spec hwf hab hix hg k2 hnd' (by omega) (fun q hq => (hpairs q).1 hq)
    obtain ⟨samples, hsm⟩ := mapM_exists_ok (l := List.range n) (fun i _ => (hspec i).imp (fun _ h => h.1))
    have hf := mapM_ok_iff.1 hsm
    refine ⟨_, _, by rw [hrun, if_neg h0, hsm]; rfl, fun _ => withSamples_oversampledBy (samples := samples)
      (by rw [← hf.length_eq, List.length_range]) ?_ rfl, ?_⟩
    · intro z hz
      obtain ⟨i, _, hi⟩ := forall₂_mem_right hf hz
      obtain ⟨z', h1, h2⟩ := hspec i
      rw [hi] at h1
      injection h1 with h1
      subst h1
      exact h2
    · intro hno
      obtain ⟨q, hq⟩ := List.exists_mem_of_length_pos (Nat.pos_of_ne_zero h0)
      obtain ⟨sp, sn, _, _, h⟩ := (hpairs q).1 hq
      exact absurd h (hno _ _ _ _)

/-- **A new row lies between** the minority row and its neighbour. -/
theorem C77_between {d : Nat} {a b : Int} {k : Nat} {X : List Row} {y : List Int} {table : List (List Nat)} {z : Row}
    (hl : ∀ l ∈ y, l = a ∨ l = b) (h : LnOrigin d a b k X y table z) (hxy : X.length = y.length) :
    ∃ (p n : Nat) (x nb : Row), y[p]? = some a ∧ X[p]? = some x ∧ X[n]? = some nb ∧ Between d x nb z := by
  obtain ⟨p, n, sp, sn, x, nb, ⟨rp, rn, h1, h2, h3, h4, h5, h6, h7, h8⟩, hk, hx, hnb, hz, hall⟩ := h
  refine ⟨p, n, x, nb, h1, hx, hnb, hz, fun j hj => ?_⟩
  obtain ⟨e, ⟨r1, r2⟩, g1, g2⟩ := hall j hj
  have p1 : (0 : ℚ) < sp := by exact_mod_cast h7
  have p2 : (0 : ℚ) < sn := by exact_mod_cast h8
  have p3 : (sn : ℚ) ≤ k := by exact_mod_cast hk
  have he : 0 ≤ e ∧ e ≤ 1 := by
    rcases Nat.lt_or_ge sp sn with hlt | hge
    · obtain ⟨s1, s2⟩ := r2 hlt
      refine ⟨le_trans ?_ s1, s2⟩
      rw [sub_nonneg]
      exact (div_le_one p2).2 (by exact_mod_cast hlt.le)
    · obtain ⟨s1, s2⟩ := r1 hge
      exact ⟨s1, le_trans s2 ((div_le_one p1).2 (by exact_mod_cast hge))⟩
  obtain ⟨hnl, _⟩ := List.getElem?_eq_some_iff.1 hnb
  have hny : n < y.length := by omega
  rcases hl _ (List.getElem_mem hny) with hc | hc
  · rw [g1 (by rw [List.getElem?_eq_getElem hny, hc]), mul_comm e]
    exact mix_between he.1 he.2
  · rw [g2 (by rw [List.getElem?_eq_getElem hny, hc]), mul_comm (e * _)]
    have f0 : 0 ≤ (sn : ℚ) / k := div_nonneg p2.le (le_trans p2.le p3)
    have f1 : (sn : ℚ) / k ≤ 1 := (div_le_one (lt_of_lt_of_le p2 p3)).2 p3
    exact mix_between (mul_nonneg he.1 f0) (mul_le_one₀ he.2 f0 f1)

/-- **With one neighbour**, a value the constructor accepts, nothing is ever generated. -/
theorem C77_one {proportion : ℚ} {nNeighbors : Nat} {ix : Nat → Nat → Nat} {gap : Nat → Nat → ℚ} {knn : Nat → List Row → List (List Nat)}
    {d : Nat} {X : List Row} {y : List Int} {a b : Int} (hmin : IsMinority y a b) (h1 : nNeighbors ≤ 1) :
    sample defaultChecks d (lnSmoteAlg proportion nNeighbors ix gap knn) X y = .ok (X, y) := by
  obtain ⟨s, hs, rfl, rfl⟩ := stats_of_isMinority hmin
  obtain ⟨hm, hM, hab⟩ := stats_min_mem hs
  rw [sample_default hs]
  split
  · rfl
  · unfold lnSmoteAlg
    rw [stats_count hs hm, stats_count hs hM, detN_eq_requested, ok_bind]
    split
    · rfl
    · dsimp only
      rw [if_pos (by omega)]
      rfl

/-! ## Examples -/

theorem bruteKnn_nodup (X : List Row) (k : Nat) : ∀ row ∈ bruteKnn k X, row.Nodup := by
  intro row hrow
  simp only [bruteKnn, List.mem_map] at hrow
  obtain ⟨x, _, rfl⟩ := hrow
  unfold nearestTo
  exact ((List.perm_insertionSort _ _).nodup_iff.2 List.nodup_range).sublist (List.take_sublist _ _)

def lnX : List Row := [[0], [1], [2], [3], [4], [5], [6]]
def lnY : List Int := [1, 0, 1, 1, 0, 0, 0]

/-- The majority row `[1]` is a neighbour of the minority row `[0]`. Seen from it, its neighbours are `[2]` and `[3]`. -/
example : LnGood lnY 1 0 2 (bruteKnn 4 lnX) 0 1 1 2 :=
  ⟨[0, 1, 2, 3], [1, 0, 2, 3], by decide, by decide +kernel, by decide +kernel, by decide, by decide, by decide +kernel, by decide, by decide⟩

example : sample defaultChecks 1 (lnSmoteAlg 1 2 (fun _ _ => 0) (fun _ _ => 1 / 2) bruteKnn) lnX lnY =
    .ok (lnX ++ [[3 / 4]], lnY ++ [1]) := by decide +kernel

example : WF 1 lnX lnY ∧ IsMinority lnY 1 0 ∧ KnnOK bruteKnn ∧ (∀ k, ∀ row ∈ bruteKnn k lnX, row.Nodup) ∧ 2 < lnY.count 1 ∧
    0 < requested 1 (lnY.count 0) (lnY.count 1) :=
  ⟨⟨by decide, by decide +kernel⟩, ⟨by decide, by decide, by decide, Or.inl (by decide)⟩, bruteKnn_ok, bruteKnn_nodup lnX, by decide,
    by decide +kernel⟩

/-- Minority rows far from each other among the majority: no good pair, nothing is generated. -/
example : sample defaultChecks 1 (lnSmoteAlg 1 2 (fun _ _ => 0) (fun _ _ => 1 / 2) bruteKnn)
    [[0], [1], [2], [3], [100], [101], [102], [103], [200], [201], [202], [203]] [1, 0, 0, 0, 1, 0, 0, 0, 1, 0, 0, 0] =
    .ok ([[0], [1], [2], [3], [100], [101], [102], [103], [200], [201], [202], [203]], [1, 0, 0, 0, 1, 0, 0, 0, 1, 0, 0, 0]) := by
  decide +kernel

end Verif

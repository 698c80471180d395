import Verif.Model.Frst
import Verif.Props.C01
import Verif.Props.C33
import Verif.Props.C38
import Verif.Props.C55
import Verif.Props.C63
import Verif.Props.C83
import Mathlib.Tactic.Linarith
import Mathlib.Tactic.Positivity
import Mathlib.Tactic.FieldSimp
import Mathlib.Tactic.Ring

/-!
# C94: SMOTE_FRST_2T
-/

namespace Verif

/-! ## Specification -/

/-- The width of the column `j` of the data: 1 if the column is constant. -/
def spanOf (X : List Row) (j : Nat) : ℚ :=
  if maxL (X.map (fun r => r.getD j 0)) = minL (X.map (fun r => r.getD j 0)) then 1
  else maxL (X.map (fun r => r.getD j 0)) - minL (X.map (fun r => r.getD j 0))

/-- The sum of the differences of two rows, relative to the widths of the columns of the data, at most 1. -/
def spanDist (d : Nat) (X : List Row) (p q : Row) : ℚ := min 1 ((List.range d).map (fun j => |p.getD j 0 - q.getD j 0| / spanOf X j)).sum

/-- `x` is nearer than `g` to one of the rows `Q`. -/
def nearOneOf (d : Nat) (X Q : List Row) (g : ℚ) (x : Row) : Bool := Q.any (fun q => decide (spanDist d X q x < g))

/-- What holds after `t` rounds: the majority `M` left, the new rows `S`, the rows `R` taken from the majority and the two thresholds. A
round generates `n` rows from the minority `A` and takes those nearer than the first threshold to the minority. It moves the
majority rows nearer than the second threshold to a row of `A`, `S` or `R`, unless they are more than half of the difference of the class
sizes: then the threshold is lowered instead. -/
inductive FrstRounds (d n : Nat) (X A B : List Row) (gS gM : ℚ) : Nat → List Row → List Row → List Row → ℚ → ℚ → Prop
  | start : FrstRounds d n X A B gS gM 0 B [] [] gS gM
  | move {t : Nat} {M S R new : List Row} {uS uM vS : ℚ} (h : FrstRounds d n X A B gS gM t M S R uS uM)
      (few : A.length + S.length + R.length < M.length) (count : new.length = n) (hull : ∀ x ∈ new, InHull d A x)
      (first : vS = if S.length < t then uS * (11 / 10) else uS)
      (half : 2 * (M.filter (nearOneOf d X (A ++ S ++ R) uM)).length + A.length ≤ M.length) :
      FrstRounds d n X A B gS gM (t + 1) (M.filter (fun x => ! nearOneOf d X (A ++ S ++ R) uM x))
        (S ++ new.filter (nearOneOf d X A vS)) (R ++ M.filter (nearOneOf d X (A ++ S ++ R) uM)) vS uM
  | lower {t : Nat} {M S R new : List Row} {uS uM vS : ℚ} (h : FrstRounds d n X A B gS gM t M S R uS uM)
      (few : A.length + S.length + R.length < M.length) (count : new.length = n) (hull : ∀ x ∈ new, InHull d A x)
      (first : vS = if S.length < t then uS * (11 / 10) else uS)
      (half : M.length < 2 * (M.filter (nearOneOf d X (A ++ S ++ R) uM)).length + A.length) :
      FrstRounds d n X A B gS gM (t + 1) M (S ++ new.filter (nearOneOf d X A vS)) R vS (uM * (9 / 10))

/-! ## Proofs -/

theorem frstRange_eq (X : List Row) (j : Nat) : frstRange X j = spanOf X j := by
  unfold frstRange spanOf
  simp only [sub_eq_zero]

theorem frstRange_pos {X : List Row} (hX : X ≠ []) (j : Nat) : 0 < frstRange X j := by
  have hne : X.map (fun r => r.getD j 0) ≠ [] := by simpa using hX
  unfold frstRange
  dsimp only
  split
  · norm_num
  · rename_i h
    have h1 := (maxL_spec hne).2 _ (minL_spec hne).1
    exact lt_of_le_of_ne (by linarith) (Ne.symm h)

theorem frst_l1 {d : Nat} {X : List Row} {low : Row} (hX : X ≠ []) (hl : low.length = d) {p q : Row} (hp : p.length = d) (hq : q.length = d) :
    l1Dist (scaleRow low ((List.range d).map (frstRange X)) p) (scaleRow low ((List.range d).map (frstRange X)) q) =
      ((List.range d).map (fun j => |p.getD j 0 - q.getD j 0| / spanOf X j)).sum := by
  have hr : ((List.range d).map (frstRange X)).length = d := by simp
  unfold l1Dist
  congr 1
  apply row_ext (d := d)
  · have h1 := scaleRow_length hl hr hp
    have h2 := scaleRow_length hl hr hq
    simp [Row.sub, h1, h2]
  · simp
  · intro k hk
    have h1 := scaleRow_length hl hr hp
    have h2 := scaleRow_length hl hr hq
    have e1 := scaleRow_getD hl hr hp hk
    have e2 := scaleRow_getD hl hr hq hk
    have e3 : ((Row.sub (scaleRow low ((List.range d).map (frstRange X)) p) (scaleRow low ((List.range d).map (frstRange X)) q)).map
        (fun t => |t|)).getD k 0 = |(scaleRow low ((List.range d).map (frstRange X)) p).getD k 0 -
          (scaleRow low ((List.range d).map (frstRange X)) q).getD k 0| := by
      simp [Row.sub, List.getD_eq_getElem?_getD, h1, h2, hk]
    have e4 : ((List.range d).map (frstRange X)).getD k 0 = frstRange X k := by
      simp [List.getD_eq_getElem?_getD, hk]
    have hpos := frstRange_pos hX k
    rw [e3, e1, e2, e4]
    have e5 : ((List.range d).map (fun j => |p.getD j 0 - q.getD j 0| / spanOf X j)).getD k 0 = |p.getD k 0 - q.getD k 0| / spanOf X k := by
      rw [List.getD_eq_getElem?_getD, List.getElem?_map, List.getElem?_range hk]
      rfl
    rw [e5, ← frstRange_eq, ← sub_div, abs_div, abs_of_pos hpos]
    congr 2
    ring

theorem frstPos_eq {d : Nat} {p q : Row} : frstPos d p q = min 1 (l1Dist p q) := by
  unfold frstPos
  dsimp only
  split
  · rw [min_eq_left (by linarith)]; ring
  · rw [min_eq_right (by linarith)]; ring

theorem frstBelow_table {d : Nat} {Q M : List Row} {g : ℚ} (hQ : Q ≠ []) :
    frstBelow (Q.map (fun p => M.map (frstPos d p))) M.length g =
      (List.range M.length).filter (fun j => Q.any (fun q => decide (frstPos d q (M.getD j []) < g))) := by
  unfold frstBelow
  apply List.filter_congr
  intro j hj
  have hj' := List.mem_range.1 hj
  have e : (Q.map (fun p => M.map (frstPos d p))).map (fun row => row.getD j 0) = Q.map (fun q => frstPos d q (M.getD j [])) := by
    rw [List.map_map]
    apply List.map_congr_left
    intro q _
    simp [List.getD_eq_getElem?_getD, hj']
  rw [e]
  have hne : Q.map (fun q => frstPos d q (M.getD j [])) ≠ [] := by simpa using hQ
  obtain ⟨h1, h2⟩ := minL_spec hne
  rw [Bool.eq_iff_iff, decide_eq_true_iff, List.any_eq_true]
  constructor
  · intro h
    obtain ⟨q, hq, he⟩ := List.mem_map.1 h1
    refine ⟨q, hq, ?_⟩
    rw [decide_eq_true_iff, he]
    exact h
  · rintro ⟨q, hq, h⟩
    rw [decide_eq_true_iff] at h
    exact lt_of_le_of_lt (h2 _ (List.mem_map.2 ⟨q, hq, rfl⟩)) h

theorem map_getD_range {α : Type} (l : List α) (dflt : α) : (List.range l.length).map (fun j => l.getD j dflt) = l := by
  apply List.ext_getElem
  · simp
  · intro i h1 h2
    simp [List.getD_eq_getElem?_getD, h2]

theorem positions_filter {α : Type} (l : List α) (dflt : α) (q : α → Bool) :
    ((List.range l.length).filter (fun j => q (l.getD j dflt))).map (fun j => l.getD j dflt) = l.filter q := by
  conv_rhs => rw [← map_getD_range l dflt, List.filter_map]
  rfl

theorem positions_filter_length {α : Type} (l : List α) (dflt : α) (q : α → Bool) :
    ((List.range l.length).filter (fun j => q (l.getD j dflt))).length = (l.filter q).length := by
  rw [← positions_filter l dflt q, List.length_map]

theorem npDelete_positions {α : Type} (l : List α) (dflt : α) (q : α → Bool) :
    npDelete l ((List.range l.length).filter (fun j => q (l.getD j dflt))) = l.filter (fun x => ! q x) := by
  unfold npDelete
  have e : l.zipIdx.filter (fun p => ! ((List.range l.length).filter (fun j => q (l.getD j dflt))).contains p.2) =
      l.zipIdx.filter ((fun x => ! q x) ∘ Prod.fst) := by
    apply List.filter_congr
    intro p hp
    have h1 := List.mem_zipIdx_iff_getElem?.1 hp
    have h2 : p.2 < l.length := by
      by_contra hc
      rw [List.getElem?_eq_none (by omega)] at h1
      exact absurd h1 (by simp)
    have h3 : l.getD p.2 dflt = p.1 := by rw [List.getD_eq_getElem?_getD, h1]; rfl
    congr 1
    rw [Bool.eq_iff_iff, List.contains_iff_mem, List.mem_filter, List.mem_range, h3]
    simp [h2]
  rw [e, ← List.filter_map, List.zipIdx_map_fst]

/-- The table belongs to the rows `Q` and the present majority. -/
structure FrstInv (d : Nat) (Xmin : List Row) (s : FrstState) : Prop where
  table : ∃ Q : List Row, s.table = Q.map (fun p => s.maj.map (frstPos d p)) ∧ Q.Perm (Xmin ++ s.synth ++ s.removed)

theorem any_perm {α : Type} {P Q : List α} (h : P.Perm Q) (f : α → Bool) : P.any f = Q.any f := by
  rw [Bool.eq_iff_iff, List.any_eq_true, List.any_eq_true]
  constructor
  · rintro ⟨x, hx, e⟩; exact ⟨x, h.mem_iff.1 hx, e⟩
  · rintro ⟨x, hx, e⟩; exact ⟨x, h.mem_iff.2 hx, e⟩

theorem frstTable_ok {d : Nat} {X0 X1 : List Row} (h0 : X0 ≠ []) (h1 : X1 ≠ []) :
    frstTable d X0 X1 = .ok (X0.map (fun p => X1.map (frstPos d p))) := by
  unfold frstTable
  rw [if_neg]
  simp [h0, h1]

theorem frstRound_spec {d it : Nat} {Xmin samp : List Row} {s : FrstState} (hinv : FrstInv d Xmin s) (hmin : Xmin ≠ []) (hsamp : samp ≠ [])
    (hlt : Xmin.length < s.maj.length) :
    ∃ s', frstRound d it Xmin samp s = .ok s' ∧ FrstInv d Xmin s' ∧
      s'.gammaS = (if s.synth.length < it then s.gammaS * (11 / 10) else s.gammaS) ∧
      s'.synth = s.synth ++ samp.filter (fun x => Xmin.any (fun q => decide (frstPos d q x < s'.gammaS))) ∧
      ((2 * (s.maj.filter (fun x => (Xmin ++ s.synth ++ s.removed).any (fun q => decide (frstPos d q x < s.gammaM)))).length + Xmin.length ≤ s.maj.length ∧
        s'.maj = s.maj.filter (fun x => ! (Xmin ++ s.synth ++ s.removed).any (fun q => decide (frstPos d q x < s.gammaM))) ∧
        s'.removed = s.removed ++ s.maj.filter (fun x => (Xmin ++ s.synth ++ s.removed).any (fun q => decide (frstPos d q x < s.gammaM))) ∧
        s'.gammaM = s.gammaM) ∨
       (s.maj.length < 2 * (s.maj.filter (fun x => (Xmin ++ s.synth ++ s.removed).any (fun q => decide (frstPos d q x < s.gammaM)))).length + Xmin.length ∧
        s'.maj = s.maj ∧ s'.removed = s.removed ∧ s'.gammaM = s.gammaM * (9 / 10))) := by
  obtain ⟨Q, hQt, hQ⟩ := hinv.table
  obtain ⟨near, hnear⟩ : ∃ near : Row → Bool, near = fun x => (Xmin ++ s.synth ++ s.removed).any (fun q => decide (frstPos d q x < s.gammaM)) := ⟨_, rfl⟩
  rw [← hnear]
  have hnot : (fun x => ! (Xmin ++ s.synth ++ s.removed).any (fun q => decide (frstPos d q x < s.gammaM))) = fun x => ! near x := by rw [hnear]
  rw [hnot]
  obtain ⟨gS, hgS⟩ : ∃ gS, gS = (if s.synth.length < it then s.gammaS * (11 / 10) else s.gammaS) := ⟨_, rfl⟩
  rw [← hgS]
  obtain ⟨add, hadd⟩ : ∃ add : Row → Bool, add = fun x => Xmin.any (fun q => decide (frstPos d q x < gS)) := ⟨_, rfl⟩
  have hQne : Q ≠ [] := by
    intro h
    rw [h] at hQ
    have := hQ.length_eq
    have h2 : 0 < Xmin.length := List.length_pos_iff.2 hmin
    simp only [List.length_append, List.length_nil] at this
    omega
  unfold frstRound
  dsimp only
  rw [← hgS, frstTable_ok hmin hsamp, ok_bind, frstBelow_table hmin, hQt, frstBelow_table hQne]
  have e1 : (fun j => Xmin.any (fun q => decide (frstPos d q (samp.getD j []) < gS))) = fun j => add (samp.getD j []) := by rw [hadd]
  have e2 : (fun j => Q.any (fun q => decide (frstPos d q (s.maj.getD j []) < s.gammaM))) = fun j => near (s.maj.getD j []) := by
    funext j
    rw [hnear]
    exact any_perm hQ _
  rw [e1, e2]
  simp only [positions_filter, positions_filter_length, npDelete_positions]
  -- the rows added last
  have hlast : ∀ s1 : FrstState, s1.maj ≠ [] → s1.synth = s.synth ++ samp.filter add → s1.gammaS = gS →
      (∃ Q1 : List Row, s1.table = Q1.map (fun p => s1.maj.map (frstPos d p)) ∧ Q1.Perm (Xmin ++ s.synth ++ s1.removed)) →
      ∃ s', (if 0 < (samp.filter add).length then (do
          let more ← frstTable d (samp.filter add) s1.maj
          pure { s1 with table := s1.table ++ more }) else pure s1 : Res FrstState) = .ok s' ∧ FrstInv d Xmin s' ∧ s'.gammaS = gS ∧
        s'.synth = s.synth ++ samp.filter (fun x => Xmin.any (fun q => decide (frstPos d q x < s'.gammaS))) ∧ s'.maj = s1.maj ∧
        s'.removed = s1.removed ∧ s'.gammaM = s1.gammaM := by
    intro s1 hne hs1 hg1 ⟨Q1, hT1, hP1⟩
    have hperm : (Q1 ++ samp.filter add).Perm (Xmin ++ s1.synth ++ s1.removed) := by
      rw [hs1]
      refine (hP1.append_right _).trans ?_
      simp only [List.append_assoc]
      refine List.Perm.append_left _ (List.Perm.append_left _ ?_)
      exact List.perm_append_comm
    have hsyn : s1.synth = s.synth ++ samp.filter (fun x => Xmin.any (fun q => decide (frstPos d q x < s1.gammaS))) := by
      rw [hs1, hg1, hadd]
    by_cases h0 : 0 < (samp.filter add).length
    · rw [if_pos h0, frstTable_ok (List.length_pos_iff.1 h0) hne, ok_bind]
      exact ⟨_, rfl, ⟨Q1 ++ samp.filter add, by simp only [hT1, List.map_append], hperm⟩, hg1, hsyn, rfl, rfl, rfl⟩
    · rw [if_neg h0]
      have h00 : samp.filter add = [] := List.length_eq_zero_iff.1 (by omega)
      rw [h00, List.append_nil] at hperm
      exact ⟨_, rfl, ⟨Q1, hT1, hperm⟩, hg1, hsyn, rfl, rfl, rfl⟩
  have hmajne : s.maj ≠ [] := by intro h; rw [h] at hlt; simp at hlt
  by_cases hbig : (((s.maj.filter near).length : ℕ) : ℚ) > ((s.maj.length : ℚ) - Xmin.length) / 2
  · rw [if_pos hbig]
    have hbig' : s.maj.length < 2 * (s.maj.filter near).length + Xmin.length := by
      have h : (s.maj.length : ℚ) < 2 * (s.maj.filter near).length + Xmin.length := by linarith
      exact_mod_cast h
    simp only [pure_bind]
    obtain ⟨s', h1, h2, h3, h4, h5, h6, h7⟩ := hlast
      ({ s with synth := s.synth ++ samp.filter add, gammaS := gS, gammaM := s.gammaM * (9 / 10),
                   table := Q.map (fun p => s.maj.map (frstPos d p)) }) hmajne rfl rfl ⟨Q, rfl, hQ⟩
    exact ⟨s', h1, h2, h3, h4, Or.inr ⟨hbig', h5, h6, h7⟩⟩
  · rw [if_neg hbig]
    have hbig' : 2 * (s.maj.filter near).length + Xmin.length ≤ s.maj.length := by
      have h : 2 * ((s.maj.filter near).length : ℚ) + Xmin.length ≤ s.maj.length := by linarith [not_lt.1 hbig]
      exact_mod_cast h
    have hsum : (s.maj.filter near).length + (s.maj.filter (fun x => ! near x)).length = s.maj.length := by
      have := (List.filter_append_perm near s.maj).length_eq
      rw [List.length_append] at this
      exact this
    by_cases h0 : 0 < (s.maj.filter near).length
    · rw [if_pos h0]
      have hdrop : (s.removed ++ s.maj.filter near).drop ((s.removed ++ s.maj.filter near).length - (s.maj.filter near).length) = s.maj.filter near := by
        rw [List.length_append, Nat.add_sub_cancel, List.drop_left]
      have hnn : s.maj.filter (fun x => ! near x) ≠ [] := by
        intro h
        rw [h, List.length_nil] at hsum
        have : 0 < Xmin.length := List.length_pos_iff.2 hmin
        omega
      rw [hdrop, frstTable_ok (List.length_pos_iff.1 h0) hnn]
      simp only [ok_bind, pure_bind]
      obtain ⟨s', h1, h2, h3, h4, h5, h6, h7⟩ := hlast
        ({ maj := s.maj.filter (fun x => ! near x), synth := s.synth ++ samp.filter add, removed := s.removed ++ s.maj.filter near, gammaS := gS,
           gammaM := s.gammaM, table := (Q.map (fun p => s.maj.map (frstPos d p))).map (fun row => npDelete row ((List.range s.maj.length).filter (fun j => near (s.maj.getD j [])))) ++
            (s.maj.filter near).map (fun p => (s.maj.filter (fun x => ! near x)).map (frstPos d p)) }) hnn rfl rfl
        ⟨Q ++ s.maj.filter near, by
          simp only [List.map_append, List.map_map]
          congr 1
          apply List.map_congr_left
          intro p _
          simp only [Function.comp_apply]
          rw [npDelete_map, npDelete_positions], by
          refine (hQ.append_right _).trans ?_
          simp only [List.append_assoc]
          exact List.Perm.refl _⟩
      exact ⟨s', h1, h2, h3, h4, Or.inl ⟨hbig', h5, h6, h7⟩⟩
    · rw [if_neg h0]
      simp only [pure_bind]
      have h00 : s.maj.filter near = [] := List.length_eq_zero_iff.1 (by omega)
      have hself : s.maj.filter (fun x => ! near x) = s.maj := by
        rw [List.filter_eq_self]
        intro x hx
        rw [List.filter_eq_nil_iff] at h00
        simpa using h00 x hx
      obtain ⟨s', h1, h2, h3, h4, h5, h6, h7⟩ := hlast
        ({ s with synth := s.synth ++ samp.filter add, gammaS := gS, table := Q.map (fun p => s.maj.map (frstPos d p)) }) hmajne rfl rfl ⟨Q, rfl, hQ⟩
      refine ⟨s', h1, h2, h3, h4, Or.inl ⟨hbig', ?_, ?_, h7⟩⟩
      · rw [hself]; exact h5
      · rw [h00, List.append_nil]; exact h6

theorem scale_unscale {d : Nat} {m s r : Row} (hm : m.length = d) (hs : s.length = d) (hpos : ∀ x ∈ s, 0 < x) (hr : r.length = d) :
    scaleRow m s (unscaleRow m s r) = r := by
  have hu := unscaleRow_length hm hs hr
  apply row_ext (scaleRow_length hm hs hu) hr
  intro k hk
  rw [scaleRow_getD hm hs hu hk, unscaleRow_getD hm hs hr hk]
  have : 0 < s.getD k 0 := by
    rw [List.getD_eq_getElem?_getD, List.getElem?_eq_getElem (by omega)]
    exact hpos _ (List.getElem_mem _)
  field_simp
  ring

/-- What the rounds keep. -/
theorem frstRounds_keep {d n : Nat} {X A B M S R : List Row} {gS gM uS uM : ℚ} {t : Nat} (h : FrstRounds d n X A B gS gM t M S R uS uM) :
    (M ++ R).Perm B ∧ M.Sublist B ∧ (∀ x ∈ S, InHull d A x) ∧ (A.length ≤ B.length → A.length ≤ M.length) ∧ S.length ≤ t * n := by
  induction h with
  | start => exact ⟨by simp, List.Sublist.refl _, by simp, id, by simp⟩
  | move h few count hull first half ih =>
    obtain ⟨h1, h2, h3, h4, h5⟩ := ih
    rename_i t M S R new uS uM vS
    have hp := List.filter_append_perm (nearOneOf d X (A ++ S ++ R) uM) M
    refine ⟨?_, List.filter_sublist.trans h2, ?_, fun hab => ?_, ?_⟩
    · refine List.Perm.trans ?_ h1
      refine List.Perm.trans ?_ (hp.append_right R)
      rw [← List.append_assoc]
      refine List.Perm.trans List.perm_append_comm ?_
      rw [← List.append_assoc]
    · intro x hx
      rcases List.mem_append.1 hx with hx | hx
      · exact h3 x hx
      · exact hull x (List.mem_of_mem_filter hx)
    · have := hp.length_eq
      rw [List.length_append] at this
      omega
    · have := List.length_filter_le (nearOneOf d X A vS) new
      rw [List.length_append, Nat.succ_mul]
      omega
  | lower h few count hull first half ih =>
    obtain ⟨h1, h2, h3, h4, h5⟩ := ih
    rename_i t M S R new uS uM vS
    refine ⟨h1, h2, ?_, h4, ?_⟩
    · intro x hx
      rcases List.mem_append.1 hx with hx | hx
      · exact h3 x hx
      · exact hull x (List.mem_of_mem_filter hx)
    · have := List.length_filter_le (nearOneOf d X A vS) new
      rw [List.length_append, Nat.succ_mul]
      omega

theorem filter_map_near {d : Nat} {X Q M : List Row} {φ : Row → Row} {g : ℚ} (hφ : ∀ p q : Row, p.length = d → q.length = d →
      frstPos d (φ p) (φ q) = spanDist d X p q) (hQ : ∀ q ∈ Q, q.length = d) (hM : ∀ q ∈ M, q.length = d) :
    (M.map φ).filter (fun x => (Q.map φ).any (fun q => decide (frstPos d q x < g))) = (M.filter (nearOneOf d X Q g)).map φ ∧
    (M.map φ).filter (fun x => ! (Q.map φ).any (fun q => decide (frstPos d q x < g))) = (M.filter (fun x => ! nearOneOf d X Q g x)).map φ := by
  have h : ∀ x ∈ M, ((Q.map φ).any (fun q => decide (frstPos d q (φ x) < g))) = nearOneOf d X Q g x := by
    intro x hx
    unfold nearOneOf
    rw [Bool.eq_iff_iff, List.any_eq_true, List.any_eq_true]
    constructor
    · rintro ⟨q, hq, e⟩
      obtain ⟨q', hq', rfl⟩ := List.mem_map.1 hq
      exact ⟨q', hq', by rw [← hφ q' x (hQ q' hq') (hM x hx)]; exact e⟩
    · rintro ⟨q, hq, e⟩
      exact ⟨φ q, List.mem_map.2 ⟨q, hq, rfl⟩, by rw [hφ q x (hQ q hq) (hM x hx)]; exact e⟩
  constructor
  · rw [List.filter_map]
    congr 1
    exact List.filter_congr (fun x hx => h x hx)
  · rw [List.filter_map]
    congr 1
    exact List.filter_congr (fun x hx => congrArg (fun b => ! b) (h x hx))

theorem frstLoop_spec {d n N : Nat} {X A B : List Row} {gS gM : ℚ} {φ : Row → Row} {smote : Nat → Res (List Row × List Int)}
    (hφ : ∀ p q : Row, p.length = d → q.length = d → frstPos d (φ p) (φ q) = spanDist d X p q) (hA : ∀ q ∈ A, q.length = d)
    (hB : ∀ q ∈ B, q.length = d) (hA0 : A ≠ []) (hN : 0 < N)
    (hsm : ∀ it, ∃ (r : List Row × List Int) (new : List Row), smote it = .ok r ∧ r.1.drop n = new.map φ ∧ new.length = N ∧ ∀ x ∈ new, InHull d A x) :
    ∀ (fuel it : Nat) (s : FrstState) (M S R : List Row), FrstInv d (A.map φ) s → s.maj = M.map φ → s.synth = S.map φ → s.removed = R.map φ →
      FrstRounds d N X A B gS gM it M S R s.gammaS s.gammaM →
      ∃ (t : Nat) (M' S' R' : List Row) (uS uM : ℚ) (s' : FrstState), frstLoop d n smote (A.map φ) fuel it s = .ok s' ∧ t ≤ it + fuel ∧
        (t = it + fuel ∨ M'.length ≤ A.length + S'.length + R'.length) ∧ FrstRounds d N X A B gS gM t M' S' R' uS uM ∧
        s'.maj = M'.map φ ∧ s'.synth = S'.map φ ∧ s'.removed = R'.map φ
  | 0, it, s, M, S, R, _, hm, hs, hr, hrun => ⟨it, M, S, R, _, _, s, rfl, le_refl _, Or.inl rfl, hrun, hm, hs, hr⟩
  | fuel + 1, it, s, M, S, R, hinv, hm, hs, hr, hrun => by
    unfold frstLoop
    by_cases hfew : A.length + S.length + R.length < M.length
    · rw [if_pos (by rw [hm, hs, hr]; simpa using hfew)]
      obtain ⟨r, new, h1, h2, h3, h4⟩ := hsm it
      obtain ⟨hperm, hsub, hhull, hle, _⟩ := frstRounds_keep hrun
      have hMd : ∀ q ∈ M, q.length = d := fun q hq => hB q (hsub.subset hq)
      have hRd : ∀ q ∈ R, q.length = d := fun q hq => hB q (hperm.mem_iff.1 (List.mem_append.2 (Or.inr hq)))
      have hSd : ∀ q ∈ S, q.length = d := fun q hq => by
        obtain ⟨_, _, _, hc⟩ := hhull q hq
        exact hc.2.2.2.1
      have hnewd : ∀ q ∈ new, q.length = d := fun q hq => by
        obtain ⟨_, _, _, hc⟩ := h4 q hq
        exact hc.2.2.2.1
      have hQd : ∀ q ∈ A ++ S ++ R, q.length = d := by
        intro q hq
        rcases List.mem_append.1 hq with hq | hq
        · rcases List.mem_append.1 hq with hq | hq
          · exact hA q hq
          · exact hSd q hq
        · exact hRd q hq
      have hnew0 : new.map φ ≠ [] := by
        intro h
        have := congrArg List.length h
        simp at this
        rw [this] at h3
        simp at h3
        omega
      obtain ⟨s', e1, e2, e3, e4, e5⟩ := frstRound_spec (it := it) (samp := new.map φ) hinv (by simpa using hA0) hnew0
        (by rw [hm]; simp only [List.length_map]; omega)
      rw [h1, ok_bind, h2, e1, ok_bind]
      have hslen : s.synth.length = S.length := by rw [hs, List.length_map]
      rw [hslen] at e3
      have hQ : A.map φ ++ s.synth ++ s.removed = (A ++ S ++ R).map φ := by rw [hs, hr]; simp
      rw [hQ, hm] at e5
      have e4' : s'.synth = (S ++ new.filter (nearOneOf d X A s'.gammaS)).map φ := by
        rw [e4, (filter_map_near hφ hA hnewd).1, hs, List.map_append]
      rw [(filter_map_near hφ hQd hMd).1, (filter_map_near hφ hQd hMd).2] at e5
      simp only [List.length_map] at e5
      rcases e5 with ⟨half, f1, f2, f3⟩ | ⟨half, f1, f2, f3⟩
      · rw [hr, ← List.map_append] at f2
        have hstep := FrstRounds.move hrun hfew h3 h4 e3 half
        rw [← f3] at hstep
        obtain ⟨t, M', S', R', uS, uM, s'', g1, g2, g3, g4⟩ := frstLoop_spec hφ hA hB hA0 hN hsm fuel (it + 1) s' _ _ _ e2 f1 e4' f2 (by rw [f3] at hstep ⊢; exact hstep)
        exact ⟨t, M', S', R', uS, uM, s'', g1, by omega, by rcases g3 with g3 | g3 <;> [exact Or.inl (by omega); exact Or.inr g3], g4⟩
      · rw [hr] at f2
        have hstep := FrstRounds.lower hrun hfew h3 h4 e3 half
        rw [← f3] at hstep
        obtain ⟨t, M', S', R', uS, uM, s'', g1, g2, g3, g4⟩ := frstLoop_spec hφ hA hB hA0 hN hsm fuel (it + 1) s' _ _ _ e2 f1 e4' f2 hstep
        exact ⟨t, M', S', R', uS, uM, s'', g1, by omega, by rcases g3 with g3 | g3 <;> [exact Or.inl (by omega); exact Or.inr g3], g4⟩
    · rw [if_neg (by rw [hm, hs, hr]; simpa using hfew)]
      exact ⟨it, M, S, R, _, _, s, rfl, by omega, Or.inr (by omega), hrun, hm, hs, hr⟩

theorem frst_requested {ca cb : Nat} (h : ca < cb) :
    requested (max (11 / 10 / ((cb : ℚ) - ca)) (1 / 5)) cb ca = max 1 ((cb - ca) / 5) := by
  obtain ⟨k, rfl⟩ : ∃ k, cb = ca + k := ⟨cb - ca, by omega⟩
  have hk : 0 < k := by omega
  have hkq : (0 : ℚ) < k := by exact_mod_cast hk
  have e : ((ca + k : ℕ) : ℚ) - ca = k := by push_cast; ring
  unfold requested
  rw [e, Nat.add_sub_cancel_left]
  by_cases h6 : 6 ≤ k
  · have h6q : (6 : ℚ) ≤ k := by exact_mod_cast h6
    have : (11 / 10 / k : ℚ) ≤ 1 / 5 := by
      rw [div_le_iff₀ hkq]; linarith
    rw [max_eq_right this]
    have e2 : (k : ℚ) * (1 / 5) = (k : ℚ) / ((5 : ℕ) : ℚ) := by push_cast; ring
    have h3 : ⌊(k : ℚ) * (1 / 5)⌋ = ((k / 5 : ℕ) : ℤ) := by
      rw [Int.floor_eq_iff]
      have h1 := Nat.div_mul_le_self k 5
      have h2 := Nat.lt_div_mul_add (a := k) (b := 5) (by norm_num)
      have h1q : ((k / 5 : ℕ) : ℚ) * 5 ≤ k := by exact_mod_cast h1
      have h2q : (k : ℚ) < ((k / 5 : ℕ) : ℚ) * 5 + 5 := by exact_mod_cast h2
      rw [Int.cast_natCast]
      constructor <;> linarith
    rw [h3, Int.toNat_natCast]
    omega
  · have h5q : (k : ℚ) ≤ 5 := by exact_mod_cast (by omega : k ≤ 5)
    have : (1 / 5 : ℚ) ≤ 11 / 10 / k := by
      rw [le_div_iff₀ hkq]; linarith
    rw [max_eq_left this]
    have e2 : (k : ℚ) * (11 / 10 / k) = 11 / 10 := by field_simp
    rw [e2]
    have : ⌊(11 / 10 : ℚ)⌋ = 1 := by rw [Int.floor_eq_iff]; norm_num
    rw [this]
    have : k / 5 ≤ 1 := by omega
    rw [max_eq_left this]
    rfl

/-! ## Theorems -/

/-- **SMOTE_FRST_2T.** If the classes differ in size, the result are the rows of the majority left after at most 100 rounds, labelled as
the majority, followed by the minority rows, the new rows and the rows taken from the majority, all labelled as the minority. The rounds go on
until the minority is not smaller than the majority. A round generates a fifth of the difference of the class sizes, at least one row. -/
theorem C94_frst {par : FrstParams} {vol : List Row → ℚ} {dr : Nat → Draws} {d : Nat} {knn : Nat → List Row → List (List Nat)} {X : List Row}
    {y : List Int} {a b : Int} (hwf : WF d X y) (hk : KnnOK knn) (hdr : ∀ t, (dr t).OK) (hu : ∀ t i j, 0 < (dr t).simplexU i j)
    (hmin : IsMinority y a b) (h3 : 2 < y.count a) (hlt : y.count a < y.count b) (hg : par.ss.gaussian = .none) (hd : 1 ≤ par.ss.nDim)
    (hmode : par.ss.simplexSampling = .random ∨ par.ss.simplexSampling = .deterministic ∨
      (par.ss.simplexSampling = .volume ∧ ∀ vs, 0 < vol vs))
    (hwi : par.ss.within = .random ∨ (par.ss.within = .deterministic ∧ par.ss.nDim ≤ 2)) :
    ∃ (t : Nat) (M S R : List Row) (uS uM : ℚ),
      FrstRounds d (max 1 ((y.count b - y.count a) / 5)) X (classRows X y a) (classRows X y b) par.gammaS par.gammaM t M S R uS uM ∧
      t ≤ 100 ∧ (t = 100 ∨ M.length ≤ (classRows X y a).length + S.length + R.length) ∧
      sample defaultChecks d (frstAlg par vol dr d knn) X y =
        .ok (M ++ classRows X y a ++ S ++ R,
          List.replicate M.length b ++ List.replicate ((classRows X y a).length + S.length + R.length) a) := by
  have hxy := hwf.1
  have hwfd := hwf.2
  obtain ⟨s, hs, rfl, rfl⟩ := stats_of_isMinority hmin
  obtain ⟨hm, hM, hab⟩ := stats_min_mem hs
  have hAl := classRows_length hxy s.minLabel
  have hBl := classRows_length hxy s.majLabel
  have hX0 : X ≠ [] := by
    intro h
    rw [h] at hAl
    simp [classRows] at hAl
    omega
  obtain ⟨low, hlow⟩ : ∃ low : Row, low = (List.range d).map (frstMin X) := ⟨_, rfl⟩
  obtain ⟨rg, hrg⟩ : ∃ rg : Row, rg = (List.range d).map (frstRange X) := ⟨_, rfl⟩
  have hlowl : low.length = d := by rw [hlow]; simp
  have hrgl : rg.length = d := by rw [hrg]; simp
  have hrgp : ∀ x ∈ rg, 0 < x := by
    intro x hx
    rw [hrg] at hx
    obtain ⟨j, _, rfl⟩ := List.mem_map.1 hx
    exact frstRange_pos hX0 j
  have hAd : ∀ q ∈ classRows X y s.minLabel, q.length = d := fun q hq => hwfd q (mem_of_mem_classRows hq)
  have hBd : ∀ q ∈ classRows X y s.majLabel, q.length = d := fun q hq => hwfd q (mem_of_mem_classRows hq)
  have hφ : ∀ p q : Row, p.length = d → q.length = d → frstPos d (scaleRow low rg p) (scaleRow low rg q) = spanDist d X p q := by
    intro p q hp hq
    rw [frstPos_eq, hrg, frst_l1 hX0 hlowl hp hq]
    rfl
  have hA0 : classRows X y s.minLabel ≠ [] := by
    intro h
    rw [h] at hAl
    simp at hAl
    omega
  have hB0 : classRows X y s.majLabel ≠ [] := by
    intro h
    rw [h] at hBl
    simp at hBl
    omega
  have hwfs : WF d (X.map (scaleRow low rg)) y := by
    refine ⟨by rw [List.length_map]; exact hxy, ?_⟩
    intro r hr
    obtain ⟨q, hq, rfl⟩ := List.mem_map.1 hr
    exact scaleRow_length hlowl hrgl (hwfd q hq)
  have hsm : ∀ it, ∃ (r : List Row × List Int) (new : List Row),
      smoteSample ⟨max (11 / 10 / ((y.count s.majLabel : ℚ) - y.count s.minLabel)) (1 / 5), par.nNeighbors, par.ss⟩ vol (dr it) d knn
        (X.map (scaleRow low rg)) y = .ok r ∧ r.1.drop X.length = new.map (scaleRow low rg) ∧
      new.length = max 1 ((y.count s.majLabel - y.count s.minLabel) / 5) ∧ ∀ x ∈ new, InHull d (classRows X y s.minLabel) x := by
    intro it
    obtain ⟨⟨Xs, ys⟩, hr⟩ := C01_smote_total
      (par := ⟨max (11 / 10 / ((y.count s.majLabel : ℚ) - y.count s.minLabel)) (1 / 5), par.nNeighbors, par.ss⟩) (vol := vol)
      hwfs hk (hdr it) (hu it) hmin hd hmode hwi
    obtain ⟨new, e1, e2, e3, e4⟩ := smoteStep_of hwfs hk (hdr it) hg hs h3 hr
    rw [classRows_map] at e4
    refine ⟨_, new.map (unscaleRow low rg), hr, ?_, ?_, ?_⟩
    · rw [e1]
      have : X.length = (X.map (scaleRow low rg)).length := by simp
      rw [this, List.drop_left, List.map_map]
      conv_lhs => rw [← List.map_id new]
      apply List.map_congr_left
      intro x hx
      obtain ⟨_, _, _, hc⟩ := e4 x hx
      exact (scale_unscale hlowl hrgl hrgp hc.2.2.2.1).symm
    · rw [List.length_map, e3]
      exact frst_requested hlt
    · intro x hx
      obtain ⟨z, hz, rfl⟩ := List.mem_map.1 hx
      exact unscale_inHull hlowl hrgl hrgp hAd (e4 z hz)
  obtain ⟨t, M, S, R, uS, uM, st, g1, g2, g3, g4, g5, g6, g7⟩ := frstLoop_spec (n := X.length) (gS := par.gammaS) (gM := par.gammaM) hφ hAd hBd hA0
    (N := max 1 ((y.count s.majLabel - y.count s.minLabel) / 5)) (by omega) hsm 100 0
    { maj := (classRows X y s.majLabel).map (scaleRow low rg), synth := [], removed := [], gammaS := par.gammaS, gammaM := par.gammaM,
      table := ((classRows X y s.minLabel).map (scaleRow low rg)).map (fun p => ((classRows X y s.majLabel).map (scaleRow low rg)).map (frstPos d p)) }
    (classRows X y s.majLabel) [] [] ⟨⟨_, rfl, by simp⟩⟩ rfl rfl rfl FrstRounds.start
  refine ⟨t, M, S, R, uS, uM, g4, by omega, by simpa using g3, ?_⟩
  obtain ⟨hperm, hsub, hhull, _, _⟩ := frstRounds_keep g4
  rw [sample_default hs, if_neg (by omega)]
  unfold frstAlg
  rw [stats_count hs hm, stats_count hs hM, if_neg (by omega)]
  dsimp only
  simp only [selectLabel_eq_classRows, classRows_map]
  rw [← hlow, ← hrg, frstTable_ok (by simpa using hA0) (by simpa using hB0), ok_bind, g1, ok_bind, g5, g6, g7]
  have hback : ∀ l : List Row, (∀ q ∈ l, q.length = d) → (l.map (scaleRow low rg)).map (unscaleRow low rg) = l := by
    intro l hl
    rw [List.map_map]
    conv_rhs => rw [← List.map_id l]
    apply List.map_congr_left
    intro x hx
    exact unscale_scale hlowl hrgl hrgp (hl x hx)
  have hMd : ∀ q ∈ M, q.length = d := fun q hq => hBd q (hsub.subset hq)
  have hRd : ∀ q ∈ R, q.length = d := fun q hq => hBd q (hperm.mem_iff.1 (List.mem_append.2 (Or.inr hq)))
  have hSd : ∀ q ∈ S, q.length = d := fun q hq => by
    obtain ⟨_, _, _, hc⟩ := hhull q hq
    exact hc.2.2.2.1
  simp only [List.map_append, hback M hMd, hback R hRd, hback S hSd, hback _ hAd]
  show Except.ok _ = Except.ok _
  congr 2
  · simp [List.append_assoc]
  · simp only [List.length_append, List.length_map]
    congr 2
    omega

/-- What is left of the majority and what was taken from it are together the majority of the input, and the order of what is left
is that of the input. The minority rows are unchanged, the new rows lie in their hull, at most `n` per round, and the majority left has at least as many
rows as the minority of the input. -/
theorem C94_kept {d n : Nat} {X A B M S R : List Row} {gS gM uS uM : ℚ} {t : Nat} (h : FrstRounds d n X A B gS gM t M S R uS uM) :
    (M ++ R).Perm B ∧ M.Sublist B ∧ (∀ x ∈ S, InHull d A x) ∧ (A.length ≤ B.length → A.length ≤ M.length) ∧ S.length ≤ t * n :=
  frstRounds_keep h

/-- Classes of equal size, or a minority of at most two rows: the input is returned. -/
theorem C94_unneeded {par : FrstParams} {vol : List Row → ℚ} {dr : Nat → Draws} {d : Nat} {knn : Nat → List Row → List (List Nat)} {X : List Row}
    {y : List Int} {a b : Int} (hmin : IsMinority y a b) (h : y.count a ≤ 2 ∨ y.count a = y.count b) :
    sample defaultChecks d (frstAlg par vol dr d knn) X y = .ok (X, y) := by
  obtain ⟨s, hs, rfl, rfl⟩ := stats_of_isMinority hmin
  obtain ⟨hm, hM, hab⟩ := stats_min_mem hs
  rw [sample_default hs]
  split
  · rfl
  · unfold frstAlg
    rw [stats_count hs hm, stats_count hs hM, if_pos (by omega)]
    rfl

theorem spanDist_nonneg {d : Nat} {X : List Row} (hX : X ≠ []) (p q : Row) : 0 ≤ spanDist d X p q := by
  unfold spanDist
  apply le_min (by norm_num)
  apply List.sum_nonneg
  intro z hz
  obtain ⟨j, _, rfl⟩ := List.mem_map.1 hz
  rw [← frstRange_eq]
  have := frstRange_pos hX j
  positivity

/-- Thresholds of 0 are accepted: then 100 rounds give nothing, and the result is the input with the majority rows put first. -/
theorem C94_zero {d n : Nat} {X A B M S R : List Row} {uS uM : ℚ} {t : Nat} (hX : X ≠ []) (h : FrstRounds d n X A B 0 0 t M S R uS uM) :
    M = B ∧ S = [] ∧ R = [] ∧ uS = 0 ∧ uM = 0 := by
  have hnone : ∀ Q x, nearOneOf d X Q 0 x = false := by
    intro Q x
    unfold nearOneOf
    rw [List.any_eq_false]
    intro q _
    rw [decide_eq_true_iff]
    exact not_lt.2 (spanDist_nonneg hX q x)
  induction h with
  | start => exact ⟨rfl, rfl, rfl, rfl, rfl⟩
  | move h few count hull first half ih =>
    obtain ⟨rfl, rfl, rfl, rfl, rfl⟩ := ih
    have : _ = (0 : ℚ) := first.trans (by simp)
    subst this
    have e : ∀ Q, nearOneOf d X Q 0 = fun _ => false := fun Q => funext (hnone Q)
    simp [e]
  | lower h few count hull first half ih =>
    obtain ⟨rfl, rfl, rfl, rfl, rfl⟩ := ih
    have : _ = (0 : ℚ) := first.trans (by simp)
    subst this
    have e : ∀ Q, nearOneOf d X Q 0 = fun _ => false := fun Q => funext (hnone Q)
    simp [e]

/-! ## Examples -/

def frstX : List Row := [[1], [2], [4], [2], [20], [30], [40], [41]]
def frstY : List Int := [1, 1, 1, 0, 0, 0, 0, 0]
def frstPar : FrstParams :=
  { nNeighbors := 2, ss := { nDim := 2, simplexSampling := .random, within := .random, gaussian := .none }, gammaS := 7 / 10, gammaM := 3 / 100 }
def frstEmpty (par : FrstParams) : Res (List Row × List Int) := sample defaultChecks 1 (frstAlg par (fun _ => 0) (fun _ => exDraws) 1 exKnn) frstX frstY

theorem frst_hyps : WF 1 frstX frstY ∧ IsMinority frstY 1 0 ∧ 2 < frstY.count 1 ∧ frstY.count 1 < frstY.count 0 ∧ exDraws.OK ∧ KnnOK exKnn ∧
    (∀ i j, 0 < exDraws.simplexU i j) :=
  ⟨⟨by decide, by decide⟩, ⟨by decide, by decide, by decide, Or.inl (by decide)⟩, by decide, by decide, exDraws_ok, exKnn_ok,
    fun i j => by simp only [exDraws]; positivity⟩

/-- With the default thresholds, in data that satisfies every condition, a majority row of the input is returned as a minority row, and the rows come
in another order than in the input. -/
theorem C94_relabelled : ∃ (d : Nat) (X : List Row) (y : List Int) (X' : List Row) (y' : List Int) (x : Row),
    WF d X y ∧ IsMinority y 1 0 ∧ sample defaultChecks d (frstAlg frstPar (fun _ => 0) (fun _ => exDraws) d exKnn) X y = .ok (X', y') ∧
    (X.zip y).count (x, 0) = 1 ∧ (X'.zip y').count (x, 0) = 0 ∧ (X'.zip y').count (x, 1) = (X.zip y).count (x, 1) + 1 ∧
    X'.take X.length ≠ X := by
  refine ⟨1, frstX, frstY, [[20], [30], [40], [41], [1], [2], [4], [8/5], [2]], [0, 0, 0, 0, 1, 1, 1, 1, 1], [2], frst_hyps.1, frst_hyps.2.1, ?_, ?_, ?_, ?_, ?_⟩ <;>
    decide +kernel

example : frstEmpty { frstPar with gammaS := 0, gammaM := 0 } = .ok ([[2], [20], [30], [40], [41], [1], [2], [4]], [0, 0, 0, 0, 0, 1, 1, 1]) := by
  decide +kernel

/-- The rounds of this data exist. -/
example : ∃ (t : Nat) (M S R : List Row) (uS uM : ℚ),
    FrstRounds 1 (max 1 ((frstY.count 0 - frstY.count 1) / 5)) frstX (classRows frstX frstY 1) (classRows frstX frstY 0) (7 / 10) (3 / 100) t M S R uS uM ∧
    t ≤ 100 := by
  obtain ⟨h1, h2, h3, h4, h5, h6, h7⟩ := frst_hyps
  obtain ⟨t, M, S, R, uS, uM, h, ht, _⟩ := C94_frst (par := frstPar) (vol := fun _ => 0) (dr := fun _ => exDraws) h1 h6 (fun _ => h5) (fun _ => h7) h2 h3 h4
    rfl (by decide) (Or.inl rfl) (Or.inl rfl)
  exact ⟨t, M, S, R, uS, uM, h, ht⟩

end Verif

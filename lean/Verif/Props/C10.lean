import Verif.Lemmas.SamplerTotal
import Verif.Lemmas.Perm

/-!
# C10 Deterministic in-simplex sampling yields one distinct interior point per pick on the right segment
-/

namespace Verif

/-- The point at the fraction `t` of the way from `a` to `b`. -/
def pointAt (a b : Row) (t : ℚ) : Row := List.zipWith (fun x z => x + t * (z - x)) a b

/-- The points expected for a multiset of picked pairs: a pair picked `c` times yields the points at
`1/(c+1), …, c/(c+1)` of its segment. -/
def expectedPoints (X V : List Row) (pairs : List (Nat × Nat)) : List Row :=
  pairs.dedup.flatMap (fun p => (List.range' 1 (pairs.count p)).map (fun (j : Nat) =>
    pointAt (X.getD p.1 []) (V.getD p.2 []) ((j : ℚ) / ((pairs.count p : ℚ) + 1))))

theorem addSamples_eq {pairs : List ((Nat × Nat) × Nat)} {c : Nat} {X V : List Row}
    (hb : ∀ pc ∈ pairs, pc.1.1 < X.length ∧ pc.1.2 < V.length) :
    addSamples pairs c X V none = .ok ((List.range' 1 c).flatMap (fun (j : Nat) =>
      (pairs.filter (fun pc => pc.2 == c)).map (fun pc =>
        pointAt (X.getD pc.1.1 []) (V.getD pc.1.2 []) ((j : ℚ) / ((c : ℚ) + 1))))) := by
  unfold addSamples
  simp only
  have : ((pairs.filter (fun pc => pc.2 == c)).map Prod.fst).mapM (fun p => do
      let base ← getRow X p.1
      let nb ← getRow V p.2
      let w ← vertexWeight none p.2
      return (base, Row.smul w (Row.sub nb base)) : _ → Res (Row × Row))
      = .ok (((pairs.filter (fun pc => pc.2 == c)).map Prod.fst).map (fun p =>
        (X.getD p.1 [], Row.smul 1 (Row.sub (V.getD p.2 []) (X.getD p.1 []))))) := by
    apply mapM_ok_of
    intro p hp
    rw [List.mem_map] at hp
    obtain ⟨pc, hpc, rfl⟩ := hp
    obtain ⟨h1, h2⟩ := hb pc (List.mem_filter.1 hpc).1
    rw [getRow_lt h1, ok_bind, getRow_lt h2, ok_bind]
    simp [vertexWeight, List.getD_eq_getElem?_getD, h1, h2, pure, Except.pure]
  rw [this, ok_bind]
  simp only [pure, Except.pure, List.map_map]
  congr 1
  apply List.flatMap_congr
  intro j _
  apply List.map_congr_left
  intro pc _
  simp only [Function.comp, pointAt, Row.add, Row.smul, Row.sub, one_mul, List.map_id']
  generalize X.getD pc.1.1 [] = a
  generalize V.getD pc.1.2 [] = b
  induction a generalizing b with
  | nil => simp
  | cons x a ih =>
    cases b with
    | nil => simp
    | cons z b =>
      simp only [List.zipWith_cons_cons, List.map_cons, ih]
      congr 1
      field_simp

theorem sum_count_dedup (l : List (Nat × Nat)) : (l.dedup.map (fun a => l.count a)).sum = l.length := by
  rw [← List.sum_map_count_dedup_eq_length l]
  congr 1
  apply List.map_congr_left
  intro p _
  simp only [List.count]
  apply List.countP_congr
  intro q _
  simp only [beq_iff_eq]

theorem dim2_core {X V : List Row} {pairs : List (Nat × Nat)}
    (hb : ∀ p ∈ pairs, p.1 < X.length ∧ p.2 < V.length) :
    ∃ parts, (((List.range' 1 ((((npUniqueCounts (pairs.map (fun p => (toLex p : Nat ×ₗ Nat)))).map
        (fun vc => (ofLex vc.1, vc.2))).map Prod.snd).foldr max 0)).filter
      (fun c => (((npUniqueCounts (pairs.map (fun p => (toLex p : Nat ×ₗ Nat)))).map
        (fun vc => (ofLex vc.1, vc.2))).map Prod.snd).contains c)).mapM (fun c => addSamples
          ((npUniqueCounts (pairs.map (fun p => (toLex p : Nat ×ₗ Nat)))).map
            (fun vc => (ofLex vc.1, vc.2))) c X V none)) = .ok parts ∧
      parts.flatten.Perm (expectedPoints X V pairs) := by
  set uc : List ((Nat × Nat) × Nat) :=
    (npUniqueCounts (pairs.map (fun p => (toLex p : Nat ×ₗ Nat)))).map (fun vc => (ofLex vc.1, vc.2))
    with huc
  have hucv : uc = ((npUnique (pairs.map (fun p => (toLex p : Nat ×ₗ Nat)))).map
      (fun v => (ofLex v, pairs.count (ofLex v)))) := by
    rw [huc, npUniqueCounts, List.map_map]
    apply List.map_congr_left
    intro v _
    simp only [Function.comp]
    congr 1
    simp only [List.count, List.countP_map]
    apply List.countP_congr
    intro p _
    simp only [Function.comp, beq_iff_eq]
    exact Iff.rfl
  have hmem : ∀ pc ∈ uc, pc.1 ∈ pairs ∧ pc.2 = pairs.count pc.1 := by
    intro pc hpc
    rw [hucv, List.mem_map] at hpc
    obtain ⟨v, hv, rfl⟩ := hpc
    rw [mem_npUnique, List.mem_map] at hv
    obtain ⟨p, hp, rfl⟩ := hv
    exact ⟨hp, rfl⟩
  set D := (List.range' 1 ((uc.map Prod.snd).foldr max 0)).filter
    (fun c => (uc.map Prod.snd).contains c) with hD
  refine ⟨D.map (fun c => (List.range' 1 c).flatMap (fun (j : Nat) =>
      (uc.filter (fun pc => pc.2 == c)).map (fun pc =>
        pointAt (X.getD pc.1.1 []) (V.getD pc.1.2 []) ((j : ℚ) / ((c : ℚ) + 1))))), ?_, ?_⟩
  · exact mapM_ok_of (fun c _ => addSamples_eq (fun pc hpc => hb _ (hmem pc hpc).1))
  · rw [← List.flatMap_def]
    have h1 : (D.flatMap (fun c => (List.range' 1 c).flatMap (fun (j : Nat) =>
        (uc.filter (fun pc => pc.2 == c)).map (fun pc =>
          pointAt (X.getD pc.1.1 []) (V.getD pc.1.2 []) ((j : ℚ) / ((c : ℚ) + 1)))))).Perm
        (D.flatMap (fun c => (uc.filter (fun pc => pc.2 == c)).flatMap (fun pc =>
          (List.range' 1 pc.2).map (fun (j : Nat) =>
            pointAt (X.getD pc.1.1 []) (V.getD pc.1.2 []) ((j : ℚ) / ((pc.2 : ℚ) + 1)))))) := by
      apply flatMap_congr_perm
      intro c _
      refine (flatMap_swap_perm _ _ _).trans ?_
      apply flatMap_congr_perm
      intro pc hpc
      have : pc.2 = c := by simpa using (List.mem_filter.1 hpc).2
      rw [this]
    refine h1.trans ((flatMap_group_perm D uc Prod.snd _ ?_ ?_).trans ?_)
    · exact List.Nodup.filter _ (List.nodup_range' (step := 1))
    · intro pc hpc
      have hc : pc.2 ∈ uc.map Prod.snd := List.mem_map.2 ⟨pc, hpc, rfl⟩
      rw [hD, List.mem_filter]
      refine ⟨?_, by simpa using hc⟩
      rw [List.mem_range'_1]
      have h2 := foldr_max_ge hc
      have h3 := hmem pc hpc
      have := List.count_pos_iff.2 h3.1
      omega
    · rw [hucv, List.flatMap_map]
      unfold expectedPoints
      have hperm : ((npUnique (pairs.map (fun p => (toLex p : Nat ×ₗ Nat)))).map ofLex).Perm
          pairs.dedup := by
        apply (List.perm_ext_iff_of_nodup ?_ (List.nodup_dedup _)).2
        · intro p
          rw [List.mem_map, List.mem_dedup]
          constructor
          · rintro ⟨v, hv, rfl⟩
            rw [mem_npUnique, List.mem_map] at hv
            obtain ⟨q, hq, rfl⟩ := hv
            exact hq
          · intro hp
            exact ⟨toLex p, mem_npUnique.2 (List.mem_map.2 ⟨p, hp, rfl⟩), rfl⟩
        · exact (npUnique_nodup _).map (fun a b h => h)
      have := hperm.flatMap_right (fun p => (List.range' 1 (pairs.count p)).map (fun (j : Nat) =>
        pointAt (X.getD p.1 []) (V.getD p.2 []) ((j : ℚ) / ((pairs.count p : ℚ) + 1))))
      rw [List.flatMap_map] at this
      exact this

/-- Same base and neighbour set: the vertex order of a pair is ignored, and the generated rows are, up
to order, exactly the expected points of the picked (unordered) pairs. -/
theorem C10_dim2_same_set {X : List Row} {pairs : List (Nat × Nat)}
    (hb : ∀ p ∈ pairs, p.1 < X.length ∧ p.2 < X.length) :
    ∃ out, deterministicSamples X (pairs.map (fun p => [p.1, p.2])) none false none 2 = .ok out ∧
      out.Perm (expectedPoints X X (pairs.map (fun p => (min p.1 p.2, max p.1 p.2)))) ∧
      out.length = pairs.length := by
  have hpairs : (pairs.map (fun p => [p.1, p.2])).mapM edgeOf = .ok pairs := by
    rw [mapM_ok_iff, List.forall₂_map_left_iff]
    exact List.forall₂_same.2 (fun p _ => rfl)
  obtain ⟨parts, h1, h2⟩ := dim2_core (X := X) (V := X)
    (pairs := pairs.map (fun p => (min p.1 p.2, max p.1 p.2))) (by
      intro p hp
      rw [List.mem_map] at hp
      obtain ⟨q, hq, rfl⟩ := hp
      have := hb q hq
      simp only; omega)
  have hout : deterministicSamples X (pairs.map (fun p => [p.1, p.2])) none false none 2
      = .ok parts.flatten := by
    unfold deterministicSamples deterministicSamplesDim2
    rw [if_pos rfl, hpairs, ok_bind]
    simp only [Option.isNone_none, Bool.true_or, if_true]
    rw [h1, ok_bind]
    rfl
  refine ⟨_, hout, h2, ?_⟩
  rw [h2.length_eq]
  unfold expectedPoints
  rw [List.length_flatMap]
  simp only [List.length_map, List.length_range']
  rw [sum_count_dedup, List.length_map]

/-- Separate neighbour set: pairs are ordered. -/
theorem C10_dim2_two_sets {X V : List Row} {pairs : List (Nat × Nat)}
    (hb : ∀ p ∈ pairs, p.1 < X.length ∧ p.2 < V.length) :
    ∃ out, deterministicSamples X (pairs.map (fun p => [p.1, p.2])) (some V) false none 2 = .ok out ∧
      out.Perm (expectedPoints X V pairs) ∧ out.length = pairs.length := by
  have hpairs : (pairs.map (fun p => [p.1, p.2])).mapM edgeOf = .ok pairs := by
    rw [mapM_ok_iff, List.forall₂_map_left_iff]
    exact List.forall₂_same.2 (fun p _ => rfl)
  obtain ⟨parts, h1, h2⟩ := dim2_core (X := X) (V := V) (pairs := pairs) hb
  have hout : deterministicSamples X (pairs.map (fun p => [p.1, p.2])) (some V) false none 2
      = .ok parts.flatten := by
    unfold deterministicSamples deterministicSamplesDim2
    rw [if_pos rfl, hpairs, ok_bind]
    simp only [Option.isNone_some, Bool.or_self, Bool.false_eq_true, if_false, Option.getD_some]
    rw [h1, ok_bind]
    rfl
  refine ⟨_, hout, h2, ?_⟩
  rw [h2.length_eq]
  unfold expectedPoints
  rw [List.length_flatMap]
  simp only [List.length_map, List.length_range']
  rw [sum_count_dedup]

/-- The points of one pair are pairwise distinct when its end points differ. -/
theorem C10_points_distinct {a b : Row} (hl : a.length = b.length) (hab : a ≠ b) (c : Nat) :
    ((List.range' 1 c).map (fun (j : Nat) => pointAt a b ((j : ℚ) / ((c : ℚ) + 1)))).Nodup := by
  have inj : ∀ s t : ℚ, pointAt a b s = pointAt a b t → s = t := by
    intro s t hst
    induction a generalizing b with
    | nil => cases b with
      | nil => exact absurd rfl hab
      | cons _ _ => simp at hl
    | cons x a ih =>
      cases b with
      | nil => simp at hl
      | cons z b =>
        simp only [pointAt, List.zipWith_cons_cons, List.cons.injEq] at hst
        by_cases hxz : x = z
        · subst hxz
          exact ih (by simpa using hl) (by intro h; exact hab (by rw [h])) hst.2
        · have hne : z - x ≠ 0 := sub_ne_zero.2 (Ne.symm hxz)
          have := hst.1
          exact mul_right_cancel₀ hne (by linarith)
  refine List.Nodup.map_on ?_ (List.nodup_range' (step := 1))
  intro i _ j _ hij
  have := inj _ _ hij
  have hc : ((c : ℚ) + 1) ≠ 0 := by positivity
  rw [div_left_inj' hc] at this
  exact_mod_cast this

/-- Strict interior: every fraction used is strictly between 0 and 1. -/
theorem C10_strictly_inside {c j : Nat} (hj : j ∈ List.range' 1 c) :
    0 < (j : ℚ) / ((c : ℚ) + 1) ∧ (j : ℚ) / ((c : ℚ) + 1) < 1 := by
  rw [List.mem_range'_1] at hj
  have hc : (0:ℚ) < (c : ℚ) + 1 := by positivity
  have h1 : (0:ℚ) < j := by exact_mod_cast hj.1
  have h2 : (j : ℚ) < c + 1 := by exact_mod_cast (by omega : j < c + 1)
  exact ⟨div_pos h1 hc, (div_lt_one hc).2 h2⟩

/-- Dimension one returns the picked points themselves. -/
theorem C10_dim1 {X : List Row} {sel : List Nat} (hb : ∀ i ∈ sel, i < X.length)
    (Xv : Option (List Row)) (same : Bool) (vw : Option (List ℚ)) :
    deterministicSamples X (sel.map (fun i => [i])) Xv same vw 1
      = .ok (sel.map (fun i => X.getD i [])) := by
  unfold deterministicSamples
  rw [if_neg (by decide), if_pos rfl]
  rw [mapM_ok_iff, List.forall₂_map_left_iff, List.forall₂_map_right_iff]
  refine List.forall₂_same.2 (fun i hi => ?_)
  have h := hb i hi
  simp only []
  rw [getRow_lt h]
  simp [List.getD_eq_getElem?_getD, h]

/-- Every other dimension is rejected. -/
theorem C10_other_dims_raise {X : List Row} {sel : List (List Nat)} {Xv : Option (List Row)}
    {same : Bool} {vw : Option (List ℚ)} {nDim : Nat} (h1 : nDim ≠ 1) (h2 : nDim ≠ 2) :
    deterministicSamples X sel Xv same vw nDim = .error .valueError := by
  unfold deterministicSamples
  rw [if_neg h2, if_neg h1]

/-- Non-vacuity: one pair picked twice in both orders, another once. -/
example : deterministicSamples [[0], [3], [5]] [[0, 1], [1, 0], [1, 2]] none false none 2
    = .ok [[4], [1], [2]] := by decide +kernel
example : deterministicSamples [[0], [3], [5]] [[2], [0]] none false none 1 = .ok [[5], [0]] := by
  decide +kernel

end Verif

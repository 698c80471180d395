import Verif.Model.PsoBatEval
import Verif.Props.C96
import Verif.Props.C19
import Mathlib.Tactic.FieldSimp
import Mathlib.Tactic.Ring

/-!
# C144: the scores of SMOTE_PSOBAT
-/

namespace Verif

/-! ## Specification -/

/-- The share of the rows whose prediction is right. -/
def agreement (y preds : List Int) : ℚ := ((y.zip preds).countP (fun p => decide (p.1 = p.2)) : ℚ) / (y.length : ℚ)

/-- The share that would be right by chance: for both classes, the share in the labels times the share in the predictions. -/
def byChance (a b : Int) (y preds : List Int) : ℚ :=
  (y.count a : ℚ) / y.length * ((preds.count a : ℚ) / y.length) + (y.count b : ℚ) / y.length * ((preds.count b : ℚ) / y.length)

/-- Contract of the tree: it predicts a label it has seen. -/
def TreeOK (tree : List Row → List Int → Row → Int) : Prop := ∀ X (y : List Int) q, X.length = y.length → y ≠ [] → tree X y q ∈ y

/-! ## Helpers -/

theorem crossPredicted_of {predict : List Row → List Int → List Row → Res (List Int)} {X : List Row} {y : List Int} {k : Nat}
    (hxy : X.length = y.length)
    (hp : ∀ Xtr (ytr : List Int) Xte, Xtr.length = ytr.length → ytr ≠ [] → ∃ p, predict Xtr ytr Xte = .ok p ∧ p.length = Xte.length)
    (hk2 : 2 ≤ k) (hkn : k ≤ X.length) :
    ∃ preds, gaCross predict X y (gaFoldSizes X.length k) 0 = .ok (preds, y) ∧ preds.length = y.length ∧ CrossPredicted predict k X y preds := by
  have hsum := foldSizes_sum X.length k (by omega)
  obtain ⟨parts, h1, h3, h4⟩ := gaCross_spec (predict := predict) hxy hp (gaFoldSizes X.length k) 0 (by omega) (foldSizes_lt _ _ hk2 hkn)
  rw [List.drop_zero] at h1
  have hpl : parts.flatten.length = y.length := by
    rw [List.length_flatten, ← hxy, ← hsum]
    congr 1
    apply List.ext_getElem
    · simp [h3]
    · intro i h5 h6
      obtain ⟨part, e1, e2, _⟩ := h4 i _ (List.getElem?_eq_getElem h6)
      rw [List.getElem_map, ← e2]
      rw [List.length_map] at h5
      rw [List.getElem?_eq_getElem h5] at e1
      injection e1 with e1
      rw [e1]
  refine ⟨parts.flatten, h1, hpl, ?_⟩
  have hz : (X.zip y).length = X.length := by rw [List.length_zip]; omega
  refine ⟨(gaFoldSizes X.length k).splitLengths (X.zip y), parts, ?_, ?_, rfl, by rw [h3]; simp [gaFoldSizes], ?_⟩
  · exact List.flatten_splitLengths _ _ (by omega)
  · rw [List.map_splitLengths_length _ _ (by omega)]
    rfl
  · intro i block hb
    have hi : i < (gaFoldSizes X.length k).length := by
      have := (List.getElem?_eq_some_iff.1 hb).1
      rwa [List.length_splitLengths] at this
    obtain ⟨part, e1, e2, e3⟩ := h4 i _ (List.getElem?_eq_getElem hi)
    obtain ⟨e4, e5⟩ := splitLengths_eraseIdx (gaFoldSizes X.length k) (X.zip y) (by omega) i _ (List.getElem?_eq_getElem hi)
    rw [hb] at e5
    injection e5 with e5
    have hsm : ((gaFoldSizes X.length k).take i).sum + (gaFoldSizes X.length k)[i] ≤ X.length := by
      have h7 : ((gaFoldSizes X.length k).take (i + 1)).sum ≤ (gaFoldSizes X.length k).sum := by
        conv_rhs => rw [← List.take_append_drop (i + 1) (gaFoldSizes X.length k), List.sum_append]
        omega
      rw [List.take_succ_eq_append_getElem hi, List.sum_append, List.sum_singleton] at h7
      omega
    refine ⟨part, e1, ?_, ?_⟩
    · rw [e2, e5, List.length_take, List.length_drop, hz]
      omega
    · rw [e4, e5]
      rw [Nat.zero_add] at e3
      rw [List.map_append, List.map_append, List.map_take, List.map_take, List.map_take, List.map_drop, List.map_drop, List.map_drop,
        List.map_fst_zip (by omega), List.map_snd_zip (by omega)]
      exact e3

theorem pbCount_cons (p t : Int) (ps ts : List Int) (r : Bool) (l : Int) :
    pbCount (p :: ps) (t :: ts) r l = pbCount ps ts r l + if (decide (p = t) == r) = true ∧ t = l then 1 else 0 := by
  unfold pbCount
  rw [List.zip_cons_cons, List.filter_cons]
  by_cases h : (decide (p = t) == r) = true ∧ t = l
  · rw [if_pos h, if_pos (by rw [Bool.and_eq_true]; exact ⟨h.1, decide_eq_true h.2⟩), List.length_cons]
  · rw [if_neg h, if_neg (by rw [Bool.and_eq_true]; exact fun h' => h ⟨h'.1, of_decide_eq_true h'.2⟩)]
    rfl

theorem counts_spec {a b : Int} (hab : a ≠ b) : ∀ {ps ts : List Int}, ps.length = ts.length → (∀ x ∈ ps, x = a ∨ x = b) → (∀ x ∈ ts, x = a ∨ x = b) →
    pbCount ps ts true a + pbCount ps ts false a = ts.count a ∧ pbCount ps ts true a + pbCount ps ts false b = ps.count a ∧
    pbCount ps ts false b + pbCount ps ts true b = ts.count b ∧ pbCount ps ts false a + pbCount ps ts true b = ps.count b ∧
    pbCount ps ts true a + pbCount ps ts true b = (ts.zip ps).countP (fun p => decide (p.1 = p.2)) ∧ ts.count a + ts.count b = ts.length ∧
    ps.count a + ps.count b = ts.length
  | [], [], _, _, _ => by simp [pbCount]
  | p :: ps, t :: ts, hl, hp, ht => by
    obtain ⟨h1, h2, h3, h4, h5, h6, h7⟩ := counts_spec hab (ps := ps) (ts := ts) (by simpa using hl) (fun x hx => hp x (by simp [hx]))
      (fun x hx => ht x (by simp [hx]))
    have hba : b ≠ a := hab.symm
    rcases hp p (by simp) with rfl | rfl <;> rcases ht t (by simp) with rfl | rfl <;>
      simp only [pbCount_cons, List.zip_cons_cons, List.countP_cons, List.count_cons, List.length_cons] <;>
      simp [hab, hba] <;> omega
  | [], _ :: _, hl, _, _ => by simp at hl
  | _ :: _, [], hl, _, _ => by simp at hl

theorem agree_all : ∀ {ts ps : List Int}, ps.length = ts.length → ((ts.zip ps).countP (fun p => decide (p.1 = p.2)) = ts.length ↔ ps = ts)
  | [], [], _ => by simp
  | t :: ts, p :: ps, hl => by
    have ih := agree_all (ts := ts) (ps := ps) (by simpa using hl)
    have hle : (ts.zip ps).countP (fun p => decide (p.1 = p.2)) ≤ ts.length := by
      refine le_trans List.countP_le_length ?_
      rw [List.length_zip]
      omega
    rw [List.zip_cons_cons, List.countP_cons, List.length_cons, List.cons.injEq]
    by_cases h : t = p
    · subst h
      simp [ih]
    · simp only [h, decide_false, Bool.false_eq_true, if_false]
      constructor
      · intro h'; omega
      · rintro ⟨h', _⟩; exact absurd h'.symm h
  | [], _ :: _, hl => by simp at hl
  | _ :: _, [], hl => by simp at hl

/-- The numbers: agreement `c / n` and chance `(A * A' + B * B') / n²`. -/
theorem kappa_spec {n po pe : ℚ} {A B A' B' : ℚ} (hn : 0 < n) (hA : 0 ≤ A) (hB : 0 ≤ B) (hA' : 0 ≤ A') (hB' : 0 ≤ B') (h1 : A + B = n) (h2 : A' + B' = n)
    (hpo : po ≤ 1) (hpe : pe = A / n * (A' / n) + B / n * (B' / n)) (hne : 1 - pe ≠ 0) :
    (po - pe) / (1 - pe) * (1 - pe) = po - pe ∧ (po - pe) / (1 - pe) ≤ po ∧ ((po - pe) / (1 - pe) = 1 ↔ po = 1) := by
  have hle : pe ≤ 1 := by
    have : pe = (A * A' + B * B') / n ^ 2 := by rw [hpe]; field_simp
    rw [this, div_le_one (by positivity)]
    have : n ^ 2 = (A + B) * (A' + B') := by rw [h1, h2]; ring
    rw [this]
    nlinarith [mul_nonneg hA hB', mul_nonneg hB hA']
  have h0 : 0 ≤ pe := by rw [hpe]; positivity
  have hpos : 0 < 1 - pe := lt_of_le_of_ne (by linarith) (Ne.symm hne)
  refine ⟨div_mul_cancel₀ _ hne, ?_, ?_⟩
  · rw [div_le_iff₀ hpos]
    nlinarith [mul_nonneg h0 (sub_nonneg.2 hpo)]
  · rw [div_eq_one_iff_eq hne]
    constructor <;> intro h <;> linarith

/-! ## The property -/

/-- **C144.** A combination is scored, for at least five rows, by predictions of which each is made by a tree fitted to the other four of five
consecutive blocks. The accuracy is the share of right predictions; kappa is the share above chance, relative to what is possible, and undefined
exactly if chance is one. It is at most the accuracy, so an acceptable combination has an accuracy above 0.4, and it is one exactly for predictions
without an error. -/
theorem C144_evaluate {tree : List Row → List Int → Row → Int} (ht : TreeOK tree) {a b : Int} (hab : a ≠ b) {X : List Row} {y : List Int}
    (hxy : X.length = y.length) (h5 : 5 ≤ X.length) (hy : ∀ l ∈ y, l = a ∨ l = b) :
    ∃ (preds : List Int) (kappa : Option ℚ), pbEvaluate tree a b X y = .ok (kappa, agreement y preds) ∧
      CrossPredicted (fun X y Q => .ok (Q.map (tree X y))) 5 X y preds ∧ (kappa = none ↔ byChance a b y preds = 1) ∧
      ∀ k, kappa = some k → k * (1 - byChance a b y preds) = agreement y preds - byChance a b y preds ∧ k ≤ agreement y preds ∧
        (k = 1 ↔ preds = y) := by
  obtain ⟨preds, h1, h2, h3⟩ := crossPredicted_of (predict := fun X y Q => .ok (Q.map (tree X y))) (k := 5) hxy
    (fun _ _ _ _ _ => ⟨_, rfl, by simp⟩) (by omega) h5
  have hpr : ∀ x ∈ preds, x = a ∨ x = b := by
    obtain ⟨blocks, parts, c1, c2, c3, c4, c5⟩ := h3
    have hbl : blocks.length = 5 := by
      have := congrArg List.length c2
      simpa using this
    intro x hx
    rw [c3] at hx
    obtain ⟨part, hp, hxp⟩ := List.mem_flatten.1 hx
    obtain ⟨i, hi⟩ := List.mem_iff_getElem?.1 hp
    have hil : i < blocks.length := by
      have := (List.getElem?_eq_some_iff.1 hi).1
      omega
    obtain ⟨part', d1, d2, d3⟩ := c5 i _ (List.getElem?_eq_getElem hil)
    rw [hi] at d1
    injection d1 with d1
    subst d1
    injection d3 with d3
    rw [← d3] at hxp
    obtain ⟨q, _, rfl⟩ := List.mem_map.1 hxp
    have hne : ((blocks.eraseIdx i).flatten.map Prod.snd) ≠ [] := by
      intro h0
      have hl : (blocks.eraseIdx i).flatten.length = 0 := by
        rw [List.map_eq_nil_iff.1 h0]
        rfl
      have hj : ∃ j, j < 5 ∧ j ≠ i := if h : i = 0 then ⟨1, by omega, by omega⟩ else ⟨0, by omega, Ne.symm h⟩
      obtain ⟨j, hj5, hji⟩ := hj
      have hjm : blocks[j] ∈ blocks.eraseIdx i := List.mem_eraseIdx_iff_getElem.2 ⟨j, by omega, hji, rfl⟩
      have hjl : blocks[j].length = 0 := by
        have : blocks[j].length ≤ (blocks.eraseIdx i).flatten.length := by
          rw [List.length_flatten]
          exact List.le_sum_of_mem (List.mem_map.2 ⟨_, hjm, rfl⟩)
        omega
      have hg : (blocks.map List.length)[j]? = some (X.length / 5 + if j < X.length % 5 then 1 else 0) := by
        rw [c2, List.getElem?_map, List.getElem?_range hj5]
        rfl
      rw [List.getElem?_map, List.getElem?_eq_getElem (by omega), Option.map_some, hjl] at hg
      injection hg with hg
      have : 1 ≤ X.length / 5 := (Nat.one_le_div_iff (by omega)).2 h5
      split at hg <;> omega
    have hmem := ht ((blocks.eraseIdx i).flatten.map Prod.fst) ((blocks.eraseIdx i).flatten.map Prod.snd) q (by rw [List.length_map, List.length_map]) hne
    obtain ⟨e, he, hes⟩ := List.mem_map.1 hmem
    have hez : e ∈ X.zip y := by
      rw [← c1]
      obtain ⟨bl, hb1, hb2⟩ := List.mem_flatten.1 he
      exact List.mem_flatten.2 ⟨bl, List.mem_of_mem_eraseIdx hb1, hb2⟩
    rw [← hes]
    exact hy _ (List.of_mem_zip (a := e.1) (b := e.2) hez).2
  obtain ⟨s1, s2, s3, s4, s5, s6, s7⟩ := counts_spec hab h2 hpr hy
  have hn : (0 : ℚ) < y.length := by
    have : 0 < y.length := by omega
    exact_mod_cast this
  have q1 : (pbCount preds y true a : ℚ) + pbCount preds y false a = y.count a := by exact_mod_cast s1
  have q2 : (pbCount preds y true a : ℚ) + pbCount preds y false b = preds.count a := by exact_mod_cast s2
  have q3 : (pbCount preds y false b : ℚ) + pbCount preds y true b = y.count b := by exact_mod_cast s3
  have q4 : (pbCount preds y false a : ℚ) + pbCount preds y true b = preds.count b := by exact_mod_cast s4
  have q5 : (pbCount preds y true a : ℚ) + pbCount preds y true b = ((y.zip preds).countP (fun p => decide (p.1 = p.2)) : ℚ) := by exact_mod_cast s5
  have q6 : (y.count a : ℚ) + y.count b = y.length := by exact_mod_cast s6
  have q7 : (preds.count a : ℚ) + preds.count b = y.length := by exact_mod_cast s7
  have htot : (pbCount preds y true a : ℚ) + pbCount preds y false a + pbCount preds y true b + pbCount preds y false b = y.length := by linarith
  have hch : (y.count a : ℚ) * (preds.count a) / (y.length : ℚ) ^ 2 + (y.count b : ℚ) * (preds.count b) / (y.length : ℚ) ^ 2 = byChance a b y preds := by
    unfold byChance
    field_simp
  have hev : pbEvaluate tree a b X y = .ok (if 1 - byChance a b y preds = 0 then none
      else some ((agreement y preds - byChance a b y preds) / (1 - byChance a b y preds)), agreement y preds) := by
    unfold pbEvaluate pbPredTest
    rw [if_neg (by omega), h1, ok_bind]
    show Except.ok (pbScores _ _ _ _) = _
    unfold pbScores
    simp only
    rw [htot, q1, q2, q3, q4, q5, hch]
    rfl
  have hag : agreement y preds ≤ 1 := by
    unfold agreement
    rw [div_le_one hn]
    have : (y.zip preds).countP (fun p => decide (p.1 = p.2)) ≤ y.length := by
      refine le_trans List.countP_le_length ?_
      rw [List.length_zip]
      omega
    exact_mod_cast this
  refine ⟨preds, _, hev, h3, ?_, ?_⟩
  · split
    · rename_i h
      simp only [true_iff]
      linarith
    · rename_i h
      simp only [reduceCtorEq, false_iff]
      intro h'
      exact h (by linarith)
  · intro k hk
    split at hk
    · cases hk
    · rename_i hne
      injection hk with hk
      obtain ⟨r1, r2, r3⟩ := kappa_spec (po := agreement y preds) (pe := byChance a b y preds) hn (by positivity) (by positivity) (by positivity)
        (by positivity) q6 q7 hag rfl hne
      rw [← hk]
      refine ⟨r1, r2, r3.trans ?_⟩
      rw [← agree_all h2]
      unfold agreement
      rw [div_eq_one_iff_eq hn.ne']
      exact_mod_cast Iff.rfl

/-- **The new rows are judged by themselves.** The folds are consecutive, the new rows come last: if there are at least a quarter as many new rows as
given ones, the last test fold has new rows only. -/
theorem C144_synthetic {predict : List Row → List Int → List Row → Res (List Int)} {X S : List Row} {y preds : List Int} {a : Int}
    (hxy : X.length = y.length) (hS : X.length ≤ 4 * S.length) (h : CrossPredicted predict 5 (X ++ S) (y ++ List.replicate S.length a) preds) :
    ∃ (blocks : List (List (Row × Int))) (last : List (Row × Int)), blocks.length = 4 ∧
      (blocks ++ [last]).flatten = (X ++ S).zip (y ++ List.replicate S.length a) ∧ last.length = (X.length + S.length) / 5 ∧
      (∀ e ∈ last, e.1 ∈ S ∧ e.2 = a) ∧
      ∃ part pre, preds = pre ++ part ∧ predict (blocks.flatten.map Prod.fst) (blocks.flatten.map Prod.snd) (last.map Prod.fst) = .ok part := by
  obtain ⟨bs, parts, c1, c2, c3, c4, c5⟩ := h
  have hbl : bs.length = 5 := by
    have := congrArg List.length c2
    simpa using this
  obtain ⟨blocks, last, hbs⟩ : ∃ blocks last, bs = blocks ++ [last] := by
    rcases List.eq_nil_or_concat bs with h | ⟨l, x, h⟩
    · rw [h] at hbl; simp at hbl
    · exact ⟨l, x, by rw [h, List.concat_eq_append]⟩
  subst hbs
  have hb4 : blocks.length = 4 := by simpa using hbl
  have hlast : last.length = (X.length + S.length) / 5 := by
    have hg := congrArg (fun l => l[4]?) c2
    simp only [List.map_append, List.map_cons, List.map_nil] at hg
    rw [List.getElem?_append_right (by simp [hb4]), List.length_map, hb4, List.getElem?_map, List.getElem?_range (by omega)] at hg
    simp only [Nat.sub_self, List.getElem?_cons_zero, Option.map_some, Option.some.injEq, List.length_append] at hg
    rw [hg, if_neg (by omega), Nat.add_zero]
  refine ⟨blocks, last, hb4, c1, hlast, ?_, ?_⟩
  · have hz : (X ++ S).zip (y ++ List.replicate S.length a) = X.zip y ++ S.zip (List.replicate S.length a) := List.zip_append hxy
    have s1 : last <:+ X.zip y ++ S.zip (List.replicate S.length a) := by
      rw [← hz, ← c1, List.flatten_append]
      simp
    have hsuf : last <:+ S.zip (List.replicate S.length a) := by
      refine List.suffix_of_suffix_length_le s1 (List.suffix_append _ _) ?_
      rw [List.length_zip, List.length_replicate, min_self, hlast]
      omega
    intro e he
    have hm := hsuf.subset he
    have := List.of_mem_zip (a := e.1) (b := e.2) hm
    exact ⟨this.1, List.eq_of_mem_replicate this.2⟩
  · obtain ⟨part, d1, d2, d3⟩ := c5 4 last (by rw [List.getElem?_append_right (by omega), hb4]; rfl)
    have he : (blocks ++ [last]).eraseIdx 4 = blocks := by
      rw [List.eraseIdx_append_of_length_le (by omega), hb4]
      simp
    rw [he] at d3
    refine ⟨part, (parts.take 4).flatten, ?_, d3⟩
    have h4 : 4 < parts.length := by omega
    have hp : parts = parts.take 4 ++ [part] := by
      rw [List.getElem?_eq_getElem h4] at d1
      injection d1 with d1
      conv_lhs => rw [← List.take_append_drop 4 parts, List.drop_eq_getElem_cons h4, List.drop_eq_nil_of_le (by omega), d1]
    rw [c3]
    conv_lhs => rw [hp, List.flatten_append]
    simp

/-- When that happens: filling the difference between the classes makes enough new rows as soon as the classes are as five to three. -/
theorem C144_ratio {y : List Int} {a b : Int} (hmin : IsMinority y a b) (hr : 5 * y.count a ≤ 3 * y.count b) :
    y.length ≤ 4 * requested 1 (y.count b) (y.count a) := by
  obtain ⟨ha, _, hl, hlt⟩ := hmin
  have hpos : 0 < y.count a := List.count_pos_iff.2 ha
  have hab : a ≠ b := by
    rintro rfl
    omega
  have hs := (counts_spec hab (ps := y) (ts := y) rfl hl hl).2.2.2.2.2.1
  rw [requested_one (by omega)]
  omega

/-! ## The hypotheses are met -/

/-- Predicts the first label it was fitted to. -/
def firstTree (_ : List Row) (y : List Int) (_ : Row) : Int := y.headD 0

theorem firstTree_ok : TreeOK firstTree := by
  intro X y q _ hy
  cases y with
  | nil => exact absurd rfl hy
  | cons l y => simp [firstTree]

/-- Non-vacuity: six rows with a tree that is mostly wrong, and eight rows with a tree which looks at the sign. -/
example : TreeOK firstTree ∧
    pbEvaluate firstTree 1 0 [[0], [1], [2], [3], [4], [5]] [0, 0, 1, 0, 1, 1] = .ok (some (-2 / 3), 1 / 6) ∧
    pbEvaluate (fun _ _ q => if q.getD 0 0 < 0 then 1 else 0) 1 0 [[1], [2], [-1], [3], [4], [-2], [-3], [-1]] [0, 0, 1, 0, 0, 1, 1, 1] = .ok (some 1, 1) := by
  refine ⟨firstTree_ok, by decide +kernel, by decide +kernel⟩

/-- Non-vacuity: four given rows and two new ones. -/
example : [[0], [1], [2], [(3 : ℚ)]].length ≤ 4 * [[4], [(5 : ℚ)]].length ∧ ∃ preds, CrossPredicted (fun X y Q => .ok (Q.map (firstTree X y))) 5
    ([[0], [1], [2], [3]] ++ [[4], [5]]) ([0, 0, 0, 1] ++ List.replicate [[4], [(5 : ℚ)]].length 1) preds := by
  obtain ⟨preds, _, _, h⟩ := crossPredicted_of (predict := fun X y Q => .ok (Q.map (firstTree X y))) (k := 5)
    (X := [[0], [1], [2], [3]] ++ [[4], [5]]) (y := [0, 0, 0, 1] ++ List.replicate [[4], [(5 : ℚ)]].length 1) (by decide)
    (fun _ _ _ _ _ => ⟨_, rfl, by simp⟩) (by omega) (by decide)
  exact ⟨by decide, preds, h⟩

/-- Non-vacuity: five rows against three. -/
example : IsMinority [0, 0, 0, 0, 0, 1, 1, 1] 1 0 ∧ 5 * [0, 0, 0, 0, 0, 1, 1, (1 : Int)].count 1 ≤ 3 * [0, 0, 0, 0, 0, 1, 1, (1 : Int)].count 0 := by
  unfold IsMinority
  decide

end Verif

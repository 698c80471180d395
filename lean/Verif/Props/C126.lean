import Verif.Spec.Again
import Verif.Props.C16
import Verif.Props.C17
import Verif.Props.C18

/-!
# C126: cleaning cleaned data again
-/

namespace Verif

/-! ## Repeated cleaning ends -/

theorem again_map {α : Type} {X : List α} (e : α) : ∀ {K : List Nat} {R : List α}, List.Forall₂ (fun i r => X[i]? = some r) K R →
    R = K.map (fun i => X.getD i e)
  | _, _, .nil => rfl
  | _, _, .cons h t => by
    rw [List.map_cons, ← again_map e t, List.getD_eq_getElem?_getD, h]
    rfl

theorem again_range {α : Type} (l : List α) (e : α) : (List.range l.length).map (fun i => l.getD i e) = l := by
  apply List.ext_getElem
  · simp
  · intro i h1 h2
    simp [List.getD_eq_getElem?_getD, List.getElem?_eq_getElem h2]

theorem OnlyRemoves.of_subData {X : List Row} {y : List Int} {X' : List Row} {y' : List Int} {K : List Nat} (hl : X.length = y.length)
    (h : SubData X y X' y' K) : OnlyRemoves X y X' y' := by
  obtain ⟨h1, h2, h3⟩ := h
  have e1 := again_map [] h2
  have e2 := again_map 0 h3
  refine ⟨by rw [e1, e2, List.length_map, List.length_map], ?_⟩
  have e3 : X.zip y = (List.range X.length).map (fun i => (X.getD i [], y.getD i 0)) := by
    conv_lhs => rw [← again_range X [], ← again_range y 0, ← hl]
    rw [List.zip_map']
  rw [e3, e1, e2, List.zip_map']
  exact h1.map _

theorem OnlyRemoves.refl {X : List Row} {y : List Int} (hl : X.length = y.length) : OnlyRemoves X y X y := ⟨hl, List.Sublist.refl _⟩

theorem OnlyRemoves.trans {X X' X'' : List Row} {y y' y'' : List Int} (h : OnlyRemoves X y X' y') (h' : OnlyRemoves X' y' X'' y'') :
    OnlyRemoves X y X'' y'' := ⟨h'.1, h'.2.trans h.2⟩

/-- Nothing is removed, or the data get shorter. -/
theorem OnlyRemoves.same_or_shorter {X X' : List Row} {y y' : List Int} (hl : X.length = y.length) (h : OnlyRemoves X y X' y') :
    (X' = X ∧ y' = y) ∨ X'.length < X.length := by
  obtain ⟨h1, h2⟩ := h
  have hle := h2.length_le
  rw [List.length_zip, List.length_zip, ← h1, ← hl, Nat.min_self, Nat.min_self] at hle
  rcases Nat.lt_or_ge X'.length X.length with h3 | h3
  · exact Or.inr h3
  · left
    have he := h2.eq_of_length (by rw [List.length_zip, List.length_zip, ← h1, ← hl, Nat.min_self, Nat.min_self]; omega)
    have ex := congrArg (List.map Prod.fst) he
    have ey := congrArg (List.map Prod.snd) he
    rw [List.map_fst_zip (by omega), List.map_fst_zip (by omega)] at ex
    rw [List.map_snd_zip (by omega), List.map_snd_zip (by omega)] at ey
    exact ⟨ex, ey⟩

/-- For any filter that only removes rows: after at most as many rounds as there are rows, another round changes nothing or raises. -/
theorem cleaning_ends {f : List Row → List Int → Res (List Row × List Int)}
    (hf : ∀ X y X' y', X.length = y.length → f X y = .ok (X', y') → OnlyRemoves X y X' y') :
    ∀ (m : Nat) (X : List Row) (y : List Int), X.length = m → X.length = y.length → ∃ n X' y', n ≤ m ∧ cleanTimes f n X y = .ok (X', y') ∧
      OnlyRemoves X y X' y' ∧ (f X' y' = .ok (X', y') ∨ ∃ e, f X' y' = .error e) := by
  intro m
  induction m using Nat.strong_induction_on with
  | _ m ih =>
    intro X y hm hl
    cases h : f X y with
    | error e => exact ⟨0, X, y, Nat.zero_le _, rfl, .refl hl, .inr ⟨e, h⟩⟩
    | ok r =>
      obtain ⟨X1, y1⟩ := r
      have h1 := hf X y X1 y1 hl h
      rcases h1.same_or_shorter hl with ⟨rfl, rfl⟩ | hlt
      · exact ⟨0, _, _, Nat.zero_le _, rfl, .refl hl, .inl h⟩
      · obtain ⟨n, X', y', hn, hc, hr, hend⟩ := ih X1.length (by omega) X1 y1 rfl h1.1
        refine ⟨n + 1, X', y', by omega, ?_, h1.trans hr, hend⟩
        show (f X y >>= fun r => cleanTimes f n r.1 r.2) = _
        rw [h]
        exact hc

theorem stats_error_oneClass {y : List Int} {e : PyErr} (h : classLabelStatistics y = .error e) : OneLabel y := by
  have hshort : (npUnique y).length ≤ 1 := by
    unfold classLabelStatistics npUniqueCounts at h
    match hu : npUnique y with
    | [] => simp
    | [u] => simp
    | u0 :: u1 :: rest => rw [hu] at h; simp at h
  match hu : npUnique y with
  | [] => exact ⟨0, fun v hv => by have := mem_npUnique.2 hv; rw [hu] at this; cases this⟩
  | [u] => exact ⟨u, fun v hv => by have := mem_npUnique.2 hv; rw [hu] at this; simpa using this⟩
  | u0 :: u1 :: rest => rw [hu] at hshort; simp at hshort

theorem stats_ok_two {y : List Int} {s : Stats} (h : classLabelStatistics y = .ok s) : 2 ≤ y.length := by
  obtain ⟨h1, h2, h3⟩ := stats_min_mem h
  match y, h1, h2 with
  | [v], h1, h2 =>
    simp only [List.mem_singleton] at h1 h2
    exact absurd (h1.trans h2.symm) h3
  | _ :: _ :: _, _, _ => simp

theorem removed_exists_of_ne {X : List Row} {y : List Int} {K : List Nat} (h : SubData X y X y K) : ∀ i, ¬ Removed X K i := by
  intro i hi
  have hlen := h.2.1.length_eq
  have : K = List.range X.length := h.1.eq_of_length (by rw [List.length_range]; exact hlen)
  exact hi.2 (by rw [this]; exact List.mem_range.2 hi.1)

/-- **Tomek links.** Repeated removal ends, after at most as many rounds as there are rows: either no link is left (and another round changes
nothing), or only one class is left (and another round raises). -/
theorem C126_tomek (strategy : TomekStrategy) {knn : Nat → List Row → List (List Nat)} (hknn : KnnOK knn) {X : List Row} {y : List Int}
    (hl : X.length = y.length) : ∃ n X' y', n ≤ X.length ∧ cleanTimes (tomekRemove strategy knn) n X y = .ok (X', y') ∧ OnlyRemoves X y X' y' ∧
      ((tomekRemove strategy knn X' y' = .ok (X', y') ∧ ∀ i j, ¬ IsTomekLink (knn 2 X') y' i j) ∨
       (OneLabel y' ∧ tomekRemove strategy knn X' y' = .error .indexError)) := by
  have key : ∀ X y s, X.length = y.length → classLabelStatistics y = .ok s → ∃ X' y' K, tomekRemove strategy knn X y = .ok (X', y') ∧
      SubData X y X' y' K ∧ ((∀ i, ¬ Removed X K i) → ∀ i j, ¬ IsTomekLink (knn 2 X) y i j) := by
    intro X y s hl hs
    cases strategy with
    | removeBoth =>
      obtain ⟨X', y', K, h1, h2, h3⟩ := C15_remove_both hknn hl (by rw [hl]; exact stats_ok_two hs) hs
      exact ⟨X', y', K, h1, h2, fun h i j hij => h i ((h3 i).2 ⟨j, hij⟩)⟩
    | removeMajority =>
      obtain ⟨X', y', K, h1, h2, h3⟩ := C15_remove_majority hknn hl (by rw [hl]; exact stats_ok_two hs) hs
      refine ⟨X', y', K, h1, h2, fun h i j hij => ?_⟩
      by_cases hi : y[i]? = some s.minLabel
      · exact h j ((h3 j).2 ⟨fun hj => hij.2.2 (hi.trans hj.symm), i, hij.symm⟩)
      · exact h i ((h3 i).2 ⟨hi, j, hij⟩)
  have herr : ∀ X y e, classLabelStatistics y = .error e → tomekRemove strategy knn X y = .error .indexError := by
    intro X y e he
    unfold tomekRemove
    have : e = .indexError := by
      unfold classLabelStatistics at he
      split at he
      · cases he
      · injection he with he; exact he.symm
    rw [he, this]
    rfl
  obtain ⟨n, X', y', hn, hc, hr, hend⟩ := cleaning_ends (f := tomekRemove strategy knn) (by
    intro X y X' y' hl h
    cases hs : classLabelStatistics y with
    | error e => rw [herr X y e hs] at h; cases h
    | ok s =>
      obtain ⟨X2, y2, K, h1, h2, -⟩ := key X y s hl hs
      rw [h] at h1
      injection h1 with h1
      injection h1 with h1 h3
      subst h1 h3
      exact .of_subData hl h2) X.length X y rfl hl
  refine ⟨n, X', y', hn, hc, hr, ?_⟩
  cases hs : classLabelStatistics y' with
  | error e => exact .inr ⟨stats_error_oneClass hs, herr X' y' e hs⟩
  | ok s =>
    left
    obtain ⟨X2, y2, K, h1, h2, h3⟩ := key X' y' s hr.1 hs
    rcases hend with hend | ⟨e, hend⟩
    · refine ⟨hend, h3 ?_⟩
      rw [hend] at h1
      injection h1 with h1
      injection h1 with h1 h4
      subst h1 h4
      exact removed_exists_of_ne h2
    · rw [hend] at h1
      cases h1

/-- **Edited nearest neighbours.** Repeated removal ends: either every row of the classes it covers agrees with its neighbours, or fewer than four
rows are left, or one class (another round then raises). -/
theorem C126_enn (r : EnnRemove) {knn : Nat → List Row → List (List Nat)} (hknn : KnnOK knn) {X : List Row} {y : List Int}
    (hl : X.length = y.length) : ∃ n X' y', n ≤ X.length ∧ cleanTimes (ennRemove r knn) n X y = .ok (X', y') ∧ OnlyRemoves X y X' y' ∧
      ((ennRemove r knn X' y' = .ok (X', y') ∧ (X'.length < 4 ∨ ∃ s, classLabelStatistics y' = .ok s ∧ ∀ i l m, y'[i]? = some l →
          EnnCovers r s.minLabel s.majLabel l → NeighborMode (knn 4 X') y' i m → l = m)) ∨
       (OneLabel y' ∧ ennRemove r knn X' y' = .error .indexError)) := by
  have herr : ∀ X y e, classLabelStatistics y = .error e → ennRemove r knn X y = .error .indexError := by
    intro X y e he
    unfold ennRemove
    have : e = .indexError := by
      unfold classLabelStatistics at he
      split at he
      · cases he
      · injection he with he; exact he.symm
    rw [he, this]
    rfl
  obtain ⟨n, X', y', hn, hc, hr, hend⟩ := cleaning_ends (f := ennRemove r knn) (by
    intro X y X' y' hl h
    cases hs : classLabelStatistics y with
    | error e => rw [herr X y e hs] at h; cases h
    | ok s =>
      rcases Nat.lt_or_ge X.length 4 with h4 | h4
      · rw [C16_enn_small r knn h4 hs] at h
        cases h
        exact .refl hl
      · obtain ⟨X2, y2, K, h1, h2, -⟩ := C16_enn (r := r) hknn hl h4 hs
        rw [h] at h1
        injection h1 with h1
        injection h1 with h1 h3
        subst h1 h3
        exact .of_subData hl h2) X.length X y rfl hl
  refine ⟨n, X', y', hn, hc, hr, ?_⟩
  cases hs : classLabelStatistics y' with
  | error e => exact .inr ⟨stats_error_oneClass hs, herr X' y' e hs⟩
  | ok s =>
    left
    rcases Nat.lt_or_ge X'.length 4 with h4 | h4
    · exact ⟨C16_enn_small r knn h4 hs, .inl h4⟩
    · obtain ⟨X2, y2, K, h1, h2, h3⟩ := C16_enn (r := r) hknn hr.1 h4 hs
      rcases hend with hend | ⟨e, hend⟩
      · refine ⟨hend, .inr ⟨s, rfl, fun i l m hi hcov hm => ?_⟩⟩
        rw [hend] at h1
        injection h1 with h1
        injection h1 with h1 h5
        subst h1 h5
        by_contra hne
        exact removed_exists_of_ne h2 i ((h3 i).2 ⟨l, m, hi, hm, hne, hcov⟩)
      · rw [hend] at h1
        cases h1

/-- **Neighbourhood cleaning rule.** Repeated removal ends: either no row is removed any more, or another round raises, because fewer than four rows or
only one class is left. -/
theorem C126_ncr {knn : Nat → List Row → List (List Nat)} (hknn : KnnOK knn) {X : List Row} {y : List Int}
    (hl : X.length = y.length) : ∃ n X' y', n ≤ X.length ∧ cleanTimes (ncrRemove knn) n X y = .ok (X', y') ∧ OnlyRemoves X y X' y' ∧
      ((ncrRemove knn X' y' = .ok (X', y') ∧ ∃ s, classLabelStatistics y' = .ok s ∧ ∀ i, y'[i]? = some s.majLabel →
          ¬ NeighborMode (knn 4 X') y' i s.minLabel) ∨
       ((OneLabel y' ∨ X'.length < 4) ∧ ∃ e, ncrRemove knn X' y' = .error e)) := by
  have herr : ∀ X y e, classLabelStatistics y = .error e → ncrRemove knn X y = .error e := by
    intro X y e he
    unfold ncrRemove
    rw [he]
    rfl
  obtain ⟨n, X', y', hn, hc, hr, hend⟩ := cleaning_ends (f := ncrRemove knn) (by
    intro X y X' y' hl h
    cases hs : classLabelStatistics y with
    | error e => rw [herr X y e hs] at h; cases h
    | ok s =>
      rcases Nat.lt_or_ge X.length 4 with h4 | h4
      · rw [C16_ncr_small knn h4 hs] at h
        cases h
      · obtain ⟨X2, y2, K, h1, h2, -⟩ := C16_ncr hknn hl h4 hs
        rw [h] at h1
        injection h1 with h1
        injection h1 with h1 h3
        subst h1 h3
        exact .of_subData hl h2) X.length X y rfl hl
  refine ⟨n, X', y', hn, hc, hr, ?_⟩
  cases hs : classLabelStatistics y' with
  | error e => exact .inr ⟨.inl (stats_error_oneClass hs), e, herr X' y' e hs⟩
  | ok s =>
    rcases Nat.lt_or_ge X'.length 4 with h4 | h4
    · exact .inr ⟨.inr h4, _, C16_ncr_small knn h4 hs⟩
    · left
      obtain ⟨X2, y2, K, h1, h2, h3⟩ := C16_ncr hknn hr.1 h4 hs
      rcases hend with hend | ⟨e, hend⟩
      · refine ⟨hend, s, rfl, fun i hi hm => ?_⟩
        rw [hend] at h1
        injection h1 with h1
        injection h1 with h1 h5
        subst h1 h5
        exact removed_exists_of_ne h2 i ((h3 i).2 ⟨hi, .inl hm⟩)
      · rw [hend] at h1
        cases h1

/-- The hypothesis on the neighbours is met, and both ends occur: here two rounds of Tomek removal, and one of edited nearest neighbours, lead to
data that do not change any more (the other end is in `C126_tomek_not`, `C126_enn_not` and `C126_ncr_not`). -/
example : KnnOK bruteKnn ∧
    cleanTimes (tomekRemove .removeMajority bruteKnn) 2 [[0], [1], [3], [40], [41]] [1, 0, 0, 0, 0] = .ok ([[0], [40], [41]], [1, 0, 0]) ∧
    tomekRemove .removeMajority bruteKnn [[0], [40], [41]] [1, 0, 0] = .ok ([[0], [40], [41]], [1, 0, 0]) ∧
    cleanTimes (ennRemove .both bruteKnn) 1 [[0], [1], [2], [3], [40], [41], [42], [43], [4]] [1, 1, 1, 1, 0, 0, 0, 0, 0] =
      .ok ([[0], [1], [2], [3], [40], [41], [42], [43]], [1, 1, 1, 1, 0, 0, 0, 0]) ∧
    ennRemove .both bruteKnn [[0], [1], [2], [3], [40], [41], [42], [43]] [1, 1, 1, 1, 0, 0, 0, 0] =
      .ok ([[0], [1], [2], [3], [40], [41], [42], [43]], [1, 1, 1, 1, 0, 0, 0, 0]) ∧
    ncrRemove bruteKnn [[0], [1], [2], [3], [40], [41], [42], [43]] [1, 1, 1, 1, 0, 0, 0, 0] =
      .ok ([[0], [1], [2], [3], [40], [41], [42], [43]], [1, 1, 1, 1, 0, 0, 0, 0]) :=
  ⟨bruteKnn_ok, by decide +kernel, by decide +kernel, by decide +kernel, by decide +kernel, by decide +kernel⟩

/-! ## Condensing again -/

/-- The rows the loop has added are added again, in the same order, when it runs on them alone. -/
theorem cnnLoop_again (predict : List Row → List Int → Row → Int) (maj : Int) :
    ∀ (n : Nat) (Xhat : List Row) (yhat : List Int) (Xmaj : List Row), Xmaj.length = n → Xhat.length = yhat.length →
      ∃ added, (∀ x ∈ added, x ∈ Xmaj) ∧
        cnnLoop predict maj Xhat yhat Xmaj = (Xhat ++ added, yhat ++ List.replicate added.length maj) ∧
        cnnLoop predict maj Xhat yhat added = (Xhat ++ added, yhat ++ List.replicate added.length maj) := by
  intro n
  induction n using Nat.strong_induction_on with
  | _ n ih =>
    intro Xhat yhat Xmaj hn hl
    have hnil : cnnLoop predict maj Xhat yhat [] = (Xhat ++ [], yhat ++ List.replicate ([] : List Row).length maj) := by
      unfold cnnLoop
      simp
    by_cases h0 : Xmaj.length = 0
    · have := List.eq_nil_of_length_eq_zero h0
      subst this
      exact ⟨[], by simp, hnil, hnil⟩
    · by_cases h1 : Xmaj.all (fun x => ! cnnWrong predict maj Xhat yhat x) = true
      · refine ⟨[], by simp, ?_, hnil⟩
        unfold cnnLoop
        rw [if_neg h0, dif_pos h1]
        simp
      · set wrong := Xmaj.filter (cnnWrong predict maj Xhat yhat) with hw
        have hlen : ∀ l : List Row, (Xhat ++ l).length - yhat.length = l.length := by
          intro l
          rw [List.length_append]; omega
        have hex : ∃ x ∈ Xmaj, cnnWrong predict maj Xhat yhat x = true := by
          rw [List.all_eq_true] at h1
          push Not at h1
          obtain ⟨x, hx, hxw⟩ := h1
          exact ⟨x, hx, by simpa using hxw⟩
        have hlt : (Xmaj.filter (fun x => ! cnnWrong predict maj Xhat yhat x)).length < n := by
          rw [← hn, List.length_filter_lt_length_iff_exists]
          obtain ⟨x, hx, hxw⟩ := hex
          exact ⟨x, hx, by simp [hxw]⟩
        obtain ⟨added, hsub, e1, e2⟩ := ih _ hlt (Xhat ++ wrong) (yhat ++ List.replicate wrong.length maj) _ rfl (by simp [hl])
        have hres : (Xhat ++ wrong ++ added, yhat ++ List.replicate wrong.length maj ++ List.replicate added.length maj) =
            (Xhat ++ (wrong ++ added), yhat ++ List.replicate (wrong ++ added).length maj) := by
          rw [List.append_assoc, List.append_assoc, List.length_append, List.replicate_append_replicate]
        have hgood : ∀ x ∈ added, cnnWrong predict maj Xhat yhat x = false := by
          intro x hx
          have := (List.mem_filter.1 (hsub x hx)).2
          simpa using this
        have hbad : ∀ x ∈ wrong, cnnWrong predict maj Xhat yhat x = true := fun x hx => (List.mem_filter.1 hx).2
        refine ⟨wrong ++ added, ?_, ?_, ?_⟩
        · intro x hx
          rcases List.mem_append.1 hx with hx | hx
          · exact (List.mem_filter.1 hx).1
          · exact (List.mem_filter.1 (hsub x hx)).1
        · rw [← hres, ← e1]
          conv_lhs => unfold cnnLoop
          rw [if_neg h0, dif_neg h1]
          dsimp only
          rw [hlen]
        · have f1 : (wrong ++ added).filter (cnnWrong predict maj Xhat yhat) = wrong := by
            rw [List.filter_append, List.filter_eq_self.2 hbad, List.filter_eq_nil_iff.2 (fun x hx => by simp [hgood x hx]), List.append_nil]
          have f2 : (wrong ++ added).filter (fun x => ! cnnWrong predict maj Xhat yhat x) = added := by
            rw [List.filter_append, List.filter_eq_nil_iff.2 (fun x hx => by simp [hbad x hx]), List.nil_append]
            exact List.filter_eq_self.2 (fun x hx => by simp [hgood x hx])
          obtain ⟨x, hx, hxw⟩ := hex
          have hxm : x ∈ wrong ++ added := List.mem_append_left _ (List.mem_filter.2 ⟨hx, hxw⟩)
          rw [← hres, ← e2]
          conv_lhs => unfold cnnLoop
          rw [if_neg (by intro h; rw [List.eq_nil_of_length_eq_zero h] at hxm; cases hxm), dif_neg (by
            intro h
            have := List.all_eq_true.1 h x hxm
            rw [hxw] at this
            cases this)]
          dsimp only
          rw [f1, f2, hlen]

theorem classRows_block (N : List Row) (b l : Int) : classRows N (List.replicate N.length b) l = if b = l then N else [] := by
  unfold classRows
  induction N with
  | nil => simp
  | cons x N ih =>
    rw [List.length_cons, List.replicate_succ, List.zip_cons_cons, List.filter_cons]
    by_cases h : b = l
    · subst h
      rw [if_pos rfl] at ih ⊢
      simpa using ih
    · rw [if_neg h] at ih ⊢
      simpa [h] using ih

theorem classRows_blocks (M N : List Row) (a b l : Int) : classRows (M ++ N) (List.replicate M.length a ++ List.replicate N.length b) l =
    (if a = l then M else []) ++ (if b = l then N else []) := by
  rw [← classRows_block M a l, ← classRows_block N b l]
  unfold classRows
  rw [List.zip_append (by simp), List.filter_append, List.map_append]

/-- **Condensed nearest neighbours.** Condensing a condensed set changes nothing, provided the same class is still the minority. -/
theorem C126_cnn (predict : List Row → List Int → Row → Int) {X : List Row} {y : List Int} (hxy : X.length = y.length) {a b : Int}
    (hab : IsMinority y a b) {X' : List Row} {y' : List Int} (h : cnnRemove predict X y = .ok (X', y')) (hab' : IsMinority y' a b) :
    cnnRemove predict X' y' = .ok (X', y') := by
  obtain ⟨s, hs, hmin, hmaj⟩ := stats_of_isMinority hab
  obtain ⟨s', hs', hmin', hmaj'⟩ := stats_of_isMinority hab'
  have hne := classRows_ne_nil hxy hab.2.1
  have hab_ne : a ≠ b := by rw [← hmin, ← hmaj]; exact (stats_min_mem hs).2.2
  unfold cnnRemove at h
  rw [hs, ok_bind, hmin, hmaj, selectLabel_eq_classRows, selectLabel_eq_classRows] at h
  cases hr : classRows X y b with
  | nil => exact absurd hr hne
  | cons f rest =>
    rw [hr] at h
    set M := classRows X y a with hM
    have hlen1 : (M ++ [f]).length - 1 = M.length := by simp
    dsimp only [getRow, List.getElem?_cons_zero] at h
    rw [ok_bind, hlen1, List.drop_one, List.tail_cons] at h
    obtain ⟨added, -, e1, e2⟩ := cnnLoop_again predict b rest.length (M ++ [f]) (List.replicate M.length a ++ [b]) rest rfl (by simp)
    rw [e1] at h
    simp only [pure_ok, Prod.mk.injEq] at h
    obtain ⟨rfl, rfl⟩ := h
    have hy : List.replicate M.length a ++ [b] ++ List.replicate added.length b = List.replicate M.length a ++ List.replicate (f :: added).length b := by
      rw [List.append_assoc, List.length_cons, List.replicate_succ]
      rfl
    have hX : M ++ [f] ++ added = M ++ (f :: added) := by simp
    have ha : classRows (M ++ [f] ++ added) (List.replicate M.length a ++ [b] ++ List.replicate added.length b) a = M := by
      rw [hX, hy, classRows_blocks, if_pos rfl, if_neg hab_ne.symm, List.append_nil]
    have hb : classRows (M ++ [f] ++ added) (List.replicate M.length a ++ [b] ++ List.replicate added.length b) b = f :: added := by
      rw [hX, hy, classRows_blocks, if_pos rfl, if_neg hab_ne, List.nil_append]
    unfold cnnRemove
    rw [hs', ok_bind, hmin', hmaj', selectLabel_eq_classRows, selectLabel_eq_classRows, ha, hb]
    dsimp only [getRow, List.getElem?_cons_zero]
    rw [ok_bind, hlen1, List.drop_one, List.tail_cons, e2]
    rfl

/-- The hypotheses are met: a majority row is dropped the first time, and nothing the second time. -/
example : IsMinority [1, 0, 0, 0, 0] 1 0 ∧ cnnRemove nn1 [[5], [0], [1], [10], [6]] [1, 0, 0, 0, 0] = .ok ([[5], [0], [10], [6]], [1, 0, 0, 0]) ∧
    IsMinority [1, 0, 0, 0] 1 0 ∧ cnnRemove nn1 [[5], [0], [10], [6]] [1, 0, 0, 0] = .ok ([[5], [0], [10], [6]], [1, 0, 0, 0]) :=
  ⟨⟨by decide, by decide, by decide, Or.inl (by decide)⟩, by decide +kernel, ⟨by decide, by decide, by decide, Or.inl (by decide)⟩, by decide +kernel⟩

/-! ## Undersampling again -/

/-- **Random undersampling.** A second round only changes the order of the majority rows, whatever is drawn. -/
theorem C126_undersampling {choice choice' : Nat → Nat → List Nat} (hch : ChoiceOK choice) (hch' : ChoiceOK choice') {X X' : List Row} {y y' : List Int}
    (hxy : X.length = y.length) (h : randomUndersample choice X y = .ok (X', y')) :
    ∃ X'', randomUndersample choice' X' y' = .ok (X'', y') ∧ (X''.zip y').Perm (X'.zip y') := by
  have hcond : (∀ l ∈ y, l = 0 ∨ l = 1) ∧ (1 : Int) ∈ y ∧ y.count 1 ≤ y.count 0 := by
    by_contra hc
    rw [C18_rejects hc] at h
    cases h
  obtain ⟨h01, h1, hle⟩ := hcond
  obtain ⟨pos, kept, e1, -, -, hk⟩ := C18_balanced hch hxy h01 h1 hle
  rw [h] at e1
  injection e1 with e1
  injection e1 with e1 e2
  subst e1 e2
  set n := y.count 1 with hn
  set M := classRows X y 1 with hM
  have hn0 : 0 < n := List.count_pos_iff.2 h1
  have hMl : M.length = n := classRows_length hxy 1
  have hy' : (List.replicate n (0 : Int) ++ List.replicate n 1) = List.replicate kept.length 0 ++ List.replicate M.length 1 := by rw [hk, hMl]
  have c1 : (List.replicate n (0 : Int) ++ List.replicate n 1).count 1 = n := by simp [List.count_append, List.count_replicate]
  have c0 : (List.replicate n (0 : Int) ++ List.replicate n 1).count 0 = n := by simp [List.count_append, List.count_replicate]
  obtain ⟨pos', kept', e1', hnd', hf', hk'⟩ := C18_balanced hch' (X := kept ++ M) (y := List.replicate n 0 ++ List.replicate n 1)
    (by simp [hk, hMl]) (by
      intro l hl
      rcases List.mem_append.1 hl with hl | hl
      · exact .inl (List.eq_of_mem_replicate hl)
      · exact .inr (List.eq_of_mem_replicate hl)) (List.mem_append_right _ (List.mem_replicate.2 ⟨by omega, rfl⟩)) (by rw [c0, c1])
  have r0 : classRows (kept ++ M) (List.replicate n 0 ++ List.replicate n 1) 0 = kept := by
    rw [hy', classRows_blocks]; simp
  have r1 : classRows (kept ++ M) (List.replicate n 0 ++ List.replicate n 1) 1 = M := by
    rw [hy', classRows_blocks]; simp
  rw [c1] at e1' hk'
  rw [r1] at e1'
  rw [r0] at hf'
  have hperm : kept'.Perm kept := by
    have hpl : pos'.length = n := hf'.length_eq.trans hk'
    have hlt : ∀ i ∈ pos', i < kept.length := by
      intro i hi
      obtain ⟨j, hj, rfl⟩ := List.getElem_of_mem hi
      have := (List.forall₂_iff_get.1 hf').2 j hj (by rw [← hf'.length_eq]; exact hj)
      simp only [List.get_eq_getElem] at this
      exact (List.getElem?_eq_some_iff.1 this).1
    have hp : pos'.Perm (List.range kept.length) := by
      refine (List.subperm_of_subset hnd' (fun i hi => List.mem_range.2 (hlt i hi))).perm_of_length_le ?_
      rw [List.length_range, hpl, hk]
    rw [again_map [] hf']
    refine (hp.map _).trans ?_
    rw [again_range]
  refine ⟨kept' ++ M, e1', ?_⟩
  rw [List.zip_append (by simp [hk']), List.zip_append (by simp [hk])]
  refine List.Perm.append_right _ ?_
  have hz : ∀ l : List Row, l.length = n → l.zip (List.replicate n (0 : Int)) = l.map (fun x => (x, 0)) := by
    intro l hl
    rw [← hl]
    clear hl
    induction l with
    | nil => rfl
    | cons x l ih => simp only [List.length_cons, List.replicate_succ, List.zip_cons_cons, List.map_cons, ih]
  rw [hz _ hk', hz _ hk]
  exact hperm.map _

/-! ## Cleaning once is not enough, and cleaning twice may be too much -/

/-- **Condensing twice** can throw away rows of the minority class: too few majority rows are left the first time, so the second time the classes have
changed their roles. -/
theorem C126_cnn_not : IsMinority [1, 1, 0, 0, 0] 1 0 ∧ cnnRemove nn1 [[0], [1], [10], [11], [12]] [1, 1, 0, 0, 0] = .ok ([[0], [1], [10]], [1, 1, 0]) ∧
    cnnRemove nn1 [[0], [1], [10]] [1, 1, 0] = .ok ([[10], [0]], [0, 1]) :=
  ⟨⟨by decide, by decide, by decide, Or.inl (by decide)⟩, by decide +kernel, by decide +kernel⟩

/-- **Removing Tomek links** makes new ones: repeated removal eats up the majority class, and raises in the end. -/
theorem C126_tomek_not : IsMinority [1, 0, 0, 0] 1 0 ∧
    cleanTimes (tomekRemove .removeMajority bruteKnn) 1 [[0], [1], [3], [7]] [1, 0, 0, 0] = .ok ([[0], [3], [7]], [1, 0, 0]) ∧
    cleanTimes (tomekRemove .removeMajority bruteKnn) 2 [[0], [1], [3], [7]] [1, 0, 0, 0] = .ok ([[0], [7]], [1, 0]) ∧
    cleanTimes (tomekRemove .removeMajority bruteKnn) 3 [[0], [1], [3], [7]] [1, 0, 0, 0] = .ok ([[0]], [1]) ∧
    cleanTimes (tomekRemove .removeMajority bruteKnn) 4 [[0], [1], [3], [7]] [1, 0, 0, 0] = .error .indexError :=
  ⟨⟨by decide, by decide, by decide, Or.inl (by decide)⟩, by decide +kernel, by decide +kernel, by decide +kernel, by decide +kernel⟩

/-- **Edited nearest neighbours** leave one class, after which another round raises. -/
theorem C126_enn_not : IsMinority [0, 0, 0, 1] 1 0 ∧ IsMinority [0, 0, 1, 1] 1 0 ∧
    (∀ r ∈ [EnnRemove.both, EnnRemove.min], cleanTimes (ennRemove r bruteKnn) 1 [[0], [1], [3], [7]] [0, 0, 0, 1] = .ok ([[0], [1], [3]], [0, 0, 0]) ∧
      cleanTimes (ennRemove r bruteKnn) 2 [[0], [1], [3], [7]] [0, 0, 0, 1] = .error .indexError) ∧
    cleanTimes (ennRemove .maj bruteKnn) 1 [[0], [1], [3], [7]] [0, 0, 1, 1] = .ok ([[3], [7]], [1, 1]) ∧
    cleanTimes (ennRemove .maj bruteKnn) 2 [[0], [1], [3], [7]] [0, 0, 1, 1] = .error .indexError :=
  ⟨⟨by decide, by decide, by decide, Or.inl (by decide)⟩, ⟨by decide, by decide, by decide, Or.inr (by decide)⟩, by decide +kernel,
    by decide +kernel, by decide +kernel⟩

/-- **The neighbourhood cleaning rule** can remove the whole majority class at once. -/
theorem C126_ncr_not : IsMinority [0, 0, 0, 1] 1 0 ∧ ncrRemove bruteKnn [[0], [1], [3], [7]] [0, 0, 0, 1] = .ok ([[7]], [1]) ∧
    ncrRemove bruteKnn [[7]] [1] = .error .indexError :=
  ⟨⟨by decide, by decide, by decide, Or.inl (by decide)⟩, by decide +kernel, by decide +kernel⟩

end Verif

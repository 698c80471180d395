import Verif.Model.Isomap
import Verif.Props.C01
import Verif.Props.C38

/-!
# C85: SVM_balance returns predictions in place of labels; NoSMOTE

`C85_svm` says which rows and labels are returned; `C85_changed` that the labels of original rows may change.
-/

namespace Verif

/-- `C` is the value among `cs` used for the final classifier: the first one with the highest score, if some score is positive, and
otherwise `c0`. -/
def BestC (score : ℚ → Option ℚ) (cs : List ℚ) (c0 C : ℚ) : Prop :=
  ((∃ c ∈ cs, ∃ q, score c = some q ∧ 0 < q) → ∃ q, score C = some q ∧ 0 < q ∧ (∀ c ∈ cs, ∀ r, score c = some r → r ≤ q) ∧
    ∃ pre post, cs = pre ++ C :: post ∧ ∀ c ∈ pre, ∀ r, score c = some r → r < q) ∧
  ((¬ ∃ c ∈ cs, ∃ q, score c = some q ∧ 0 < q) → C = c0)

theorem svmBest_spec (score : ℚ → Option ℚ) : ∀ (cs : List ℚ) (b : ℚ × ℚ),
    (b.1 ≤ (svmBest score cs b).1) ∧ (∀ c ∈ cs, ∀ r, score c = some r → r ≤ (svmBest score cs b).1) ∧
    (svmBest score cs b = b ∨ (b.1 < (svmBest score cs b).1 ∧ score (svmBest score cs b).2 = some (svmBest score cs b).1 ∧
      ∃ pre post, cs = pre ++ (svmBest score cs b).2 :: post ∧ ∀ c ∈ pre, ∀ r, score c = some r → r < (svmBest score cs b).1))
  | [], b => ⟨le_rfl, by simp, Or.inl rfl⟩
  | c :: cs, b => by
    unfold svmBest
    cases hc : score c with
    | none =>
      obtain ⟨h1, h2, h3⟩ := svmBest_spec score cs b
      refine ⟨h1, ?_, ?_⟩
      · intro c' hc' r hr
        rcases List.mem_cons.1 hc' with rfl | hc'
        · rw [hc] at hr; cases hr
        · exact h2 c' hc' r hr
      · rcases h3 with h3 | ⟨h3, h4, pre, post, h5, h6⟩
        · exact Or.inl h3
        · refine Or.inr ⟨h3, h4, c :: pre, post, ?_, ?_⟩
          · rw [List.cons_append, ← h5]
          · intro c' hc' r hr
            rcases List.mem_cons.1 hc' with rfl | hc'
            · rw [hc] at hr; cases hr
            · exact h6 c' hc' r hr
    | some q =>
      dsimp only
      by_cases hlt : b.1 < q
      · rw [if_pos hlt]
        obtain ⟨h1, h2, h3⟩ := svmBest_spec score cs (q, c)
        refine ⟨hlt.le.trans h1, ?_, ?_⟩
        · intro c' hc' r hr
          rcases List.mem_cons.1 hc' with rfl | hc'
          · rw [hc] at hr; injection hr with hr; rw [← hr]; exact h1
          · exact h2 c' hc' r hr
        · rcases h3 with h3 | ⟨h3, h4, pre, post, h5, h6⟩
          · rw [h3]
            exact Or.inr ⟨hlt, hc, [], cs, rfl, by simp⟩
          · refine Or.inr ⟨hlt.trans h3, h4, c :: pre, post, ?_, ?_⟩
            · rw [List.cons_append, ← h5]
            · intro c' hc' r hr
              rcases List.mem_cons.1 hc' with rfl | hc'
              · rw [hc] at hr; injection hr with hr; rw [← hr]; exact h3
              · exact h6 c' hc' r hr
      · rw [if_neg hlt]
        obtain ⟨h1, h2, h3⟩ := svmBest_spec score cs b
        refine ⟨h1, ?_, ?_⟩
        · intro c' hc' r hr
          rcases List.mem_cons.1 hc' with rfl | hc'
          · rw [hc] at hr; injection hr with hr; rw [← hr]; exact (not_lt.1 hlt).trans h1
          · exact h2 c' hc' r hr
        · rcases h3 with h3 | ⟨h3, h4, pre, post, h5, h6⟩
          · exact Or.inl h3
          · refine Or.inr ⟨h3, h4, c :: pre, post, ?_, ?_⟩
            · rw [List.cons_append, ← h5]
            · intro c' hc' r hr
              rcases List.mem_cons.1 hc' with rfl | hc'
              · rw [hc] at hr; injection hr with hr; rw [← hr]; exact (not_lt.1 hlt).trans_lt h3
              · exact h6 c' hc' r hr

theorem svmBest_bestC (score : ℚ → Option ℚ) (cs : List ℚ) (c0 : ℚ) : BestC score cs c0 (svmBest score cs (0, c0)).2 := by
  obtain ⟨h1, h2, h3⟩ := svmBest_spec score cs (0, c0)
  constructor
  · rintro ⟨c, hc, q, hq, hpos⟩
    have := h2 c hc q hq
    rcases h3 with h3 | ⟨h3, h4, h5⟩
    · rw [h3] at this
      exact absurd hpos (not_lt.2 this)
    · exact ⟨_, h4, h3, h2, h5⟩
  · intro hno
    rcases h3 with h3 | ⟨h3, h4, pre, post, h5, _⟩
    · rw [h3]
    · have hm : (svmBest score cs (0, c0)).2 ∈ pre ++ (svmBest score cs (0, c0)).2 :: post := by simp
      generalize (svmBest score cs (0, c0)).2 = C at *
      exact absurd ⟨C, by rw [h5]; exact hm, _, h4, h3⟩ hno

/-- **SVM_balance.** The rows are those of SMOTE: the input followed by the requested number of rows in the hull of the minority class.
The labels are the predictions of the classifier trained on them, with the first of the four values of `C` that has the highest
cross-validated score (0.01 if no score is positive), with `min 5 (size of the minority class)` folds. -/
theorem C85_svm {par : SmoteParams} {score : ℚ → Nat → List Row → List Int → Option ℚ} {predict : ℚ → List Row → List Int → List Int}
    {vol : List Row → ℚ} {dr : Draws} {d : Nat} {knn : Nat → List Row → List (List Nat)} {X : List Row} {y : List Int} {a b : Int}
    (hwf : WF d X y) (hk : KnnOK knn) (hdr : dr.OK) (hpos : ∀ i j, 0 < dr.simplexU i j) (hg : par.ss.gaussian = .none)
    (hmin : IsMinority y a b) (h2 : 2 < y.count a) (hd : 1 ≤ par.ss.nDim)
    (hmode : par.ss.simplexSampling = .random ∨ par.ss.simplexSampling = .deterministic ∨
      (par.ss.simplexSampling = .volume ∧ ∀ vs, 0 < vol vs))
    (hwi : par.ss.within = .random ∨ (par.ss.within = .deterministic ∧ par.ss.nDim ≤ 2)) :
    ∃ Xs ys C, sample defaultChecks d (svmBalanceAlg par score predict vol dr d knn) X y = .ok (Xs, predict C Xs ys) ∧
      SmoteStep d X y a (requested par.proportion (y.count b) (y.count a)) Xs ys ∧
      BestC (fun c => score c (min 5 (y.count a + requested par.proportion (y.count b) (y.count a))) Xs ys) [1 / 100, 1 / 10, 1, 10] (1 / 100) C := by
  obtain ⟨⟨Xs, ys⟩, hsm⟩ := C01_smote_total (par := par) (vol := vol) hwf hk hdr hpos hmin hd hmode hwi
  obtain ⟨s, hs, rfl, rfl⟩ := stats_of_isMinority hmin
  have hstep := smoteStep_of hwf hk hdr hg hs h2 hsm
  have hcount : ys.count s.minLabel = y.count s.minLabel + requested par.proportion (y.count s.majLabel) (y.count s.minLabel) := by
    obtain ⟨_, _, e, _⟩ := hstep
    rw [e, List.count_append, List.count_replicate_self]
  refine ⟨Xs, ys, _, ?_, hstep, svmBest_bestC _ _ _⟩
  rw [sample_default hs, if_neg (by omega)]
  unfold svmBalanceAlg
  rw [hsm, ok_bind]
  simp only [hcount]
  rw [if_neg (by omega)]
  rfl

/-- Hence, if the classifier answers with one label per row, rows and labels agree in number; and if it learns its training data the
result is that of SMOTE. -/
theorem C85_faithful {par : SmoteParams} {score : ℚ → Nat → List Row → List Int → Option ℚ} {predict : ℚ → List Row → List Int → List Int}
    {vol : List Row → ℚ} {dr : Draws} {d : Nat} {knn : Nat → List Row → List (List Nat)} {X : List Row} {y : List Int} {a b : Int}
    (hmin : IsMinority y a b) (h2 : 2 < y.count a) (hwf : WF d X y) (hk : KnnOK knn) (hdr : dr.OK)
    (hlearn : ∀ C Xs ys, predict C Xs ys = ys) {Xs : List Row} {ys : List Int} (hsm : smoteSample par vol dr d knn X y = .ok (Xs, ys)) :
    sample defaultChecks d (svmBalanceAlg par score predict vol dr d knn) X y = .ok (Xs, ys) := by
  obtain ⟨n, ⟨_, _, e, _⟩, _⟩ := C01_smote_extends_input hwf hk hdr hmin hsm
  obtain ⟨s, hs, rfl, rfl⟩ := stats_of_isMinority hmin
  rw [sample_default hs, if_neg (by omega)]
  unfold svmBalanceAlg
  rw [hsm, ok_bind]
  dsimp only
  rw [if_neg (by rw [e, List.count_append]; omega), hlearn]
  rfl

/-- **Labels of original rows may change**: whatever SMOTE does, if the classifier predicts the majority class for every row then every
minority label is lost. -/
theorem C85_changed {par : SmoteParams} {score : ℚ → Nat → List Row → List Int → Option ℚ} {vol : List Row → ℚ} {dr : Draws} {d : Nat}
    {knn : Nat → List Row → List (List Nat)} {X : List Row} {y : List Int} {a b : Int}
    (hwf : WF d X y) (hk : KnnOK knn) (hdr : dr.OK) (hpos : ∀ i j, 0 < dr.simplexU i j) (hg : par.ss.gaussian = .none)
    (hmin : IsMinority y a b) (h2 : 2 < y.count a) (hd : 1 ≤ par.ss.nDim)
    (hmode : par.ss.simplexSampling = .random ∨ par.ss.simplexSampling = .deterministic ∨
      (par.ss.simplexSampling = .volume ∧ ∀ vs, 0 < vol vs))
    (hwi : par.ss.within = .random ∨ (par.ss.within = .deterministic ∧ par.ss.nDim ≤ 2)) :
    ∃ X' y', sample defaultChecks d (svmBalanceAlg par score (fun _ Xs _ => Xs.map (fun _ => b)) vol dr d knn) X y = .ok (X', y') ∧
      y'.length = X'.length ∧ a ∉ y' := by
  obtain ⟨Xs, ys, C, h, _⟩ := C85_svm (score := score) (predict := fun _ Xs _ => Xs.map (fun _ => b)) hwf hk hdr hpos hg hmin h2 hd hmode hwi
  refine ⟨_, _, h, by simp, ?_⟩
  intro ha
  obtain ⟨_, _, e⟩ := List.mem_map.1 ha
  exact isMinority_ne hmin e.symm

/-- **NoSMOTE** returns its input, or raises as it was asked to; with fewer than three minority rows it never raises. -/
theorem C85_nosmote {v r : Bool} {d : Nat} {X : List Row} {y : List Int} {a b : Int} (hmin : IsMinority y a b) :
    sample defaultChecks d (noSmoteAlg v r) X y =
      if 2 < y.count a ∧ v = true then .error .valueError
      else if 2 < y.count a ∧ r = true then .error .runtimeError else .ok (X, y) := by
  obtain ⟨s, hs, rfl, rfl⟩ := stats_of_isMinority hmin
  rw [sample_default hs]
  by_cases h2 : y.count s.minLabel ≤ 2
  · rw [if_pos h2, if_neg (by omega), if_neg (by omega)]
  · have h2' : 2 < y.count s.minLabel := by omega
    rw [if_neg h2]
    unfold noSmoteAlg
    simp only [h2', true_and]

/-! ## Examples -/

example : WF 2 exX exY ∧ IsMinority exY 1 0 ∧ exDraws.OK ∧ (∀ i j, 0 < exDraws.simplexU i j) ∧ KnnOK exKnn ∧ exPar.ss.gaussian = .none ∧
    2 < exY.count 1 ∧ 1 ≤ exPar.ss.nDim ∧ exPar.ss.simplexSampling = .random ∧ exPar.ss.within = .random :=
  ⟨⟨by decide, by decide +kernel⟩, exY_min, exDraws_ok, fun i j => by simp only [exDraws]; positivity,
    exKnn_ok, rfl, by decide, by decide, rfl, rfl⟩

/-- The scores of the four values decide. -/
example : BestC (fun c => if c = 1 / 10 then some (4 / 5) else if c = 10 then some (4 / 5) else if c = 1 then none else some (1 / 2))
    [1 / 100, 1 / 10, 1, 10] (1 / 100) (1 / 10) := by
  have := svmBest_bestC (fun c => if c = 1 / 10 then some (4 / 5) else if c = 10 then some (4 / 5) else if c = 1 then none else some (1 / 2))
    [1 / 100, 1 / 10, 1, 10] (1 / 100)
  have e : (svmBest (fun c => if c = 1 / 10 then some (4 / 5) else if c = 10 then some (4 / 5) else if c = 1 then none else some (1 / 2))
    [1 / 100, 1 / 10, 1, 10] (0, 1 / 100)).2 = 1 / 10 := by decide +kernel
  rwa [e] at this

end Verif

import Verif.Lemmas.Noise
import Verif.Lemmas.ClassRows
import Verif.Props.C15

/-!
# C17 Condensed nearest neighbours terminates with a consistent subset keeping the whole minority class
-/

namespace Verif

theorem filter_perm {α : Type} (p : α → Bool) (l : List α) :
    (l.filter p ++ l.filter (fun x => ! p x)).Perm l := List.filter_append_perm p l

theorem cnnLoop_spec (predict : List Row → List Int → Row → Int) (maj : Int) :
    ∀ (n : Nat) (Xhat : List Row) (yhat : List Int) (Xmaj : List Row), Xmaj.length = n →
      Xhat.length = yhat.length →
      ∃ added left, cnnLoop predict maj Xhat yhat Xmaj = (Xhat ++ added, yhat ++ List.replicate added.length maj) ∧
        (added ++ left).Perm Xmaj ∧
        ∀ x ∈ left, predict (Xhat ++ added) (yhat ++ List.replicate added.length maj) x = maj := by
  intro n
  induction n using Nat.strong_induction_on with
  | _ n ih =>
    intro Xhat yhat Xmaj hn hl
    unfold cnnLoop
    by_cases h0 : Xmaj.length = 0
    · rw [if_pos h0]
      have := List.eq_nil_of_length_eq_zero h0
      subst this
      exact ⟨[], [], by simp, by simp, by simp⟩
    · rw [if_neg h0]
      by_cases h1 : Xmaj.all (fun x => ! cnnWrong predict maj Xhat yhat x) = true
      · rw [dif_pos h1]
        refine ⟨[], Xmaj, by simp, by simp, ?_⟩
        intro x hx
        have := List.all_eq_true.1 h1 x hx
        simpa [cnnWrong] using this
      · rw [dif_neg h1]
        dsimp only
        set wrong := Xmaj.filter (cnnWrong predict maj Xhat yhat) with hw
        have hlen : (Xhat ++ wrong).length - yhat.length = wrong.length := by
          rw [List.length_append]; omega
        rw [hlen]
        have hlt : (Xmaj.filter (fun x => ! cnnWrong predict maj Xhat yhat x)).length < n := by
          rw [← hn, List.length_filter_lt_length_iff_exists]
          rw [List.all_eq_true] at h1
          push Not at h1
          exact h1
        obtain ⟨added, left, e1, e2, e3⟩ := ih _ hlt (Xhat ++ wrong)
          (yhat ++ List.replicate wrong.length maj) _ rfl (by simp [hl])
        refine ⟨wrong ++ added, left, ?_, ?_, ?_⟩
        · rw [e1]
          rw [List.append_assoc, List.append_assoc, List.length_append, List.replicate_append_replicate]
        · rw [List.append_assoc]
          exact (List.Perm.append_left wrong e2).trans (filter_perm _ _)
        · intro x hx
          have := e3 x hx
          rwa [List.append_assoc, List.append_assoc, List.replicate_append_replicate,
            ← List.length_append] at this

/-- For every 1-NN rule `predict`, condensed nearest neighbours returns (so the loop ends) all minority rows,
in order and labelled as minority, followed by a non-empty selection `kept` of the majority rows, labelled
as majority and starting with the first one. `kept` and the rows left out `left` together are exactly the
majority rows, each with its multiplicity, and every row left out is classified as majority by the rule
fitted on the result. -/
theorem C17_cnn (predict : List Row → List Int → Row → Int) {X : List Row} {y : List Int}
    (hxy : X.length = y.length) {a b : Int} (hab : IsMinority y a b) :
    ∃ X' y' kept left, cnnRemove predict X y = .ok (X', y') ∧
      X' = classRows X y a ++ kept ∧
      y' = List.replicate (classRows X y a).length a ++ List.replicate kept.length b ∧
      (kept ++ left).Perm (classRows X y b) ∧
      kept ≠ [] ∧ kept.head? = (classRows X y b).head? ∧
      ∀ x ∈ left, predict X' y' x = b := by
  obtain ⟨s, hs, hmin, hmaj⟩ := stats_of_isMinority hab
  have hne := classRows_ne_nil hxy hab.2.1
  unfold cnnRemove
  rw [hs, ok_bind, hmin, hmaj, selectLabel_eq_classRows, selectLabel_eq_classRows]
  cases hr : classRows X y b with
  | nil => exact absurd hr hne
  | cons f rest =>
    obtain ⟨added, left, e1, e2, e3⟩ := cnnLoop_spec predict b rest.length (classRows X y a ++ [f])
      (List.replicate (classRows X y a).length a ++ [b]) rest rfl (by simp)
    have hassoc : ∀ (l : List Row), (List.replicate (classRows X y a).length a ++ [b]) ++ List.replicate l.length b =
        List.replicate (classRows X y a).length a ++ List.replicate (f :: l).length b := by
      intro l
      rw [List.append_assoc, List.length_cons, List.replicate_succ]
      rfl
    rw [hassoc] at e1 e3
    refine ⟨classRows X y a ++ f :: added, _, f :: added, left, ?_, rfl, rfl, ?_, by simp, by simp, ?_⟩
    · have : (classRows X y a ++ [f]).length - 1 = (classRows X y a).length := by simp
      dsimp only [getRow, List.getElem?_cons_zero]
      rw [ok_bind, this, List.drop_one, List.tail_cons, e1]
      simp [pure, Except.pure]
    · exact List.Perm.cons f e2
    · intro x hx
      have := e3 x hx
      simpa [List.append_assoc] using this

/-- Every item of the result is an item of the input with its own label. -/
theorem C17_cnn_items (predict : List Row → List Int → Row → Int) {X : List Row} {y : List Int}
    (hxy : X.length = y.length) {a b : Int} (hab : IsMinority y a b) :
    ∃ X' y', cnnRemove predict X y = .ok (X', y') ∧ X'.length = y'.length ∧
      ∀ it ∈ X'.zip y', it ∈ X.zip y := by
  obtain ⟨X', y', kept, left, h, hX, hy, hp, _⟩ := C17_cnn predict hxy hab
  refine ⟨X', y', h, by rw [hX, hy]; simp, ?_⟩
  subst hX hy
  rw [List.zip_append (by simp)]
  rintro ⟨r, l⟩ hit
  rcases List.mem_append.1 hit with hit | hit
  · have h1 := List.of_mem_zip hit
    have h2 := List.eq_of_mem_replicate h1.2
    subst h2
    exact mem_classRows.1 h1.1
  · have h1 := List.of_mem_zip hit
    have h2 := List.eq_of_mem_replicate h1.2
    subst h2
    exact mem_classRows.1 (hp.mem_iff.1 (List.mem_append_left _ h1.1))

/-- The 1-nearest-neighbour rule used in the concrete cases below. -/
def nn1 (X : List Row) (y : List Int) (x : Row) : Int :=
  ((nearestTo X 1 x).head?.bind (fun i => y[i]?)).getD 0

/-- One-sided selection recomputes which class is the minority after its Tomek-link stage. Here label 1 is the
minority (three of seven items); the Tomek stage removes three of the four items labelled 0, label 0 becomes
the minority, and two items of the original minority class are dropped. -/
theorem C17_one_sided_selection_drops_minority :
    IsMinority [1, 1, 1, 0, 0, 0, 0] 1 0 ∧ KnnOK bruteKnn ∧
    ossRemove bruteKnn nn1 [[0], [10], [20], [1], [11], [21], [100]] [1, 1, 1, 0, 0, 0, 0]
      = .ok ([[100], [0]], [0, 1]) := by
  refine ⟨⟨by decide, by decide, by decide, by left; decide⟩, bruteKnn_ok, ?_⟩
  decide +kernel

/-- If the Tomek-link stage removes the whole majority class, one-sided selection raises `IndexError`. -/
theorem C17_one_sided_selection_raises :
    IsMinority [1, 1, 1, 0, 0, 0] 1 0 ∧
    ossRemove bruteKnn nn1 [[0], [10], [20], [1], [11], [21]] [1, 1, 1, 0, 0, 0] = .error .indexError := by
  refine ⟨⟨by decide, by decide, by decide, by right; decide⟩, ?_⟩
  decide +kernel

/-- Condensing followed by Tomek links: of the condensed data set exactly the members of Tomek links go that are not of the class which is
the smaller one after condensing. -/
theorem C17_cnn_tomek {knn : Nat → List Row → List (List Nat)} (hknn : KnnOK knn) (predict : List Row → List Int → Row → Int)
    {X : List Row} {y : List Int} (hxy : X.length = y.length) {a b : Int} (hab : IsMinority y a b) :
    ∃ X₁ y₁ s₁ X' y' K, cnnRemove predict X y = .ok (X₁, y₁) ∧ classLabelStatistics y₁ = .ok s₁ ∧
      cnnTomekRemove knn predict X y = .ok (X', y') ∧ SubData X₁ y₁ X' y' K ∧
      ∀ i, Removed X₁ K i ↔ y₁[i]? ≠ some s₁.minLabel ∧ ∃ j, IsTomekLink (knn 2 X₁) y₁ i j := by
  obtain ⟨X₁, y₁, kept, left, h, hX, hy, hp, hne, _⟩ := C17_cnn predict hxy hab
  have ha := List.length_pos_iff.2 (classRows_ne_nil hxy hab.1)
  have hb := List.length_pos_iff.2 hne
  have hl : X₁.length = y₁.length := by rw [hX, hy]; simp
  have h2 : 2 ≤ X₁.length := by rw [hX, List.length_append]; omega
  have hs₁ : ∃ s₁, classLabelStatistics y₁ = .ok s₁ := by
    have hma : a ∈ y₁ := by rw [hy]; exact List.mem_append_left _ (List.mem_replicate.2 ⟨by omega, rfl⟩)
    have hmb : b ∈ y₁ := by rw [hy]; exact List.mem_append_right _ (List.mem_replicate.2 ⟨by omega, rfl⟩)
    have hall : ∀ l ∈ y₁, l = a ∨ l = b := by
      intro l hl
      rw [hy] at hl
      rcases List.mem_append.1 hl with hl | hl
      · exact Or.inl (List.eq_of_mem_replicate hl)
      · exact Or.inr (List.eq_of_mem_replicate hl)
    have hne' : a ≠ b := by
      rintro rfl
      have := hab.2.2.2
      omega
    rcases lt_trichotomy (y₁.count a) (y₁.count b) with hc | hc | hc
    · obtain ⟨s, hs, _⟩ := stats_of_isMinority (a := a) (b := b) ⟨hma, hmb, hall, Or.inl hc⟩
      exact ⟨s, hs⟩
    · rcases lt_or_gt_of_ne hne' with hlt | hlt
      · obtain ⟨s, hs, _⟩ := stats_of_isMinority (a := b) (b := a) ⟨hmb, hma, fun l hl => (hall l hl).symm, Or.inr ⟨hc.symm, hlt⟩⟩
        exact ⟨s, hs⟩
      · obtain ⟨s, hs, _⟩ := stats_of_isMinority (a := a) (b := b) ⟨hma, hmb, hall, Or.inr ⟨hc, hlt⟩⟩
        exact ⟨s, hs⟩
    · obtain ⟨s, hs, _⟩ := stats_of_isMinority (a := b) (b := a) ⟨hmb, hma, fun l hl => (hall l hl).symm, Or.inl hc⟩
      exact ⟨s, hs⟩
  obtain ⟨s₁, hs₁⟩ := hs₁
  obtain ⟨X', y', K, h3, h4, h5⟩ := C15_remove_majority hknn hl h2 hs₁
  refine ⟨X₁, y₁, s₁, X', y', K, h, hs₁, ?_, h4, h5⟩
  obtain ⟨s, hs, _⟩ := stats_of_isMinority hab
  unfold cnnTomekRemove
  rw [hs, ok_bind, h, ok_bind]
  exact h3

/-- So minority rows may go: label 1 is the minority (three of seven), but condensing leaves one row labelled 0, and the row labelled 1 next
to it is removed. -/
theorem C17_cnn_tomek_drops_minority :
    IsMinority [1, 1, 1, 0, 0, 0, 0] 1 0 ∧
    cnnTomekRemove bruteKnn nn1 [[0], [1], [9], [10], [11], [12], [13]] [1, 1, 1, 0, 0, 0, 0] = .ok ([[0], [1], [10]], [1, 1, 0]) := by
  refine ⟨⟨by decide, by decide, by decide, by left; decide⟩, ?_⟩
  decide +kernel

/-- With more than two classes only the two smallest labels survive condensing. -/
theorem C17_cnn_drops_third_class :
    cnnRemove nn1 [[0], [1], [20], [30]] [0, 0, 1, 2] = .ok ([[20], [0]], [1, 0]) := by decide +kernel

example : IsMinority [0, 0, 1, 0, 1, 0] 1 0 := by
  exact ⟨by decide, by decide, by decide, by left; decide⟩
example : cnnRemove nn1 [[0], [1], [10], [9], [5], [6]] [0, 0, 1, 0, 1, 0]
    = .ok ([[10], [5], [0], [9], [6]], [1, 1, 0, 0, 0]) := by decide +kernel

end Verif

import Verif.Model.Distances
import Verif.Lemmas.ClassRows

/-!
# C44 The border points of the two classes are not returned with their labels

`ClosestNeighborsInClasses.fit_transform` keeps the rows whose neighbourhood is mixed but builds the labels from the
number of rows whose neighbourhood is pure.
-/

namespace Verif

/-- Number of rows of class `l` all of whose listed neighbours have label `l`. -/
def pureCount (ind : Int → List (List Nat)) (y : List Int) (l : Int) : Nat :=
  ((ind l).filter (fun ns => ns.all (fun i => decide (y[i]? = some l)))).length

theorem maskRows_length {α : Type} : ∀ (X : List α) (m : List Bool), X.length = m.length →
    (maskRows X m).length = m.countP id
  | [], [], _ => rfl
  | x :: X, b :: m, h => by
    have ih := maskRows_length X m (by simpa using h)
    unfold maskRows at ih ⊢
    cases b <;> simp [ih]
  | [], _ :: _, h => by simp at h
  | _ :: _, [], h => by simp at h

theorem countP_not (m : List Bool) : (m.map (fun b => !b)).countP id = m.length - m.countP id := by
  induction m with
  | nil => rfl
  | cons b m ih =>
    have := List.countP_le_length (p := id) (l := m)
    cases b <;> simp [ih] <;> omega

/-- The number of rows is that of the mixed neighbourhoods, the number of labels that of the pure ones. -/
theorem C44_lengths (ind : Int → List (List Nat)) (X : List Row) (y : List Int)
    (h0 : (ind 0).length = (selectLabel X y 0).length) (h1 : (ind 1).length = (selectLabel X y 1).length) :
    (closestInClasses ind X y).1.length =
      ((ind 0).length - pureCount ind y 0) + ((ind 1).length - pureCount ind y 1) ∧
    (closestInClasses ind X y).2.length = pureCount ind y 0 + pureCount ind y 1 := by
  have hc : ∀ l, ((ind l).map (allLabels y l)).countP id = pureCount ind y l := by
    intro l
    unfold pureCount
    rw [List.countP_map, ← List.countP_eq_length_filter]
    rfl
  unfold closestInClasses
  dsimp only
  constructor
  · rw [List.length_append, maskRows_length _ _ (by simp [h0]), maskRows_length _ _ (by simp [h1]), countP_not, countP_not,
      hc, hc, List.length_map, List.length_map]
  · rw [List.length_append, List.length_replicate, List.length_replicate, hc, hc]

/-- Rows and labels agree in number only if exactly half of all neighbourhoods are pure. -/
theorem C44_aligned_iff (ind : Int → List (List Nat)) (X : List Row) (y : List Int)
    (h0 : (ind 0).length = (selectLabel X y 0).length) (h1 : (ind 1).length = (selectLabel X y 1).length) :
    (closestInClasses ind X y).1.length = (closestInClasses ind X y).2.length ↔
      2 * (pureCount ind y 0 + pureCount ind y 1) = (ind 0).length + (ind 1).length := by
  obtain ⟨ha, hb⟩ := C44_lengths ind X y h0 h1
  have p0 : pureCount ind y 0 ≤ (ind 0).length := List.length_filter_le ..
  have p1 : pureCount ind y 1 ≤ (ind 1).length := List.length_filter_le ..
  rw [ha, hb]
  omega

/-- Two separated classes: no row is returned, but a label for every row. -/
theorem C44_misaligned : ∃ (ind : Int → List (List Nat)) (X : List Row) (y : List Int),
    (ind 0).length = (selectLabel X y 0).length ∧ (ind 1).length = (selectLabel X y 1).length ∧
    closestInClasses ind X y = ([], [0, 0, 1, 1]) :=
  ⟨fun l => if l = 0 then [[0, 1], [1, 0]] else [[2, 3], [3, 2]], [[0], [1], [10], [11]], [0, 0, 1, 1],
    by decide +kernel, by decide +kernel, by decide +kernel⟩

/-- Also with matching numbers the labels can be wrong: here the kept rows are two of class 0, the labels say class 1. -/
theorem C44_wrong_labels : ∃ (ind : Int → List (List Nat)) (X : List Row) (y : List Int),
    (ind 0).length = (selectLabel X y 0).length ∧ (ind 1).length = (selectLabel X y 1).length ∧
    closestInClasses ind X y = ([[0], [1]], [1, 1]) :=
  ⟨fun l => if l = 0 then [[0, 2], [1, 2]] else [[2, 3], [3, 2]], [[0], [1], [10], [11]], [0, 0, 1, 1],
    by decide +kernel, by decide +kernel, by decide +kernel⟩

end Verif

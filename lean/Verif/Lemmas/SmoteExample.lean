import Verif.Lemmas.Smote

/-! # Concrete data for the non-vacuity examples -/

namespace Verif

/-- A concrete data set with three minority and five majority rows, used for the non-vacuity checks. -/
def exX : List Row := [[0, 0], [1, 0], [0, 1], [5, 5], [6, 5], [5, 6], [6, 6], [7, 7]]
def exY : List Int := [1, 1, 1, 0, 0, 0, 0, 0]
/-- A (correct) neighbour answer on every data set: row `i` first, then the others cyclically. -/
def exKnn (k : Nat) (rows : List Row) : List (List Nat) :=
  (List.range rows.length).map (fun i => (List.range k).map (fun j => (i + j) % rows.length))
def exDraws : Draws := { choiceU := fun _ => 1/2, simplexU := fun _ j => 1/(j+2), normalU := fun _ _ => 0 }
def exPar : SmoteParams :=
  { proportion := 1, nNeighbors := 2,
    ss := { nDim := 2, simplexSampling := .random, within := .random, gaussian := .none } }

theorem exKnn_ok : KnnOK exKnn := by
  intro k rows hk
  refine ⟨by simp [exKnn], ?_⟩
  intro row hrow
  simp only [exKnn, List.mem_map, List.mem_range] at hrow
  obtain ⟨i, hi, rfl⟩ := hrow
  refine ⟨by simp, ?_⟩
  intro j hj
  simp only [List.mem_map, List.mem_range] at hj
  obtain ⟨t, _, rfl⟩ := hj
  exact Nat.mod_lt _ (by omega)

theorem exDraws_ok : exDraws.OK := by
  constructor
  · intro i; norm_num [exDraws]
  · intro i j
    simp only [exDraws]
    constructor
    · positivity
    · rw [div_lt_one (by positivity)]
      have : (0:ℚ) ≤ j := by positivity
      linarith

theorem exY_min : IsMinority exY 1 0 := by
  refine ⟨by decide, by decide, by decide, Or.inl (by decide)⟩

end Verif

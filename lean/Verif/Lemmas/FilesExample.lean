import Verif.Lemmas.Files

/-! A concrete record: two array members and two plain ones. -/

namespace Verif

/-- Code points of an ASCII text. -/
def cps (s : List Char) : List Nat := s.map Char.toNat

/-- `{"X_train": np.array([[1, -2.5]]), "y_train": np.array([0]), "error": None, "name": "a\"é"}`. -/
def exRec : Rec :=
  [(cps ['X'], .nd (.arr [.arr [.num ['1'], .num ['-', '2', '.', '5']]])),
   (cps ['y'], .nd (.arr [.num ['0']])),
   (cps ['e'], .j .null),
   (cps ['n'], .j (.str [97, 34, 233]))]

/-- Its array keys. -/
def exArrays : List (List Nat) := [cps ['X'], cps ['y']]

/-- Python writes an integer as a float by appending `.0`; texts with a fraction stay. -/
def exFloat (t : List Char) : List Char := if t = ['1'] then ['1', '.', '0'] else if t = ['0'] then ['0', '.', '0'] else t

theorem isNumber_one : IsNumberText ['1'] :=
  ⟨[], ['1'], [], [], rfl, Or.inl rfl, Or.inr ⟨'1', [], rfl, by decide, by decide, by simp [Digits]⟩, Or.inl rfl,
    Or.inl rfl⟩

theorem isNumber_zero : IsNumberText ['0'] :=
  ⟨[], ['0'], [], [], rfl, Or.inl rfl, Or.inl rfl, Or.inl rfl, Or.inl rfl⟩

theorem isNumber_m25 : IsNumberText ['-', '2', '.', '5'] :=
  ⟨['-'], ['2'], ['.', '5'], [], rfl, Or.inr rfl, Or.inr ⟨'2', [], rfl, by decide, by decide, by simp [Digits]⟩,
    Or.inr ⟨'5', [], rfl, by decide, by simp [Digits]⟩, Or.inl rfl⟩

theorem exFloat_ok : ∀ t, IsNumberText t → IsNumberText (exFloat t) := by
  intro t h
  unfold exFloat
  split
  · exact ⟨[], ['1'], ['.', '0'], [], rfl, Or.inl rfl,
      Or.inr ⟨'1', [], rfl, by decide, by decide, by simp [Digits]⟩,
      Or.inr ⟨'0', [], rfl, by decide, by simp [Digits]⟩, Or.inl rfl⟩
  · split
    · exact ⟨[], ['0'], ['.', '0'], [], rfl, Or.inl rfl, Or.inl rfl,
        Or.inr ⟨'0', [], rfl, by decide, by simp [Digits]⟩, Or.inl rfl⟩
    · exact h

theorem exRec_ok : RecOK exRec exArrays where
  keys := by decide
  strs := by
    intro p hp
    simp only [exRec, List.mem_cons, List.not_mem_nil, or_false] at hp
    rcases hp with rfl | rfl | rfl | rfl <;> simp [cps, StrOK]
  plain := by
    intro p hp v hv
    simp only [exRec, List.mem_cons, List.not_mem_nil, or_false] at hp
    rcases hp with rfl | rfl | rfl | rfl <;> simp at hv <;> subst hv <;> simp [J.OK, StrOK]
  entries := by
    intro p hp v hv
    simp only [exRec, List.mem_cons, List.not_mem_nil, or_false] at hp
    rcases hp with rfl | rfl | rfl | rfl <;> simp at hv <;> subst hv <;>
      simp [J.OK, elemsOK, isNumber_one, isNumber_zero, isNumber_m25]
  arraysNodup := by decide
  arraysIn := by
    intro k hk
    simp only [exArrays, List.mem_cons, List.not_mem_nil, or_false] at hk
    rcases hk with rfl | rfl
    · exact ⟨_, List.mem_cons_self ..⟩
    · exact ⟨_, List.mem_cons_of_mem _ (List.mem_cons_self ..)⟩
  arraysAll := by
    intro p hp v hv
    simp only [exRec, List.mem_cons, List.not_mem_nil, or_false] at hp
    rcases hp with rfl | rfl | rfl | rfl <;> simp at hv <;> subst hv <;> simp [exArrays]

/-- A `pickle` that knows the example record. -/
def exPickle : Pickle where
  dumps := fun _ => ['x']
  loads := fun t => if t = ['x'] then .ok (.dict exRec) else .error .eof

theorem exPickle_ok : exPickle.OK exRec where
  full := rfl
  torn := by
    intro t _ hne
    refine ⟨.eof, ?_, by decide, by decide⟩
    change (if t = ['x'] then Except.ok (Loaded.dict exRec) else Except.error PyErr.eof) = _
    exact if_neg hne

end Verif

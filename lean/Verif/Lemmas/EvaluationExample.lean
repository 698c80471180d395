import Verif.Lemmas.EvaluationRun
import Verif.Lemmas.JobsExample

/-! A concrete evaluation. -/

namespace Verif

/-- Two oversamplers are known: `"SMOTE"`, and `"Faulty"`, which raises `TypeError`. The classifier gives every test row
the probability 1/2; the scores repeat the predictions. -/
def exBench : Bench where
  instOs := fun n _ =>
    if n = "SMOTE" then .ok { exOsr with getParams := [("class_name", "SMOTE"), ("n_neighbors", "3")] }
    else if n = "Faulty" then .ok { exBadOsr .typeError with getParams := [("class_name", "Faulty")] }
    else .error (.keyError, n)
  scaler := some exScaler
  instClf := fun _ => .ok (fun _ _ x => .ok (x.map (fun _ => [1 / 2, 1 / 2])))
  scores := fun _ p => .ok (.vec p)
  md5Os := fun o => o.1.length
  md5Clf := fun c => c.1.cls.length + c.2.length
  path := fun k => k.kind

/-- Everything takes a second, nothing is late. -/
def exObs : Obs := ⟨fun _ _ => 1, fun _ _ => "[]", fun _ _ => 1, fun _ _ => "[]", fun _ _ => false⟩

/-- A second fold. -/
def exFold2 : Fold := ⟨⟨[[6], [4]], [0, 1], [[2]], [0]⟩, ⟨3, 1, 2⟩⟩

/-- The first fold of another data set: other rows at the same position. -/
def exFold' : Fold := ⟨⟨[[7], [8]], [0, 1], [[9]], [1]⟩, ⟨3, 1, 1⟩⟩

def exSmote : OsArg := ("SMOTE", [("n_neighbors", "3")])

def exFaulty : OsArg := ("Faulty", [])

def exTree : ClfDesc := ⟨"sklearn.tree", "DecisionTreeClassifier", []⟩

/-- An empty directory. -/
def exDir : Dir := ⟨[], fun _ => none⟩

/-- The contents of the files returned, with the files. -/
def readBack (r : Except Exc (List (List JobResult) × Dir)) : Except Exc (List (Option Cell)) :=
  match r with
  | .error e => .error e
  | .ok (out, d) => .ok (out.flatten.map (fun
    | .file k => d.store k
    | .record r => some (.good r)))

/-- The given field of the results. -/
def fieldOf (k : String) (r : Except Exc (List (List JobResult) × Dir)) : Except Exc (List (Option RV)) :=
  (readBack r).map (fun l => l.map (fun
    | some (.good r) => r.get k
    | _ => none))

theorem exSettledOf {F : List Fold} (h : ∀ f ∈ F, ∀ g ∈ F, f.desc.repeatIdx = g.desc.repeatIdx →
    f.desc.foldIdx = g.desc.foldIdx → f = g) : Settled exBench F [exSmote] [exTree] where
  folds := h
  hashOs := by intro o ho o' ho' _; simp only [List.mem_singleton] at ho ho'; rw [ho, ho']
  hashClf := by
    intro o ho o' ho' c hc c' hc' a a' h h' _
    simp only [List.mem_singleton] at ho ho' hc hc'
    subst ho ho' hc hc'
    rw [h] at h'
    injection h' with h'
    subst h'
    exact ⟨rfl, rfl⟩
  alike := by
    intro o ho o' ho' a a' h h' _
    simp only [List.mem_singleton] at ho ho'
    subst ho ho'
    rw [h] at h'
    injection h' with h'
    subst h'
    exact ⟨rfl, rfl⟩

theorem exSettled : Settled exBench [exFold, exFold2] [exSmote] [exTree] := exSettledOf (by decide)

/-- A data set, split in two. -/
def exData : DataSet := ⟨"toy", [[1], [2], [3], [4]], [0, 0, 1, 1], 2, [([0, 2], [1, 3]), ([1, 3], [0, 2])]⟩

end Verif

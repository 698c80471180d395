import Verif.Model.Evaluation

/-!
# Specification: results of an evaluation
-/

namespace Verif

/-- The fields of a result that tell about the run, and not about its outcome: times, warnings, and the name of the
file the oversampled data was read from. -/
def volatileFields : List String :=
  ["runtime", "oversampling_runtime", "oversampling_filname", "warning", "oversampling_warning"]

/-- Two results have the same fields in the same order, and agree in all of them but the given ones. -/
def SameBut (fields : List String) (r r' : Record) : Prop :=
  r.keys = r'.keys ∧ ∀ k, k ∉ fields → r.get k = r'.get k

/-- `r` is what evaluating the single oversampler `o` with the single classifier `c` on the fold `f` gives, without any
cache: in some run (with its own times and warnings) the record returned agrees with `r`. -/
def Genuine (B : Bench) (f : Fold) (o : OsArg) (c : ClfDesc) (r : Record) : Prop :=
  ∃ (ob : Obs) (r0 : Record), B.execute1Job ob [o] [c] f = .ok [.record r0] ∧ SameBut volatileFields r r0

/-- All combinations, in the order in which they are reported: by fold, by oversampler, by classifier. -/
def combos (folds : List Fold) (oss : List OsArg) (clfs : List ClfDesc) : List (Fold × OsArg × ClfDesc) :=
  folds.flatMap (fun f => oss.flatMap (fun o => clfs.map (fun c => (f, o, c))))

/-- What a user has to keep as it is while a cache directory is in use: the folds `F` are determined by their position,
no two of the labels hashed have the same hash code (those of the oversamplers `O`, and those of the classifiers `C`
together with the parameters recorded for an oversampler), and two of the oversamplers that are recorded with the same
parameters behave alike. -/
structure Settled (B : Bench) (F : List Fold) (O : List OsArg) (C : List ClfDesc) : Prop where
  folds : ∀ f ∈ F, ∀ g ∈ F, f.desc.repeatIdx = g.desc.repeatIdx → f.desc.foldIdx = g.desc.foldIdx → f = g
  hashOs : ∀ o ∈ O, ∀ o' ∈ O, B.md5Os o = B.md5Os o' → o = o'
  hashClf : ∀ o ∈ O, ∀ o' ∈ O, ∀ c ∈ C, ∀ c' ∈ C, ∀ a a', B.instOs o.1 o.2 = .ok a → B.instOs o'.1 o'.2 = .ok a' →
    B.md5Clf (c, coalesceDict (some a.getParams) o.2) = B.md5Clf (c', coalesceDict (some a'.getParams) o'.2) →
    c = c' ∧ coalesceDict (some a.getParams) o.2 = coalesceDict (some a'.getParams) o'.2
  alike : ∀ o ∈ O, ∀ o' ∈ O, ∀ a a', B.instOs o.1 o.2 = .ok a → B.instOs o'.1 o'.2 = .ok a' →
    coalesceDict (some a.getParams) o.2 = coalesceDict (some a'.getParams) o'.2 →
    a.sample = a'.sample ∧ a.transform = a'.transform

/-- The stores that arise from an empty one when jobs for the folds `F`, the oversamplers `O` and the classifiers `C` are executed, completely
or in part, in any order and by any number of runs, and when files are torn by crashes or removed, at any time. No job
is stopped by a timeout. -/
inductive History (B : Bench) (F : List Fold) (O : List OsArg) (C : List ClfDesc) : Store → Prop
  | empty : History B F O C (fun _ => none)
  | samp {s s' : Store} {ob : Obs} {f : Fold} {o : OsArg} {r : JobResult} : History B F O C s → f ∈ F → o ∈ O →
      (B.sampJob ob true f o).doOversampling B.md5Os s = .ok (r, s') → History B F O C s'
  | eval {s s' : Store} {ob : Obs} {f : Fold} {o : OsArg} {os : OsRecord} {c : ClfDesc} {r : JobResult} :
      History B F O C s → f ∈ F → o ∈ O → c ∈ C → B.osOf s (.file ((B.sampJob ob true f o).key B.md5Os)) = .ok os →
      (B.evalJob ob true os).step B.md5Clf c s = .ok (r, s') → History B F O C s'
  | torn {s : Store} (k : FileKey) : History B F O C s → History B F O C (Function.update s k (some .torn))
  | removed {s : Store} (p : FileKey → Bool) : History B F O C s → History B F O C (fun k => if p k then none else s k)

end Verif

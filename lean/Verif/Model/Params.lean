import Verif.Model.RegistryTypes

/-!
# Parameters, copies and wrappers

`RandomStateMixin`, `OverSamplingBase.set_params`, `MLPClassifierWrapper`, `OversamplingClassifier`.
-/

namespace Verif

/-- Values passed as or stored in `random_state`: `None`, an integer, a `RandomState` object (by an identity), the module
`np.random`, anything else. `seeded n` is the object `np.random.RandomState(n)`.
Used for base/_base.py:369-391 and base/_oversampling.py:310-321. -/
inductive Rs
  | none
  | int (n : Int)
  | seeded (n : Int)
  | object (id : Nat)
  | module
  | other
deriving DecidableEq

/-- The two attributes of `RandomStateMixin`. Used for base/_base.py:369-391 and base/_oversampling.py:310-321. -/
structure RsObj where
  init : Rs
  state : Rs
deriving DecidableEq

/-- base/_base.py:369-391, `set_random_state`. `np.random.RandomState(n)` raises for a seed below zero or from `2**32` on. -/
def setRandomState (v : Rs) : Res RsObj :=
  match v with
  | .none => .ok ⟨v, .module⟩
  | .int n => if 0 ≤ n ∧ n < 2 ^ 32 then .ok ⟨v, .seeded n⟩ else .error .valueError
  | .seeded _ => .ok ⟨v, v⟩
  | .object _ => .ok ⟨v, v⟩
  | .module => .ok ⟨v, v⟩
  | .other => .error .valueError

/-- base/_oversampling.py:310-321, `set_params(random_state=v)`: a plain `setattr`. -/
def RsObj.setParams (o : RsObj) (v : Rs) : RsObj := { o with state := v }

/-- base/_base.py:393-404, `get_params()["random_state"]`. -/
def RsObj.getParam (o : RsObj) : Rs := o.init

/-- Any draw, e.g. `self.random_state.random_sample()`: numbers and `None` have no such method. Used for base/_base.py:369-391. -/
def RsObj.draw (o : RsObj) : Res Unit :=
  match o.state with
  | .seeded _ => .ok ()
  | .object _ => .ok ()
  | .module => .ok ()
  | _ => .error .attributeError

/-- classifiers/_mlpclassifierwrapper.py:15-44: the constructor arguments, over any type of values. -/
structure Mlp (V : Type) where
  maxIter : V
  activation : V
  hiddenLayerFraction : V
  alpha : V
  learningRate : V
  randomState : V
deriving DecidableEq

/-- classifiers/_mlpclassifierwrapper.py:98-112. -/
def Mlp.getParams {V : Type} (m : Mlp V) : Dict String V :=
  [("activation", m.activation), ("hidden_layer_fraction", m.hiddenLayerFraction), ("alpha", m.alpha),
    ("learning_rate", m.learningRate), ("random_state", m.randomState)]

/-- classifiers/_mlpclassifierwrapper.py:15-24, called with keyword arguments; `d` holds the defaults. -/
def Mlp.ofParams {V : Type} (d : Mlp V) (kw : Dict String V) : Mlp V where
  maxIter := (Dict.get kw "max_iter").getD d.maxIter
  activation := (Dict.get kw "activation").getD d.activation
  hiddenLayerFraction := (Dict.get kw "hidden_layer_fraction").getD d.hiddenLayerFraction
  alpha := (Dict.get kw "alpha").getD d.alpha
  learningRate := (Dict.get kw "learning_rate").getD d.learningRate
  randomState := (Dict.get kw "random_state").getD d.randomState

/-- classifiers/_mlpclassifierwrapper.py:114-121, `copy`. -/
def Mlp.copy {V : Type} (d : Mlp V) (m : Mlp V) : Mlp V := Mlp.ofParams d m.getParams

/-- `hidden_layer_fraction`: the string `"sqrt"`, another string, or a number. Used for classifiers/_mlpclassifierwrapper.py:46-50. -/
inductive Fraction
  | sqrt
  | text (s : String)
  | num (q : ℚ)

/-- classifiers/_mlpclassifierwrapper.py:46-50. A string times an integer is a repeated string, on which `int` raises
`ValueError` (simplification: also when the repeated text is a number). `int` truncates towards zero. -/
def hiddenLayerSize (f : Fraction) (nDim : Nat) : Res Int :=
  match f with
  | .sqrt => .ok (max 1 (Nat.sqrt nDim : Int))
  | .text _ => .error .valueError
  | .num q => .ok (max 1 (pyInt ((nDim : ℚ) * q)))

/-- A classifier object that remembers what it was fitted on. Used for classifiers/_oversamplingclassifier.py:10-31. -/
abbrev Fitted := Option (List Row × List Int)

/-- classifiers/_oversamplingclassifier.py:10-31. `D` are descriptions of the two parts, `sample` is what an object built
from the description does. -/
structure OsClf (D : Type) where
  oversampler : D
  classifier : D
  sampler : List Row → List Int → Res (List Row × List Int)
  fitted : Fitted
  classes : Option (List Int)

/-- classifiers/_oversamplingclassifier.py:16-31, the constructor; `inst` is `instantiate_obj` of the oversampler. -/
def OsClf.new {D : Type} (inst : D → List Row → List Int → Res (List Row × List Int)) (o c : D) : OsClf D :=
  ⟨o, c, inst o, none, none⟩

/-- classifiers/_oversamplingclassifier.py:33-50, `fit`. `classes_` of the inner classifier are the distinct labels. -/
def OsClf.fit {D : Type} (s : OsClf D) (X : List Row) (y : List Int) : Res (OsClf D) := do
  let d ← s.sampler X y
  .ok { s with fitted := some d, classes := some (npUnique d.2) }

/-- classifiers/_oversamplingclassifier.py:52-70: `predict` hands the rows on as they are. `model` is the prediction of a
classifier fitted on the given data. -/
def OsClf.predict {D β : Type} (model : List Row × List Int → List Row → Res β) (s : OsClf D) (X : List Row) : Res β :=
  match s.fitted with
  | some d => model d X
  | none => .error .attributeError

/-- classifiers/_oversamplingclassifier.py:85-102, `set_params`: both parts are built anew. -/
def OsClf.setParams {D : Type} (inst : D → List Row → List Int → Res (List Row × List Int)) (s : OsClf D)
    (o c : Option D) : OsClf D :=
  { s with
    oversampler := o.getD s.oversampler
    classifier := c.getD s.classifier
    sampler := inst (o.getD s.oversampler)
    fitted := none }

/-- oversampling/_adasyn.py:94: `proportion or beta`: 0 counts as missing. -/
def pickOr (proportion : Option ℚ) (beta : ℚ) : ℚ :=
  match proportion with
  | some p => if p = 0 then beta else p
  | none => beta

/-- oversampling/_msyn.py:108: `coalesce(proportion, pressure)`. -/
def pickCoalesce (proportion : Option ℚ) (pressure : ℚ) : Option ℚ := coalesce proportion (some pressure)

end Verif

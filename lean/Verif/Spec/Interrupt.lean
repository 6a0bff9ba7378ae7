import Verif.Model.Interrupt

/-! # What the properties of interrupted training mean -/

namespace GT.Spec

variable {S St X Y : Type}

/-- The examples a trainer holds, each with its label. -/
def examples (a : Attrs S St X Y) : List (X × Y) := a.xTrain.zip a.yTrain ++ a.xEval.zip a.yEval

/-- As many labels as examples, in both data sets. -/
def Matched (a : Attrs S St X Y) : Prop := a.xTrain.length = a.yTrain.length ∧ a.xEval.length = a.yEval.length

instance (a : Attrs S St X Y) : Decidable (Matched a) := inferInstanceAs (Decidable (_ ∧ _))

/-- Everything a user can see of a trainer and its machine: the data, the results and the machine's state. -/
def userView (a : Attrs S St X Y) : List X × List Y × List X × List Y × Option (Results ⊕ FoldResults) × Option St :=
  (a.xTrain, a.yTrain, a.xEval, a.yEval, a.results, a.tmState)

/-- `train()` without an exception. -/
def complete (c : Settings S St X Y) (a : Attrs S St X Y) : Attrs S St X Y := (trainPy c a none).1

/-- `train()` in which an exception strikes after `n` statements with an effect. -/
def interrupted (c : Settings S St X Y) (a : Attrs S St X Y) (n : Nat) : Attrs S St X Y := (trainPy c a (some n)).1

/-- An exception after `n` statements with an effect ends the call early. -/
def Strikes (c : Settings S St X Y) (a : Attrs S St X Y) (n : Nat) : Prop := (trainPy c a (some n)).2 = none

instance (c : Settings S St X Y) (a : Attrs S St X Y) (n : Nat) : Decidable (Strikes c a n) :=
  inferInstanceAs (Decidable (_ = none))

/-- The exception strikes before the trained state is given to the machine: at least three statements (the state, the clean-up, the results)
were left. -/
def StrikesEarly (c : Settings S St X Y) (a : Attrs S St X Y) (n : Nat) : Prop := Strikes c a (n + 2)

instance (c : Settings S St X Y) (a : Attrs S St X Y) (n : Nat) : Decidable (StrikesEarly c a n) :=
  inferInstanceAs (Decidable (Strikes c a (n + 2)))

/-- Several calls of `train()`, each ended by an exception before the trained state is given to the machine. -/
inductive Attempts (c : Settings S St X Y) : Attrs S St X Y → Attrs S St X Y → Prop
  | none (a) : Attempts c a a
  | again {a b} (n : Nat) : Attempts c a b → StrikesEarly c b n → Attempts c a (interrupted c b n)

/-- The four arrays a trainer holds. -/
def arrays (a : Attrs S St X Y) : List X × List Y × List X × List Y := (a.xTrain, a.yTrain, a.xEval, a.yEval)

/-- The four arrays of a fold: the training samples and the evaluation samples. -/
def foldArrays (x : List X) (y : List Y) (f : List Nat × List Nat) : List X × List Y × List X × List Y :=
  (gather x f.1, gather y f.1, gather x f.2, gather y f.2)

/-- The first so many of the arrays `q`, the rest from `p`. -/
def Between (p q d : List X × List Y × List X × List Y) : Prop :=
  d = p ∨ d = (q.1, p.2.1, p.2.2.1, p.2.2.2) ∨ d = (q.1, q.2.1, p.2.2.1, p.2.2.2) ∨ d = (q.1, q.2.1, q.2.2.1, p.2.2.2) ∨ d = q

/-- The trainer's settings and best state as in the model of an uninterrupted run. -/
def asTrainer (c : Settings S St X Y) (a : Attrs S St X Y) (r : Option Results) : Trainer St :=
  ⟨c.nEpochs, c.earlyAcc, c.loadBest, a.best, r⟩

/-- The backend for labelled examples. -/
def onExamples (c : Settings S St X Y) (tr ev : List (X × Y)) : Env S St :=
  c.backend (tr.map Prod.fst) (tr.map Prod.snd) (ev.map Prod.fst) (ev.map Prod.snd)

/-- All samples of a cross-validation, as stacked at its beginning. -/
def stackedX (a : Attrs S St X Y) : List X := a.xTrain ++ a.xEval

/-- Their labels. -/
def stackedY (a : Attrs S St X Y) : List Y := a.yTrain ++ a.yEval

/-- The folds of a cross-validation. -/
def foldsOf (c : Settings S St X Y) (a : Attrs S St X Y) : List (List Nat × List Nat) := c.split (stackedX a) (stackedY a)

/-- The machine's state after the first `j` folds of a cross-validation without an exception. -/
def stateAfterFolds (c : Settings S St X Y) (a : Attrs S St X Y) (j : Nat) : Option St :=
  (foldsPy c (stackedX a) (stackedY a) ((foldsOf c a).take j) ⟨-1, c.kFolds, [], []⟩ a none).1.tmState

end GT.Spec

import Verif.Model.PredictArray
import Verif.Spec.Predictor

/-! # What the array property means -/

namespace GT.Spec

/-- The array holds exactly this example, one literal per element. -/
def HoldsExample (a : NpArray) (x : List Nat) : Prop :=
  a.len = x.length ∧ ∀ (i : Nat) (v : Nat), x[i]? = some v → a.mem (a.off + a.stride * i) = v

/-- A call on a predictor whose examples are arrays. -/
inductive ArrayCall
  | predict (a : NpArray)
  | other (c : Call)

/-- The predictor after a call. -/
def afterArrayCall (heap : Nat → Nat) (q : ArrayPredictor) : ArrayCall → ArrayPredictor
  | .predict a => (q.predict heap a).1
  | .other c => { q with p := afterCall q.p c }

/-- The predictor after a history of calls. -/
def afterArrayCalls (heap : Nat → Nat) (q : ArrayPredictor) (cs : List ArrayCall) : ArrayPredictor :=
  cs.foldl (afterArrayCall heap) q

end GT.Spec

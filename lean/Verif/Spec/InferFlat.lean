import Verif.Model.InferFlat
import Verif.Spec.Predictor

/-! # What the properties of the checked predictor mean -/

namespace GT.Spec

/-- What a call returns or raises. -/
inductive Answer
  | predicted (r : Except String Target)
  | explained (r : Except String Explanation)
  | explainedAll (r : Except String (List (Nat × Explanation)))
  | done

/-- A call on the predictor with checked accesses; `none`: undefined behaviour. -/
def callC (q : PredM) : Call → Option (PredM × Answer)
  | .predict x => (q.predict x).map fun r => (r.1, .predicted r.2)
  | .explain t => (q.explainTarget t).map fun r => (r.1, .explained r.2)
  | .explainAll => q.explainAll.map fun r => (r.1, .explainedAll r.2)
  | .setNames ns => some (q.setTargetNames ns, .done)

/-- A history of calls with all answers. -/
def callsC (q : PredM) : List Call → Option (PredM × List Answer)
  | [] => some (q, [])
  | c :: cs =>
    match callC q c with
    | none => none
    | some (q, a) => (callsC q cs).map fun r => (r.1, a :: r.2)

/-- What a call answers in the model without memory. -/
def answer (p : Predictor) : Call → Answer
  | .predict x => .predicted (p.predict x).2
  | .explain t => .explained (p.explainTarget t).2
  | .explainAll => .explainedAll p.explainAll.2
  | .setNames _ => .done

/-- The answers of a history in the model without memory. -/
def answers (p : Predictor) : List Call → List Answer
  | [] => []
  | c :: cs => answer p c :: answers (afterCall p c) cs

/-- A call as it is meant: an example has all literals, a class exists, and there are not more names than classes. -/
def Proper (rs : Rules) : Call → Prop
  | .predict x => rs.nLits ≤ x.length
  | .explain (some (.idx k)) => k < rs.nClasses
  | .explain _ => True
  | .explainAll => True
  | .setNames ns => ns.length ≤ rs.nClasses

/-- The sums of all weights for a class fit `int32_t`, whatever rules match. -/
def SumsFit (rs : Rules) : Prop :=
  ∀ c, c < rs.nClasses → (rs.weights.map fun w => (w.getD c 0).natAbs).sum < 2147483648

/-- A rule set the C++ object can hold: well formed, with at least one class, literal indices that fit `int`, and sums that
fit `int32_t`. -/
structure RulesFit (rs : Rules) : Prop where
  ok : RulesOK rs
  classes : 0 < rs.nClasses
  lits : rs.nLits * 2 < 2147483648
  sums : SumsFit rs

end GT.Spec

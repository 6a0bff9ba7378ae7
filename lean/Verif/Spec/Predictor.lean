import Verif.Spec.Ruleset

/-! # What the predictor properties mean -/

namespace GT.Spec

/-- A call on a predictor. -/
inductive Call
  | predict (x : List Nat)
  | explain (target : Option Target)
  | explainAll
  | setNames (names : List String)

/-- The predictor after a call (whatever the call returned or raised). -/
def afterCall (p : Predictor) : Call → Predictor
  | .predict x => (p.predict x).1
  | .explain t => (p.explainTarget t).1
  | .explainAll => p.explainAll.1
  | .setNames ns => p.setTargetNames ns

/-- The predictor after a history of calls. -/
def afterCalls (p : Predictor) (cs : List Call) : Predictor := cs.foldl afterCall p

/-- The rule set a predictor can be built on: rules without repeated literals over existing literals, one
weight per rule and class. -/
structure RulesOK (rs : Rules) : Prop where
  rows : rs.weights.length = rs.rules.length
  lits : ∀ r ∈ rs.rules, r.Nodup ∧ ∀ i ∈ r, i < 2 * rs.nLits
  weights : ∀ w ∈ rs.weights, w.length = rs.nClasses

open Classical in
/-- Importance of literal `i` for class `y` on example `x`: the weights for `y` of the matching rules that
use the literal, only the positive ones when negative clauses are excluded. -/
noncomputable def importance (excl : Bool) (rs : Rules) (x : List Nat) (y i : Nat) : Int :=
  (((rs.rules.zip rs.weights).filter fun r =>
      decide (Matches rs.nLits x r.1 ∧ i ∈ r.1 ∧ (excl = true → 0 < r.2.getD y 0))).map
    fun r => r.2.getD y 0).sum

/-- The call history contains no prediction. -/
def NoPredict (cs : List Call) : Prop := ∀ x, Call.predict x ∉ cs

end GT.Spec

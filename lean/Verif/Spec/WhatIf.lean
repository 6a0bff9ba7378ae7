import Verif.Spec.Predictor

/-! # What it means that an explanation tells how the votes react to a change of the example -/

namespace GT.Spec

/-- The example with feature `i` turned round: 1 becomes 0, anything else becomes 1. -/
def turned (x : List Nat) (i : Nat) : List Nat := x.set i (if x[i]? = some 1 then 0 else 1)

/-- The literal about feature `i` that is true in the example: number `i` for "the feature is 1", number
`i + n` for "the feature is 0", of `n` features. -/
def trueLiteral (n : Nat) (x : List Nat) (i : Nat) : Nat := if x[i]? = some 1 then i else i + n

/-- A literal (number `j` of `2n`) is true in the example. -/
def LiteralTrue (n : Nat) (x : List Nat) (j : Nat) : Prop :=
  (j < n ∧ x[j]? = some 1) ∨ (n ≤ j ∧ x[j - n]? = some 0)

/-- What a call of `explain` handed out for literal `j` (0 if it handed out nothing). -/
def reported (e : Except String Explanation) (j : Nat) : Int :=
  match e with
  | .ok ⟨some v, _⟩ => v.getD j 0
  | _ => 0

/-- Predicting `x` after the calls `cs`, then making the calls `ds`, then asking for an explanation of class
`y`. -/
def explained (p : Predictor) (cs : List Call) (x : List Nat) (ds : List Call) (y : Nat) :
    Except String Explanation :=
  ((afterCalls ((afterCalls p cs).predict x).1 ds).explainTarget (some (.idx y))).2

/-- No name was set by any of the calls: classes go by number. -/
def NoNames (cs : List Call) : Prop := ∀ ns, Call.setNames ns ∉ cs

/-- The sum of the absolute weights for a class stays within 32 bits. -/
def WeightsFit (rs : Rules) (y : Nat) : Prop :=
  (rs.weights.map fun w => (w.getD y 0).natAbs).sum ≤ 2147483647

end GT.Spec

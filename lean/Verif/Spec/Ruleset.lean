import Verif.Model.Inference
import Verif.Spec.Executor

/-! # What the rule set and predictor properties mean -/

namespace GT.Spec

/-- The clauses of a dense state: positive half, negated half, weights. -/
def stateClauses (s : DState) : List (List Int × List Int × List Int) :=
  List.zipWith (fun row w => (row.take s.nLits, row.drop s.nLits, w)) s.c s.w

/-- The shapes numpy guarantees: one weight row per clause, `2n` states and `n_classes` weights per row. -/
structure WellShaped (s : DState) : Prop where
  rows : s.c.length = s.w.length
  states : ∀ row ∈ s.c, row.length = 2 * s.nLits
  weights : ∀ w ∈ s.w, w.length = s.nClasses

/-- A rule over `n` literals holds for the example: listed indices below `n` are literals that are 1, the
others (minus `n`) are literals that are 0. -/
def Matches (n : Nat) (x : List Nat) (r : List Nat) : Prop :=
  ∀ i ∈ r, (i < n ∧ x[i]? = some 1) ∨ (n ≤ i ∧ x[i - n]? = some 0)

/-- Sum of the weights for class `k` of the matching rules. -/
noncomputable def ruleSum (n : Nat) (rules : List (List Nat)) (weights : List (List Int)) (x : List Nat) (k : Nat) : Int :=
  open Classical in
  (((rules.zip weights).filter (fun r => decide (Matches n x r.1))).map (fun r => r.2.getD k 0)).sum

/-- The clause includes exactly the literals listed in `r`. -/
def IncludesExactly (n : Nat) (c : List Int × List Int × List Int) (r : List Nat) : Prop :=
  ∀ i, i ∈ r ↔ (i < n ∧ Included c.1 i) ∨ (n ≤ i ∧ Included c.2.1 (i - n))

/-- Sum of the weights for class `k` of the clauses that include exactly the literals of `r`. -/
noncomputable def sameClauseSum (n : Nat) (cs : List (List Int × List Int × List Int)) (r : List Nat) (k : Nat) : Int :=
  open Classical in
  ((cs.filter (fun c => decide (IncludesExactly n c r))).map (fun c => c.2.2.getD k 0)).sum

/-- No group of identical clauses has a weight sum outside 16 bits. -/
def MergesFit (s : DState) : Prop :=
  ∀ r k, k < s.nClasses → -32768 ≤ sameClauseSum s.nLits (stateClauses s) r k ∧
    sameClauseSum s.nLits (stateClauses s) r k ≤ 32767

/-- Votes of a rule set for an example. -/
noncomputable def rulesetVotes (rs : Rules) (x : List Nat) : List Int :=
  (List.range rs.nClasses).map (ruleSum rs.nLits rs.rules rs.weights x)

end GT.Spec

import Verif.Spec.Dense
import Verif.Spec.Sparse

/-!
# What a clause matches

A clause is read as the set of examples whose literals satisfy it; training moves that set.
-/

namespace GT.Spec

/-- Every example of `n` literals the first clause matches, the second one matches too. -/
def Within (n : Nat) (c c' : Clause) : Prop :=
  ∀ z, Binary z → z.length = n → Satisfied c.pos c.neg z → Satisfied c'.pos c'.neg z

/-- The same for sparse clauses, whose examples are sets of literals. -/
def SWithin (c c' : SClause) : Prop := ∀ z, SHolds c z → SHolds c' z

/-- The clause includes at most as many literals as the budget, if there is one. -/
def FitsBudget (budget : Option Nat) (c : Clause) : Prop :=
  ∀ m, budget = some m → numIncluded c.pos + numIncluded c.neg ≤ m

/-- A clause is rejected for one example after the other, each of which it matches when its turn comes: the rejecting
feedback is applied to the two rows each time. -/
def RejectedFor : List (List Nat) → List Int × List Int → Prop
  | [], _ => True
  | x :: xs, r => Satisfied r.1 r.2 x ∧ RejectedFor xs (t2 r.1 r.2 x)

end GT.Spec

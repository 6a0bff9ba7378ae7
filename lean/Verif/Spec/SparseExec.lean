import Verif.Model.SparseExec
import Verif.Spec.Sparse
import Verif.Spec.Executor

/-! # What the properties of the sparse executor mean -/

namespace GT.Spec

/-- What a sparse clause has learned: the tracked literals with their states, and the weights. -/
def sLearned (c : SClause) : Half × Half × List Int := (c.pos, c.neg, c.w)

/-- When a sparse clause fires in evaluation (see C37 for how this differs from the dense clause): it tracks literals
on both sides, every included positive literal is in the example - or is not the last tracked one and is greater than
every literal of the example - and no included negated literal is. -/
def SFires (x : List Nat) (c : Half × Half × List Int) : Prop :=
  c.1 ≠ [] ∧ c.2.1 ≠ [] ∧ (∀ t, On c.1 t → t ∈ x ∨ (¬ IsLast c.1 t ∧ ∀ l ∈ x, l < t)) ∧ (∀ t, On c.2.1 t → t ∉ x)

/-- Sum of the weights for class `k` of the clauses that fire on `x`. -/
noncomputable def sFiringSum (cs : List (Half × Half × List Int)) (x : List Nat) (k : Nat) : Int :=
  open Classical in
  ((cs.filter (fun c => decide (SFires x c))).map (fun c => c.2.2.getD k 0)).sum

/-- The votes a sparse model with these clauses gives to the `n` classes for `x` (16-bit arithmetic). -/
noncomputable def sModelVotes (n : Nat) (cs : List (Half × Half × List Int)) (x : List Nat) : List Int :=
  (List.range n).map fun k => wrap16 (sFiringSum cs x k)

/-- Everything the sparse blocks of an executor have learned, in order. -/
def sModel (e : Exec SBlock) : List (Half × Half × List Int) := (e.blocks.flatMap (·.clauses)).map sLearned

/-- A sparse block with a weight per class in every clause. -/
def SparseBlockOK (n : Nat) (b : SBlock) : Prop := b.nClasses = n ∧ ∀ c ∈ b.clauses, c.w.length = n

/-- The sparse executor is set up for `n` classes. -/
def SSetUp (n : Nat) (e : Exec SBlock) : Prop := Ready n (SparseBlockOK n) e

end GT.Spec

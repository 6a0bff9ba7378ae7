import Verif.Model.Dense

/-!
# What the dense properties mean

Plain definitions, independent of the loops of the model.  An example is a list of literals
(0 or 1); a literal is included in a half row when its state is non-negative.
-/

namespace GT.Spec

/-- Every literal of the example is 0 or 1. -/
def Binary (x : List Nat) : Prop := ∀ v ∈ x, v = 0 ∨ v = 1

instance (x : List Nat) : Decidable (Binary x) := inferInstanceAs (Decidable (∀ v ∈ x, v = 0 ∨ v = 1))

/-- Literal `i` is included according to the half row `states`. -/
def Included (states : List Int) (i : Nat) : Prop := ∃ v, states[i]? = some v ∧ 0 ≤ v

/-- The conjunction denoted by two half rows holds for the example: included positive literals are 1,
included negated literals are 0. -/
def Satisfied (pos neg : List Int) (x : List Nat) : Prop :=
  (∀ i, Included pos i → x[i]? = some 1) ∧ (∀ i, Included neg i → x[i]? = some 0)

/-- The clause includes no literal at all. -/
def EmptyClause (pos neg : List Int) : Prop := (∀ i, ¬ Included pos i) ∧ (∀ i, ¬ Included neg i)

/-- Number of included literals of a half row. -/
def numIncluded (states : List Int) : Nat := (states.filter (fun v => decide (0 ≤ v))).length

/-- The clause has `n` positive and `n` negated literal states. -/
def Shaped (n : Nat) (c : Clause) : Prop := c.pos.length = n ∧ c.neg.length = n

/-- All states of a half row are in the legal range of the automata. -/
def InRange (states : List Int) : Prop := ∀ v ∈ states, -127 ≤ v ∧ v ≤ 127

/-- No state of the row went up (and no state was lost). -/
def NoRise (old new : List Int) : Prop :=
  new.length = old.length ∧
    ∀ (i : Nat) (v v' : Int), old[i]? = some v → new[i]? = some v' → v' ≤ v

/-- The clause includes more literals than the budget allows. -/
def OverBudget (budget : Option Nat) (c : Clause) : Prop :=
  ∃ b, budget = some b ∧ b < numIncluded c.pos + numIncluded c.neg

/-- Sum of the weights for class `k` of the clauses whose output is 1. -/
def voteSum (cs : List Clause) (k : Nat) : Int :=
  ((cs.filter (fun c => c.out == 1)).map (fun c => c.w.getD k 0)).sum

/-- The feedback situation "clause fires but should not": its weight votes against the target. -/
def WronglyFiring (c : Clause) (j : Nat) (target : Int) : Prop :=
  c.out = 1 ∧ ((target = 1 ∧ c.w.getD j 0 < 0) ∨ (target = -1 ∧ 0 ≤ c.w.getD j 0))

/-- Repeating the rejecting feedback `k` times on the same example. -/
def repeatT2 (x : List Nat) : Nat → List Int × List Int → List Int × List Int
  | 0, r => r
  | k + 1, r => repeatT2 x k (t2 r.1 r.2 x)

/-- The feedback situation "clause fires and should": its weight votes for the target. -/
def RightlyFiring (c : Clause) (j : Nat) (target : Int) : Prop :=
  c.out = 1 ∧ ((target = 1 ∧ 0 ≤ c.w.getD j 0) ∨ (target = -1 ∧ c.w.getD j 0 < 0))

/-- Number of draws the rewarding feedback makes before it comes to literal `i`: two per literal, except
that with boosting a literal equal to 1 needs only one. -/
def drawsBefore (boost : Bool) (x : List Nat) (i : Nat) : Nat :=
  if boost then 2 * i - (x.take i).count 1 else 2 * i

/-- A training history: examples with the feedback computed for them. -/
def trainHistory (b : DBlock) (h : List (List Nat × Feedback)) : DBlock :=
  h.foldl (fun b e => b.trainStep e.1 e.2) b

end GT.Spec

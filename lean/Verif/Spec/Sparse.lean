import Verif.Model.Sparse

/-!
# What the sparse properties mean

Plain definitions, independent of the scans of the model.  An example is the list of the literals that are 1; a
tracked literal is included when its state is non-negative.
-/

namespace GT.Spec

/-- The example lists its literals in strictly increasing order. -/
def SortedEx (x : List Nat) : Prop := x.Pairwise (· < ·)

instance (x : List Nat) : Decidable (SortedEx x) := inferInstanceAs (Decidable (x.Pairwise (· < ·)))

/-- The tracked literals of a half are in strictly increasing order (so none is there twice). -/
def SortedHalf (h : Half) : Prop := h.Pairwise (fun a b => a.1 < b.1)

instance (h : Half) : Decidable (SortedHalf h) :=
  inferInstanceAs (Decidable (h.Pairwise (fun a b => a.1 < b.1)))

/-- All tracked literals are literals of the machine. -/
def LitsBelow (n : Nat) (c : SClause) : Prop := (∀ e ∈ c.pos, e.1 < n) ∧ (∀ e ∈ c.neg, e.1 < n)

instance (n : Nat) (c : SClause) : Decidable (LitsBelow n c) :=
  inferInstanceAs (Decidable ((∀ e ∈ c.pos, e.1 < n) ∧ (∀ e ∈ c.neg, e.1 < n)))

/-- Literal `t` is included by the half. -/
def On (h : Half) (t : Nat) : Prop := ∃ v, (t, v) ∈ h ∧ 0 ≤ v

/-- The conjunction the clause denotes holds for the example. -/
def SHolds (c : SClause) (x : List Nat) : Prop :=
  (∀ t, On c.pos t → t ∈ x) ∧ (∀ t, On c.neg t → t ∉ x)

/-- Literal `t` is the last one the half tracks. -/
def IsLast (h : Half) (t : Nat) : Prop := h.getLast?.map (·.1) = some t

/-- The half row of literal states of a dense clause with the same included literals: an untracked literal gets a
negative state. -/
def denseRow (n : Nat) (h : Half) : List Int := (List.range n).map fun i => (h.lookup i).getD (-1)

/-- The dense example with the same literals. -/
def denseEx (n : Nat) (x : List Nat) : List Nat := (List.range n).map fun i => if i ∈ x then 1 else 0

/-- The dense clause with the same included literals, weights, output and count. -/
def denseClause (n : Nat) (c : SClause) : Clause := ⟨denseRow n c.pos, denseRow n c.neg, c.w, c.out, c.cnt⟩

/-- The clause is in order: both halves strictly increasing and at most `clause_size` long. -/
def Tidy (cfg : SCfg) (c : SClause) : Prop :=
  SortedHalf c.pos ∧ SortedHalf c.neg ∧ c.pos.length ≤ cfg.clauseSize ∧ c.neg.length ≤ cfg.clauseSize

instance (cfg : SCfg) (c : SClause) : Decidable (Tidy cfg c) :=
  inferInstanceAs (Decidable (SortedHalf c.pos ∧ SortedHalf c.neg ∧ c.pos.length ≤ cfg.clauseSize ∧
    c.neg.length ≤ cfg.clauseSize))

/-- A history of calls on a sparse block. -/
def sRun (b : SBlock) (ops : List BlockOp) : SBlock := ops.foldl SBlock.apply b

/-- Literal `l` was in some example the block was trained on. -/
def SeenIn (ops : List BlockOp) (l : Nat) : Prop :=
  ∃ x fb, BlockOp.trainUpdate x fb ∈ ops ∧ l ∈ x

/-- Literal `l` was in some example the block was trained on with class `k` as the target or as the class trained
against. -/
def SeenWith (ops : List BlockOp) (k l : Nat) : Prop :=
  ∃ x fb, BlockOp.trainUpdate x fb ∈ ops ∧ l ∈ x ∧ (fb.posClass = k ∨ fb.negClass = k)

/-- Literal `l` was in some example the block was trained on with class `k` as the target. -/
def SeenOf (ops : List BlockOp) (k l : Nat) : Prop :=
  ∃ x fb, BlockOp.trainUpdate x fb ∈ ops ∧ l ∈ x ∧ fb.posClass = k

/-- Sum of the weights for class `k` of the clauses whose output is 1. -/
def sVoteSum (cs : List SClause) (k : Nat) : Int :=
  ((cs.filter (fun c => c.out == 1)).map (fun c => c.w.getD k 0)).sum

end GT.Spec

namespace GT.Spec

/-- A state that is pushed up: always when boosting, else when the draw `u` is at most `p`; 127 stays. -/
def climb (boost : Bool) (p u : Rat) (v : Int) : Int := if v < 127 ∧ (boost = true ∨ u ≤ p) then v + 1 else v

/-- A state that is pushed down when the draw `u` is at most `p`; -127 stays. -/
def sink (p u : Rat) (v : Int) : Int := if -127 < v ∧ u ≤ p then v - 1 else v

/-- All states fit in a byte. -/
def ByteStates (c : SClause) : Prop :=
  (∀ e ∈ c.pos, -128 ≤ e.2 ∧ e.2 ≤ 127) ∧ (∀ e ∈ c.neg, -128 ≤ e.2 ∧ e.2 ≤ 127)

/-- "The clause fires and should": its weight votes for the target. -/
def SRightlyFiring (c : SClause) (j : Nat) (target : Int) : Prop :=
  c.out = 1 ∧ ((target = 1 ∧ 0 ≤ c.w.getD j 0) ∨ (target = -1 ∧ c.w.getD j 0 < 0))

/-- "The clause does not fire but should". -/
def SWronglySilent (c : SClause) (j : Nat) (target : Int) : Prop :=
  c.out = 0 ∧ ((target = 1 ∧ 0 ≤ c.w.getD j 0) ∨ (target = -1 ∧ c.w.getD j 0 < 0))

/-- "The clause fires but should not": its weight votes against the target. -/
def SWronglyFiring (c : SClause) (j : Nat) (target : Int) : Prop :=
  c.out = 1 ∧ ((target = 1 ∧ c.w.getD j 0 < 0) ∨ (target = -1 ∧ 0 ≤ c.w.getD j 0))

/-- Number of random decisions of the rewarding feedback: one for every tracked literal that may move and is not
pushed up by boosting. -/
def rewardDraws (cfg : SCfg) (x : List Nat) (c : SClause) : Nat :=
  let up (v : Int) : Bool := decide (v < 127) && !cfg.boost
  let down (v : Int) : Bool := decide (-127 < v)
  x.countP (fun l => (c.pos.lookup l).any up) + x.countP (fun l => (c.neg.lookup l).any down) +
    c.pos.countP (fun e => !decide (e.1 ∈ x) && down e.2) + c.neg.countP (fun e => !decide (e.1 ∈ x) && up e.2)

end GT.Spec

import Verif.Spec.OnePatch

/-! # What it means that the coding of the features does not matter (C100) -/

namespace GT.Spec

/-- Another coding of the same features: `order` lists the old columns in their new order, and the columns with `flip` hold the opposite
value. -/
structure Recoding where
  order : List Nat
  flip  : Nat → Bool

/-- It recodes examples of `n` features: every old column occurs once. -/
def Recoding.Of (r : Recoding) (n : Nat) : Prop := r.order.Perm (List.range n)

/-- The example in the new coding. -/
def Recoding.lits (r : Recoding) (x : List Nat) : List Nat :=
  r.order.map fun i => if r.flip i then 1 - x.getD i 0 else x.getD i 0

/-- The states of the clause for the features in the new coding: a flipped feature is what its negation was. -/
def Recoding.pos (r : Recoding) (c : Clause) : List Int :=
  r.order.map fun i => if r.flip i then c.neg.getD i 0 else c.pos.getD i 0

/-- The states for the negated features in the new coding. -/
def Recoding.neg (r : Recoding) (c : Clause) : List Int :=
  r.order.map fun i => if r.flip i then c.pos.getD i 0 else c.neg.getD i 0

/-- The clause in the new coding. -/
def Recoding.clause (r : Recoding) (c : Clause) : Clause := { c with pos := r.pos c, neg := r.neg c }

/-- The block in the new coding, with its own literal generator. -/
def Recoding.block (r : Recoding) (b : DBlock) (g : Rng) : DBlock := { b with clauses := b.clauses.map r.clause, rng := g }

/-- The machine in the new coding, with its own literal generators. -/
def Recoding.exec (r : Recoding) (e : Exec DBlock) (gs : List Rng) : Exec DBlock :=
  ⟨e.fb, List.zipWith r.block e.blocks gs, e.index⟩

/-- The calls in the new coding. -/
def Recoding.calls (r : Recoding) (cs : List (List Nat × Option Nat)) : List (List Nat × Option Nat) :=
  cs.map fun c => (r.lits c.1, c.2)

/-- The first `k` numbers of a stream. -/
def numbers (g : Rng) (k : Nat) : List Rat := (List.range k).map fun i => g.draw (g.pos + i)

/-- The second stream has the numbers of the first in another order: again and again both have produced the same numbers, each as often. -/
def Reshuffled (g h : Rng) : Prop := ∀ k, ∃ m, k ≤ m ∧ (numbers h m).Perm (numbers g m)

/-- The second block holds the clauses of the first in the new coding, with the same outputs, and the same votes. -/
def SameRecoded (r : Recoding) (b d : DBlock) : Prop :=
  d.clauses.map face = b.clauses.map (fun c => face (r.clause c)) ∧ d.votes = b.votes

end GT.Spec

import Verif.Model.Config

/-! # What a legal block layout is -/

namespace GT.Spec

/-- A partition of `n` clauses into blocks: every block has at least one clause, nothing is lost. -/
def IsPartition (n : Int) (sizes : List Int) : Prop := (∀ k ∈ sizes, 1 ≤ k) ∧ sizes.sum = n

/-- The even split: `b` blocks, all of size `n / b` except that the first also takes the remainder. -/
def EvenSplit (n : Int) (b : Nat) (sizes : List Int) : Prop :=
  sizes.length = b ∧ sizes[0]? = some (n / b + n % b) ∧
    ∀ i, 1 ≤ i → i < b → sizes[i]? = some (n / b)

/-- Number of times an event occurs. -/
def count (e : AllocEvent) (l : List AllocEvent) : Nat := (l.filter (fun a => a == e)).length

/-- The list of `s` values denoted by the argument. -/
def sValues : SArg → List Rat
  | .float s => [s]
  | .list ss => ss

end GT.Spec

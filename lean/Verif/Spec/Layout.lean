import Verif.Model.Layout
import Verif.Spec.Ruleset

/-! # What a block and a state array say about clauses -/

namespace GT.Spec

/-- The clauses stored in a block: of each row the first `n` entries of both halves, and the weights. -/
def blockClauses (b : Flat) : List (List Int × List Int × List Int) :=
  (List.range b.nClauses).map fun i =>
    ((List.range b.nLits).map (fun j => b.clauses (i * (2 * b.litMem) + j)),
     (List.range b.nLits).map (fun j => b.clauses (i * (2 * b.litMem) + b.litMem + j)),
     (List.range b.nClasses).map (fun k => b.weights (i * b.wMem + k)))

/-- The clauses of all blocks of a machine, in order. -/
def machineClauses (bs : List Flat) : List (List Int × List Int × List Int) := bs.flatMap blockClauses

/-- The first `count` clauses stored in the arrays of a state with `n` literals and `m` classes. -/
def arrayClauses (n m count : Nat) (a : Arrays) : List (List Int × List Int × List Int) :=
  (List.range count).map fun i =>
    ((List.range n).map (fun j => a.c (i * (2 * n) + j)),
     (List.range n).map (fun j => a.c (i * (2 * n) + n + j)),
     (List.range m).map (fun k => a.w (i * m + k)))

/-- Number of clauses of all blocks. -/
def totalClauses (bs : List Flat) : Nat := (bs.map (·.nClauses)).sum

/-- The block has these dimensions, and rows long enough for them. -/
def Fits (n m : Nat) (b : Flat) : Prop := b.nLits = n ∧ b.nClasses = m ∧ n ≤ b.litMem ∧ m ≤ b.wMem

/-- `b'` is `b` with possibly other literal states and weights: dimensions and padding are the same. -/
def SamePadding (b b' : Flat) : Prop :=
  b'.nLits = b.nLits ∧ b'.nClauses = b.nClauses ∧ b'.nClasses = b.nClasses ∧ b'.litMem = b.litMem ∧
  b'.wMem = b.wMem ∧
  (∀ i h j, i < b.nClauses → h < 2 → b.nLits ≤ j → j < b.litMem →
    b'.clauses (i * (2 * b.litMem) + h * b.litMem + j) = b.clauses (i * (2 * b.litMem) + h * b.litMem + j)) ∧
  (∀ i k, i < b.nClauses → b.nClasses ≤ k → k < b.wMem → b'.weights (i * b.wMem + k) = b.weights (i * b.wMem + k)) ∧
  (∀ a, b.nClauses * (2 * b.litMem) ≤ a → b'.clauses a = b.clauses a) ∧
  (∀ a, b.nClauses * b.wMem ≤ a → b'.weights a = b.weights a)

end GT.Spec

import Verif.Model.Avx2
import Verif.Spec.Dense

/-!
# Reading an AVX2 block as a dense block

The literal states, weights and flags that a padded AVX2 clause stands for, forgetting the padding lanes.
-/

namespace GT.Spec

/-- The clause stored in a padded row of `n` literals: the first `n` bytes of each half, as signed
numbers. -/
def unpad (n : Nat) (c : VClause) : Clause :=
  { pos := (List.range n).map fun i => (c.row i).toInt
    neg := (List.range n).map fun i => (c.row (avxMem n + i)).toInt
    w := c.w, out := c.out, cnt := c.cnt }

/-- The example stored in a padded buffer. -/
def unpadExample (n : Nat) (lits : Mem) : List Nat := (List.range n).map fun i => (lits i).toNat

/-- What is left of a padded clause when the padding lanes and the (scratch) literal counter are
forgotten. -/
def visible (n : Nat) (c : VClause) : Clause := { unpad n c with cnt := 0 }

/-- What an executor does with a dense block: train on an example with some feedback, or evaluate. -/
inductive Step
  | train (lits : Mem) (fb : Feedback)
  | eval (lits : Mem)

/-- The step on an AVX2 block (a training step is `train_example` followed by `train_update`). -/
def vstep (b : VBlock) : Step → VBlock
  | .train lits fb => (b.apply (.trainExample lits)).apply (.trainUpdate lits fb)
  | .eval lits => b.apply (.evalExample lits)

/-- Two steps with the same feedback whose example buffers agree on the `n` literals. -/
def Step.Agree (n : Nat) : Step → Step → Prop
  | .train l fb, .train l' fb' => (∀ i, i < n → l i = l' i) ∧ fb = fb'
  | .eval l, .eval l' => ∀ i, i < n → l i = l' i
  | _, _ => False

/-- How many of the 256 byte values, read as signed numbers, are below `t`. -/
def updatingBytes (t : Int) : Nat :=
  ((List.range 256).filter fun b => decide ((BitVec.ofNat 8 b).toInt < t)).length

end GT.Spec

import Verif.Spec.OnePatch
import Verif.Spec.Recode

/-! # What it means that the numbering of the clauses does not matter (C104) -/

namespace GT.Spec

/-- The elements of a list in another order: `order` lists their old numbers. -/
def reorder {α : Type} (order : List Nat) (l : List α) : List α := order.filterMap fun i => l[i]?

/-- The order lists each of `n` clauses once. -/
def OrderOf (n : Nat) (order : List Nat) : Prop := order.Perm (List.range n)

/-- The block with its clauses in another order, and its own generators. -/
def reorderedDense (order : List Nat) (b : DBlock) (g : Rng × Rng) : DBlock :=
  { b with clauses := reorder order b.clauses, fast := g.1, rng := g.2 }

/-- The same for an AVX2 block. -/
def reorderedAvx (order : List Nat) (b : VBlock) (g : Rng × VRng) : VBlock :=
  { b with clauses := reorder order b.clauses, fast := g.1, vrng := g.2 }

/-- The same for a convolutional block. -/
def reorderedConv (order : List Nat) (b : ConvBlock) (g : Rng × Rng) : ConvBlock :=
  { b with clauses := reorder order b.clauses, fast := g.1, rng := g.2 }

/-- The same for an AVX2 convolutional block. -/
def reorderedAvxConv (order : List Nat) (b : VConvBlock) (g : (Rng × Rng) × VRng) : VConvBlock :=
  { b with clauses := reorder order b.clauses, fast := g.1.1, rng := g.1.2, vrng := g.2 }

/-- The machine in which every block has its clauses in another order, and its own generators. -/
def reorderedExec {B G : Type} (put : List Nat → B → G → B) (e : Exec B) (orders : List (List Nat)) (gs : List G) : Exec B :=
  ⟨e.fb, List.zipWith (fun ob g => put ob.1 ob.2 g) (orders.zip e.blocks) gs, e.index⟩

/-- The literal budget is one that nothing exceeds: no clause has as many literals, and no counter of the block holds more. (A convolutional
block always has a budget, 65535 if none is set.) -/
def AmpleBudget (b : ConvBlock) : Prop := ∃ v, b.cfg.budget = some v ∧ (∀ i, b.counts i ≤ v) ∧
  ∀ c ∈ b.clauses, c.base.cnt ≤ v ∧ c.base.pos.length + c.base.neg.length ≤ v

/-- The same for an AVX2 convolutional block. -/
def AmpleAvxBudget (b : VConvBlock) : Prop := 0 < b.cfg.nLits ∧ ∃ v, b.cfg.budget = some v ∧ 2 * b.cfg.nLits ≤ v ∧ (∀ i, b.counts i ≤ v) ∧
  ∀ c ∈ b.clauses, c.base.cnt ≤ v

/-- What a clause of an AVX2 convolutional block has learned (all of its row of memory), and whether it fired. -/
def avxFace (c : VClause) : Mem × List Int × Nat := (c.row, c.w, c.out)

/-- The first `k` vectors of a stream. -/
def vectors (g : VRng) (k : Nat) : List (Nat → Byte) := (List.range k).map fun i => g.draw (g.pos + i)

/-- The second stream has the vectors of the first in another order. -/
def ReshuffledVectors (g h : VRng) : Prop := ∀ k, ∃ m, k ≤ m ∧ (vectors h m).Perm (vectors g m)

end GT.Spec

import Verif.Spec.ConvExec
import Mathlib.Data.List.Forall2

/-! # What it means that a convolutional machine with one patch is a dense machine (C99) -/

namespace GT.Spec

/-- A history of calls on a machine: an example with a label is trained on, one without a label is predicted. The result is the machine
afterwards and the predictions. -/
def runCalls {B E : Type} (be : Backend B E) (smp : List Rat → Rat → Nat) : List (E × Option Nat) → Exec B → Exec B × List Nat
  | [], e => (e, [])
  | (x, some y) :: cs, e => runCalls be smp cs (e.trainOne be smp x y)
  | (x, none) :: cs, e =>
    let r := e.evalOne be x
    let rs := runCalls be smp cs r.1
    (rs.1, r.2 :: rs.2)

/-- The numbers of the second stream are numbers of the first, in the same order, some left out. -/
def Thinned (g h : Rng) : Prop :=
  ∃ pick : Nat → Nat, (∀ i j, i < j → pick i < pick j) ∧ ∀ i, h.draw (h.pos + i) = g.draw (g.pos + pick i)

/-- What a clause has learned and whether it fired last. -/
def face (c : Clause) : List Int × List Int × List Int × Nat := (c.pos, c.neg, c.w, c.out)

/-- The dense block with the same states, weights, votes and options as a convolutional block, and its own literal generator. -/
def denseOf (b : ConvBlock) (g : Rng) : DBlock :=
  ⟨b.nLits, b.nClasses, b.cfg, b.clauses.map (·.base), b.votes, b.fast, g⟩

/-- The dense machine with the same states, weights and options as a convolutional machine, and its own literal generators. -/
def denseExec (e : Exec ConvBlock) (gs : List Rng) : Exec DBlock := ⟨e.fb, List.zipWith denseOf e.blocks gs, e.index⟩

/-- The two blocks hold the same clauses with the same outputs, and the same votes. -/
def SameBlock (b : ConvBlock) (d : DBlock) : Prop :=
  d.clauses.map face = b.clauses.map (fun c => face c.base) ∧ d.votes = b.votes

/-- The AVX2 dense block with the same rows, weights, votes, options and generators as an AVX2 convolutional block. -/
def avxDenseOf (b : VConvBlock) : VBlock := ⟨b.nClasses, b.cfg, b.clauses.map (·.base), b.votes, b.fast, b.vrng⟩

/-- The AVX2 dense machine made of these. -/
def avxDenseExec (e : Exec VConvBlock) : Exec VBlock := ⟨e.fb, e.blocks.map avxDenseOf, e.index⟩

/-- The two AVX2 blocks hold the same clauses with the same outputs, and the same votes. -/
def SameAvxBlock (b : VConvBlock) (d : VBlock) : Prop :=
  d.clauses.map (fun c => (c.row, c.w, c.out)) = b.clauses.map (fun c => (c.base.row, c.base.w, c.base.out)) ∧ d.votes = b.votes

end GT.Spec

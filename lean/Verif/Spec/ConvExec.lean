import Verif.Model.ConvExec
import Verif.Spec.Conv
import Verif.Spec.Executor
import Verif.Spec.Neon

/-! # What the properties of the convolutional and the NEON executor mean -/

namespace GT.Spec

/-- A convolutional clause fires in evaluation on an example of `np` patches of `m` literals: it is non-empty and its
conjunction holds in some patch. -/
def FiresSomewhere (m np : Nat) (x : List Nat) (c : List Int × List Int × List Int) : Prop :=
  ¬ EmptyClause c.1 c.2.1 ∧ ∃ k, k < np ∧ Satisfied c.1 c.2.1 (patchLits m x k)

/-- Sum of the weights for class `k` of the clauses that fire in some patch of `x`. -/
noncomputable def convFiringSum (m np : Nat) (cs : List (List Int × List Int × List Int)) (x : List Nat) (k : Nat) :
    Int :=
  open Classical in
  ((cs.filter (fun c => decide (FiresSomewhere m np x c))).map (fun c => c.2.2.getD k 0)).sum

/-- The votes a convolutional model with these clauses gives to the `n` classes for `x` (16-bit arithmetic). -/
noncomputable def convModelVotes (m np n : Nat) (cs : List (List Int × List Int × List Int)) (x : List Nat) :
    List Int :=
  (List.range n).map fun k => wrap16 (convFiringSum m np cs x k)

/-- Everything the convolutional blocks of an executor have learned, in order. -/
def convModel (e : Exec ConvBlock) : List (List Int × List Int × List Int) :=
  e.blocks.flatMap fun b => b.clauses.map fun c => learned c.base

/-- A convolutional block for `np` patches of `m` literals and `n` classes. -/
def ConvBlockOK (m np n : Nat) (b : ConvBlock) : Prop :=
  b.nLits = m ∧ b.nPatches = np ∧ b.nClasses = n ∧ ∀ c ∈ b.clauses, Shaped m c.base ∧ c.base.w.length = n

/-- The same for the AVX2 backend, without padding. -/
def avxConvModel (e : Exec VConvBlock) : List (List Int × List Int × List Int) :=
  e.blocks.flatMap fun b => b.clauses.map fun c => learned (unpad b.cfg.nLits c.base)

/-- An AVX2 convolutional block for `np` patches of `m` literals and `n` classes. -/
def AvxConvBlockOK (m np n : Nat) (b : VConvBlock) : Prop :=
  0 < m ∧ b.cfg.nLits = m ∧ b.nPatches = np ∧ b.nClasses = n ∧ ∀ c ∈ b.clauses, c.base.w.length = n

/-- Everything the NEON blocks of an executor have learned, without padding. -/
def neonModel (e : Exec (Option NBlock)) : List (List Int × List Int × List Int) :=
  e.blocks.flatMap fun b => (b.map fun b => b.clauses.map fun c => learned (neonUnpad b.cfg.nLits c)).getD []

/-- A running NEON block for `m` literals and `n` classes. -/
def NeonBlockOK (m n : Nat) (b : Option NBlock) : Prop :=
  ∃ d, b = some d ∧ 0 < m ∧ d.cfg.nLits = m ∧ d.nClasses = n ∧ ∀ c ∈ d.clauses, c.w.length = n

/-- The same, compiled with a literal budget. -/
def NeonBudgetOK (m n : Nat) (b : Option NBlock) : Prop :=
  NeonBlockOK m n b ∧ ∀ d, b = some d → d.cfg.budget ≠ none

/-- All the rows and weights of the clauses of a NEON block, padding included, in order. -/
def neonRows (b : Option NBlock) : Option (List (Mem × List Int)) := b.map fun b => b.clauses.map fun c => (c.row, c.w)

end GT.Spec

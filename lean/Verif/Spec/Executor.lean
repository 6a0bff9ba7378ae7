import Verif.Model.Threads
import Verif.Spec.Dense
import Verif.Spec.Feedback
import Verif.Spec.Avx2

/-! # What the executor properties mean -/

namespace GT.Spec

/-- What a clause has learned: literal states and weights (not its scratch output and count). -/
def learned (c : Clause) : List Int × List Int × List Int := (c.pos, c.neg, c.w)

/-- The clause fires in evaluation: it is non-empty and its conjunction holds. -/
def Fires (x : List Nat) (c : List Int × List Int × List Int) : Prop :=
  ¬ EmptyClause c.1 c.2.1 ∧ Satisfied c.1 c.2.1 x

/-- Sum of the weights for class `k` of the clauses that fire on `x`. -/
noncomputable def firingSum (cs : List (List Int × List Int × List Int)) (x : List Nat) (k : Nat) : Int :=
  open Classical in
  ((cs.filter (fun c => decide (Fires x c))).map (fun c => c.2.2.getD k 0)).sum

/-- The votes a model with these clauses gives to the `n` classes for `x` (16-bit arithmetic). -/
noncomputable def modelVotes (n : Nat) (cs : List (List Int × List Int × List Int)) (x : List Nat) : List Int :=
  (List.range n).map fun k => wrap16 (firingSum cs x k)

/-- Sum of the weights for class `k` of the clauses whose conjunction holds on `x`. In training a clause without literals holds on
every example (C06). -/
noncomputable def holdingSum (cs : List (List Int × List Int × List Int)) (x : List Nat) (k : Nat) : Int :=
  open Classical in
  ((cs.filter (fun c => decide (Satisfied c.1 c.2.1 x))).map (fun c => c.2.2.getD k 0)).sum

/-- The votes a model with these clauses gives to the `n` classes for `x` in training (16-bit arithmetic). -/
noncomputable def trainingVotes (n : Nat) (cs : List (List Int × List Int × List Int)) (x : List Nat) : List Int :=
  (List.range n).map fun k => wrap16 (holdingSum cs x k)

/-- Everything the blocks of an executor have learned, in order. -/
def model (e : Exec DBlock) : List (List Int × List Int × List Int) :=
  (e.blocks.flatMap (·.clauses)).map learned

/-- The executor is set up for `m` literals and `n` classes. -/
structure SetUp (m n : Nat) (e : Exec DBlock) : Prop where
  classes : 0 < n
  fbClasses : e.fb.nClasses = n
  fbVotes : e.fb.votes.length = n
  blocks : ∀ b ∈ e.blocks, b.nClasses = n ∧ ∀ c ∈ b.clauses, Shaped m c ∧ c.w.length = n

/-- Single-threaded training over a sequence of examples with labels. -/
def trainAll {B E : Type} (be : Backend B E) (smp : List Rat → Rat → Nat) (ds : List (E × Nat)) (e : Exec B) :
    Exec B :=
  ds.foldl (fun e d => e.trainOne be smp d.1 d.2) e

/-- The votes the blocks register for a training example before any update. -/
def trainVotes {B E : Type} (be : Backend B E) (e : Exec B) (x : E) : List Int :=
  (exampleLoop (be.trainExample · x) be.votes e.blocks e.fb.reset).2.votes

/-- Number of examples whose label is, when their turn comes, the lowest-numbered class with the most
votes. -/
noncomputable def hits {B E : Type} (be : Backend B E) (smp : List Rat → Rat → Nat) :
    List (E × Nat) → Exec B → Nat
  | [], _ => 0
  | d :: ds, e =>
    open Classical in
    (if LowestMax (trainVotes be e d.1) d.2 then 1 else 0) + hits be smp ds (e.trainOne be smp d.1 d.2)

/-- `P` holds of blocks with enough vote slots for `n` classes, and no call destroys it. -/
structure Keeps {B E : Type} (be : Backend B E) (n : Nat) (P : B → Prop) : Prop where
  train : ∀ b x, P b → P (be.trainExample b x) ∧ n ≤ (be.votes (be.trainExample b x)).length
  eval : ∀ b x, P b → P (be.evalExample b x) ∧ n ≤ (be.votes (be.evalExample b x)).length
  update : ∀ b x fb, P b → P (be.trainUpdate b x fb)

end GT.Spec

namespace GT.Spec

/-- The executor's own data fit: `n` classes, a vote slot for each, and `P` holds of all blocks. -/
structure Ready {B : Type} (n : Nat) (P : B → Prop) (e : Exec B) : Prop where
  classes : 0 < n
  fbClasses : e.fb.nClasses = n
  fbVotes : e.fb.votes.length = n
  blocks : ∀ b ∈ e.blocks, P b

/-- A portable block with a weight per class in every clause. -/
def DenseBlockOK (n : Nat) (b : DBlock) : Prop := b.nClasses = n ∧ ∀ c ∈ b.clauses, c.w.length = n

/-- An AVX2 block with at least one literal and a weight per class in every clause. -/
def AvxBlockOK (n : Nat) (b : VBlock) : Prop :=
  b.nClasses = n ∧ 0 < b.cfg.nLits ∧ ∀ c ∈ b.clauses, c.w.length = n

/-- Everything the AVX2 blocks of an executor have learned, without padding. -/
def avxModel (e : Exec VBlock) : List (List Int × List Int × List Int) :=
  e.blocks.flatMap fun b => b.clauses.map fun c => learned (unpad b.cfg.nLits c)

/-- The AVX2 executor is set up for `m` literals and `n` classes. -/
structure AvxSetUp (m n : Nat) (e : Exec VBlock) : Prop where
  classes : 0 < n
  lits : 0 < m
  fbClasses : e.fb.nClasses = n
  fbVotes : e.fb.votes.length = n
  blocks : ∀ b ∈ e.blocks, b.nClasses = n ∧ b.cfg.nLits = m ∧ ∀ c ∈ b.clauses, c.w.length = n

end GT.Spec

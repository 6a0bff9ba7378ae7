import Verif.Model.Setup

/-!
# What starting a training run should do
-/

namespace GT.Spec

/-- Training and evaluation data of one kind, at least one epoch and one job, a machine with a block layout
and budgets that fit the backend's type. -/
structure Configured (c : TrainSetup) (sizes : List Int) : Prop where
  data     : c.xTrain ≠ .absent ∧ c.xEval = c.xTrain
  epochs   : 1 ≤ c.nEpochs
  jobs     : 1 ≤ c.nJobs ∧ c.nJobs ≤ 2147483647
  layout   : c.tm.blockSizes = some sizes
  blocks   : sizes ≠ []
  s        : c.tm.s ≠ []
  flags    : c.tm.flags = none
  budgets  : c.tm.budgets ≠ [] ∧ ∀ b ∈ c.tm.budgets, ∀ v, b = some v → 0 ≤ v ∧ v ≤ 4294967295

/-- A trainer that has everything it needs, whatever its seed: configured, one label per example, a known
feedback type, a single-label machine. -/
structure ReadySingle (c : TrainSetup) (sizes : List Int) : Prop extends Configured c sizes where
  labels   : c.labels = 1
  feedback : c.feedback = "focused_negative_sampling" ∨ c.feedback = "uniform"
  single   : c.tm.multiLabel = false

/-- A trainer for `n` labels per example with a multi-label machine. -/
structure ReadyMulti (c : TrainSetup) (sizes : List Int) (n : Int) : Prop extends Configured c sizes where
  labels   : c.labels = n
  feedback : c.feedback = "focused_negative_sampling"
  multi    : c.tm.multiLabel = true
  seed     : 1 ≤ c.seed ∧ c.seed ≤ 2147483647 ∧ c.seed + sizes.length ≤ 4294967296

/-- Training starts: block `i` of the layout has `seed + i`, the feedback block the seed itself. -/
def StartsSeeded (c : TrainSetup) (sizes : List Int) : Prop :=
  ∃ blocks, c.start = .started blocks c.tm.nClasses (some c.seed) c.nJobs ∧
    blocks.length = sizes.length ∧
    ∀ i, i < sizes.length → ∃ b, blocks[i]? = some (b, c.seed + i) ∧ b.nClauses = sizes.getD i 0

end GT.Spec

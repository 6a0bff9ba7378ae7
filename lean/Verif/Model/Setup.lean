import Verif.Model.Config

/-!
# How training starts (green_tsetlin/trainer.py:216-290, src/executor.hpp:32-87)

From `train()` to the construction of the executor: choice of input and feedback block, construction and
initialisation of the clause blocks, saving an earlier state into them, and the executor's checks.  What the
input block does with the arrays is `Verif.Model.Input`; here the data are assumed to be accepted by it.
-/

namespace GT

/-- What `x_train` / `x_eval` is (green_tsetlin/trainer.py:104-105, 244-255). -/
inductive XKind
  | absent | dense | csr
deriving DecidableEq, Repr

/-- Everything the start of training looks at: the machine, whether it has a state, whether its class is the
sparse one, the data, the number of labels per example (1 for one-dimensional `y_train`), and the trainer's
options; `nJobs` is the resolved number of jobs (`resolveJobs`) (green_tsetlin/trainer.py:43-106, 216-290). -/
structure TrainSetup where
  tm            : TM
  hasState      : Bool
  sparseBackend : Bool
  xTrain        : XKind
  xEval         : XKind
  labels        : Int
  feedback      : String
  nJobs         : Int
  nEpochs       : Int
  seed          : Int

/-- How the start of training ends.  `crash`: the process dies (memory that was never allocated is written,
or billions of threads are requested).  `started`: the clause blocks with the seeds they were initialised
with, the number of classes and the seed of the feedback block (`none`: seeded from the operating system),
and the number of threads (green_tsetlin/trainer.py:216-290). -/
inductive StartResult
  | raises (e : PyErr)
  | noTraining
  | crash
  | started (blocks : List (BlockSetup × Int)) (fbClasses : Int) (fbSeed : Option Int) (threads : Int)
deriving DecidableEq, Repr

/-- pybind11 accepts a Python int for a C++ `int` parameter only if it fits (src/main.cpp:340-345, 380-390).
-/
def fitsInt (v : Int) : Bool := -2147483648 ≤ v ∧ v ≤ 2147483647

/-- The same for `unsigned int` / `uint32_t` (src/main.cpp:405-413). -/
def fitsUint (v : Int) : Bool := 0 ≤ v ∧ v ≤ 4294967295

/-- `_select_backend_ib` (green_tsetlin/trainer.py:242-255): the number of labels per example as the chosen
input block will report it.  `SparseInputBlock` does not override `get_num_labels_per_example`
(src/input_block.hpp:33-36, 214-307). -/
def TrainSetup.inputLabels (c : TrainSetup) : Except PyErr Int :=
  match c.xTrain, c.xEval with
  | .csr, .csr => .ok (if c.sparseBackend then 0 else c.labels)
  | .dense, .dense => .ok c.labels
  | _, _ => .error .valueError

/-- `_get_feedback_block` (green_tsetlin/trainer.py:216-235) and the constructor's parameter conversion: the
number of classes of the feedback block. -/
def TrainSetup.feedbackClasses (c : TrainSetup) : Except PyErr Int :=
  if c.feedback = "focused_negative_sampling" then
    if fitsInt c.seed then
      .ok (if c.tm.multiLabel then Int.fdiv c.tm.nClasses 2 else c.tm.nClasses)
    else .error .typeError
  else if c.feedback = "uniform" then
    if c.tm.multiLabel then .error .notImplementedError
    else if fitsInt c.seed then .ok c.tm.nClasses
    else .error .typeError
  else .error .valueError

/-- `construct_clause_blocks` with the conversion of the literal budget to `uint32_t`
(green_tsetlin/tsetlin_machine.py:308-316, src/main.cpp:405). -/
def checkBlockBudgets : List BlockSetup → Option PyErr
  | [] => none
  | b :: bs =>
    match b.budget with
    | some v => if fitsUint v then checkBlockBudgets bs else some .typeError
    | none => checkBlockBudgets bs

/-- The initialisation loop of `allocate_clause_blocks` (green_tsetlin/tsetlin_machine.py:421-424): the seed
of each block, or TypeError for a seed that is no `unsigned int`. -/
def initBlocks : List BlockSetup → Int → Except PyErr (List (BlockSetup × Int))
  | [], _ => .ok []
  | b :: bs, seed =>
    if fitsUint seed then
      match initBlocks bs (seed + 1) with
      | .ok r => .ok ((b, seed) :: r)
      | .error e => .error e
    else .error .typeError

/-- `initialize` refuses the seed 0 and allocates nothing (src/func_tm.hpp:19-20, src/func_avx2.hpp:25-26,
src/func_sparse.hpp:29-30, src/clause_block.hpp:158-163). -/
def blockInit (b : BlockSetup × Int) : Bool := b.2 ≠ 0

/-- The executor's constructor (src/executor.hpp:32-87). -/
def newExecutor (ibLabels fbClasses : Int) (blocks : List (BlockSetup × Int)) :
    Option PyErr :=
  if blocks.length < 1 then some .runtimeError
  else if ibLabels > 1 ∧ ibLabels ≠ fbClasses then some .runtimeError
  else if ibLabels > 1 ∧ blocks.any (fun b => b.1.nClasses ≠ ibLabels * 2) then some .runtimeError
  else if blocks.any (fun b => !blockInit b) then some .runtimeError
  else none

/-- `_train_inner` up to the main loop (green_tsetlin/trainer.py:258-290). -/
def TrainSetup.start (c : TrainSetup) : StartResult :=
  if c.xTrain = .absent then .raises .valueError
  else
    match c.inputLabels with
    | .error e => .raises e
    | .ok ibLabels =>
      match c.feedbackClasses with
      | .error e => .raises e
      | .ok fbClasses =>
        match c.tm.ensureBlocks c.nJobs with
        | (_, some e) => .raises e
        | (tm, none) =>
          match tm.constructClauseBlocks with
          | .error e => .raises e
          | .ok cbs =>
            match checkBlockBudgets cbs with
            | some e => .raises e
            | none =>
              if c.nEpochs < 1 then .noTraining
              else if cbs.length = 0 then .raises .valueError
              else
                match initBlocks cbs c.seed with
                | .error e => .raises e
                | .ok blocks =>
                  if c.hasState ∧ blocks.any (fun b => !blockInit b) then .crash
                  else if !fitsInt c.nJobs then .raises .typeError
                  else if c.nJobs < 0 then .crash
                  else
                    match newExecutor ibLabels fbClasses blocks with
                    | some e => .raises e
                    | none =>
                      .started blocks fbClasses (if c.seed = 0 then none else some c.seed) c.nJobs

end GT

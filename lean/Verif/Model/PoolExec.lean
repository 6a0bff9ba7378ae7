import Verif.Model.Pool
import Verif.Model.Threads

/-!
# The executor on top of its thread pool (src/executor.hpp with src/BS_thread_pool.hpp)

`Verif.Model.Threads` lets the tasks of one phase interleave and assumes the barrier; `Verif.Model.Pool` is the pool with tasks
that do nothing. Here both are put together: the owning thread runs the executor's loop, pushing tasks and waiting; the workers take
tasks from the queue and run them step by step on the shared clause blocks and votes. Every step of `Verif.Model.Pool` and every
step of a task is a step of its own, in any order.

Simplifications: those of the two files (sequentially consistent steps, the private part of a task is one step). The arguments of
`train_update` are the feedback block's fields, which the code copies into the task when it is pushed; here they are read when
the task runs (`process`, which sets them, and the tasks never overlap, `C79_owner_alone`).
-/

namespace GT.Mt

open GT.Pool

/-- Which method of a clause block a task calls: `train_example`, `train_update`, `eval_example`
(src/executor.hpp:122, 146, 180). -/
inductive Kind
  | train
  | update
  | eval
deriving DecidableEq, Repr

/-- The pool's tasks are numbers: the task for method `k` of block `i` (src/executor.hpp:122, 146, 180). -/
def taskOf (k : Kind) (i : Nat) : Nat :=
  match k with
  | .train => 3 * i
  | .update => 3 * i + 1
  | .eval => 3 * i + 2

/-- The method of a task (src/executor.hpp:122, 146, 180). -/
def kindOf (t : Nat) : Kind := if t % 3 = 0 then .train else if t % 3 = 1 then .update else .eval

/-- The block of a task (src/executor.hpp:122, 146, 180). -/
def blockOf (t : Nat) : Nat := t / 3

/-- What the executor is asked to do with one example: an iteration of `train_slice` with the label, or of `eval_predict`
(src/executor.hpp:111-153, 171-192). -/
inductive Item (E : Type)
  | train (x : E) (label : Nat)
  | eval (x : E)

/-- One line of the owning thread's loops (src/executor.hpp:111-153, 171-192): `m_feedback_block->reset()` with
`prepare_example`, a call of the pool, `m_feedback_block->process`, `output[i] = m_feedback_block->predict()`. -/
inductive Line (E : Type)
  | prepare (x : E)
  | pool (c : Cmd)
  | process (label : Nat)
  | predict

/-- `for(auto cb : blocks) m_pool.push_task(&ClauseBlock::method, cb)` (src/executor.hpp:118-128, 140-149, 176-186). -/
def pushAll {E : Type} (k : Kind) (is : List Nat) : List (Line E) := is.map fun i => .pool (.push (taskOf k i))

/-- The loop body for one example (src/executor.hpp:113-152 and 173-191): `n` blocks, `upd` the positions of
`m_trainable_clause_blocks`. -/
def Item.lines {E : Type} (n : Nat) (upd : List Nat) : Item E → List (Line E)
  | .train x y => .prepare x :: (pushAll .train (List.range n) ++ (.pool .wait :: .process y :: (pushAll .update upd ++ [.pool .wait])))
  | .eval x => .prepare x :: (pushAll .eval (List.range n) ++ [.pool .wait, .predict])

/-- The loops over several examples (src/executor.hpp:111-153, 171-192). -/
def linesOf {E : Type} (n : Nat) (upd : List Nat) (items : List (Item E)) : List (Line E) := items.flatMap (Item.lines n upd)

/-- The pool calls among the lines (src/executor.hpp:111-192). -/
def poolCmds {E : Type} : List (Line E) → List Cmd
  | [] => []
  | .pool c :: r => c :: poolCmds r
  | .prepare _ :: r => poolCmds r
  | .process _ :: r => poolCmds r
  | .predict :: r => poolCmds r

/-- Everything the threads share and where each of them is (src/executor.hpp:238-252, src/BS_thread_pool.hpp:590-643): the lines the
owning thread has still to run, the pool, the executor, the example in the input block's buffer, the worker that holds
`m_votes_lock`, how far each worker is in its task, and the predictions written so far. -/
structure State (B E : Type) where
  lines : List (Line E)
  pool  : Pool
  exec  : Exec B
  cur   : Option E
  vlock : Option Nat
  wpc   : Nat → Pc
  out   : List Nat

/-- The positions of `m_trainable_clause_blocks` (src/executor.hpp:82-83). -/
def trainableAt {B E : Type} (be : Backend B E) (bs : List B) : List Nat :=
  (List.range bs.length).filter fun i => (bs[i]?.map be.trainable).getD false

/-- The executor and its new pool before the first call (src/executor.hpp:40-87, src/BS_thread_pool.hpp:252-255). -/
def init {B E : Type} (be : Backend B E) (req hw : Nat) (e : Exec B) (items : List (Item E)) : State B E :=
  let ls := linesOf e.blocks.length (trainableAt be e.blocks) items
  ⟨ls, Pool.init req hw (poolCmds ls), e, none, none, fun _ => .start, []⟩

/-- A step of the owning thread (src/executor.hpp:111-192): the next line, or a step inside the pool call it is in. -/
def State.mainStep {B E : Type} (smp : List Rat → Rat → Nat) (s : State B E) (k : Nat) : Option (State B E) :=
  if s.pool.mpc = .ready then
    match s.lines with
    | [] => none
    | .pool _ :: r => (s.pool.mainStep k).map fun p => { s with lines := r, pool := p }
    | .prepare x :: r => some { s with lines := r, cur := some x, exec := { s.exec with fb := s.exec.fb.reset } }
    | .process y :: r => some { s with lines := r, exec := { s.exec with fb := s.exec.fb.process smp y } }
    | .predict :: r => some { s with lines := r, out := s.out ++ [s.exec.fb.predict] }
  else (s.pool.mainStep k).map fun p => { s with pool := p }

/-- `train_example` or `eval_example` up to the counted votes (src/clause_block.hpp:65-77). -/
def compute {B E : Type} (be : Backend B E) (k : Kind) (b : B) (x : E) : B :=
  match k with
  | .eval => be.evalExample b x
  | _ => be.trainExample b x

/-- Worker `i` moves to `pc` in its task (src/clause_block.hpp:65-86). -/
def State.goto {B E : Type} (s : State B E) (i : Nat) (pc : Pc) : State B E :=
  { s with wpc := fun j => if j = i then pc else s.wpc j }

/-- A block is overwritten by its task (src/clause_block.hpp:65-86). -/
def State.setBlock {B E : Type} (s : State B E) (j : Nat) (b : B) : State B E :=
  { s with exec := { s.exec with blocks := s.exec.blocks.set j b } }

/-- A step of worker `i` inside its task on block `j` (src/clause_block.hpp:65-86, 187-212, src/feedback_block.hpp:181-191); when the
task has returned, the worker goes on in the pool. -/
def State.taskStep {B E : Type} (be : Backend B E) (s : State B E) (i : Nat) (k : Kind) (j : Nat) : Option (State B E) :=
  match s.exec.blocks[j]?, s.cur with
  | some b, some x =>
    match s.wpc i with
    | .start =>
      if k = .update then some ((s.setBlock j (be.trainUpdate b x s.exec.fb.feedback)).goto i .done)
      else some ((s.setBlock j (compute be k b x)).goto i .computed)
    | .computed =>
      match s.vlock with
      | none => some ({ s with vlock := some i }.goto i (.adding 0))
      | some _ => none
    | .adding c =>
      if c < s.exec.fb.nClasses then some (s.goto i (.loaded c (s.exec.fb.votes.getD c 0)))
      else some ({ s with vlock := none }.goto i .done)
    | .loaded c v =>
      some ({ s with exec := { s.exec with fb := { s.exec.fb with votes := s.exec.fb.votes.set c (wrap16 (v + (be.votes b).getD c 0)) } } }.goto i
        (.adding (c + 1)))
    | .done => (s.pool.workerStep i).map fun p => { s with pool := p }.goto i .start
  | _, _ => none

/-- A step of worker `i` (src/BS_thread_pool.hpp:568-587): in its task if it runs one, else in the pool. -/
def State.workerStep {B E : Type} (be : Backend B E) (s : State B E) (i : Nat) : Option (State B E) :=
  match s.pool.workers[i]? with
  | some (.run t) => s.taskStep be i (kindOf t) (blockOf t)
  | _ => (s.pool.workerStep i).map fun p => { s with pool := p }

/-- One step of the whole program (src/executor.hpp:111-192, src/BS_thread_pool.hpp:425-587). -/
def State.step {B E : Type} (be : Backend B E) (smp : List Rat → Rat → Nat) (s : State B E) : Act → Option (State B E)
  | .main k => s.mainStep smp k
  | .worker i => s.workerStep be i
  | .spuriousMain => (s.pool.step .spuriousMain).map fun p => { s with pool := p }
  | .spuriousWorker i => (s.pool.step (.spuriousWorker i)).map fun p => { s with pool := p }

/-- A schedule; `none` if a chosen thread could not move (src/executor.hpp:111-192). -/
def State.run {B E : Type} (be : Backend B E) (smp : List Rat → Rat → Nat) : List Act → State B E → Option (State B E)
  | [], s => some s
  | a :: as, s =>
    match s.step be smp a with
    | some s => State.run be smp as s
    | none => none

end GT.Mt

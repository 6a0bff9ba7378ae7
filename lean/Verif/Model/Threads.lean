import Verif.Model.Executor

/-!
# The executor with a thread pool (src/executor.hpp with `enable_multithread`)

While one example is processed, the pool runs one task per clause block: `train_example` / `eval_example`
(compute, then `register_votes` under the feedback lock, src/clause_block.hpp:65-77,187-193,
src/feedback_block.hpp:181-191) or `train_update`.  Tasks are interleaved arbitrarily.  A task's private part
(everything that only touches its own block and reads the example buffer) is one step; taking the lock,
reading `m_votes[i]`, writing `m_votes[i]` and releasing the lock are separate steps.  `wait_for_tasks`
returns when all tasks are done (see `Verif.Model.Pool`).  How many worker threads there are only restricts
which interleavings occur, so all of them are covered.
-/

namespace GT

/-- Where a task is (src/clause_block.hpp:65-77, src/feedback_block.hpp:181-191): not started; block
computed, lock not yet taken; lock held and classes below `i` added; `m_votes[i]` loaded into a register;
finished. -/
inductive Pc
  | start
  | computed
  | adding (i : Nat)
  | loaded (i : Nat) (v : Int)
  | done
deriving DecidableEq, Repr

/-- One task: the block it works on and where it is (src/executor.hpp:120-126). -/
structure Task (B : Type) where
  block : B
  pc    : Pc

/-- Shared state while the pool runs: `m_votes`, the owner of `m_votes_lock`, and the tasks
(src/feedback_block.hpp:181-191, src/executor.hpp:113-133). -/
structure Phase (B : Type) where
  votes : List Int
  lock  : Option Nat
  tasks : List (Task B)

/-- One step of task `t` (`none`: it cannot move now). `f` is the block computation, `nClasses` the bound of
the `register_votes` loop (src/clause_block.hpp:65-77, src/feedback_block.hpp:181-191). -/
def Phase.step {B : Type} (f : B → B) (bv : B → List Int) (nClasses : Nat) (p : Phase B) (t : Nat) :
    Option (Phase B) :=
  match p.tasks[t]? with
  | none => none
  | some k =>
    match k.pc with
    | .start => some { p with tasks := p.tasks.set t ⟨f k.block, .computed⟩ }
    | .computed =>
      match p.lock with
      | none => some { p with lock := some t, tasks := p.tasks.set t { k with pc := .adding 0 } }
      | some _ => none
    | .adding i =>
      if i < nClasses then
        some { p with tasks := p.tasks.set t { k with pc := .loaded i (p.votes.getD i 0) } }
      else some { p with lock := none, tasks := p.tasks.set t { k with pc := .done } }
    | .loaded i v =>
      some { p with
        votes := p.votes.set i (wrap16 (v + (bv k.block).getD i 0))
        tasks := p.tasks.set t { k with pc := .adding (i + 1) } }
    | .done => none

/-- A schedule: the tasks that move, one after the other; `none` if a chosen task could not move
(src/executor.hpp:118-133). -/
def Phase.run {B : Type} (f : B → B) (bv : B → List Int) (nClasses : Nat) : List Nat → Phase B →
    Option (Phase B)
  | [], p => some p
  | t :: ts, p =>
    match p.step f bv nClasses t with
    | some p => Phase.run f bv nClasses ts p
    | none => none

/-- All tasks pushed, none started (src/executor.hpp:120-126). -/
def Phase.init {B : Type} (votes : List Int) (blocks : List B) : Phase B :=
  { votes := votes, lock := none, tasks := blocks.map fun b => ⟨b, .start⟩ }

/-- `wait_for_tasks` may return (src/executor.hpp:132-133). -/
def Phase.finished {B : Type} (p : Phase B) : Prop := ∀ k ∈ p.tasks, k.pc = .done

/-- The update tasks touch only their own block: state of one update phase is the list of blocks with a flag
"already updated" (src/executor.hpp:142-151). -/
def updStep {B : Type} (f : B → B) (ts : List (B × Bool)) (t : Nat) : Option (List (B × Bool)) :=
  match ts[t]? with
  | some (b, false) => some (ts.set t (f b, true))
  | _ => none

/-- A schedule of update tasks (src/executor.hpp:142-151). -/
def updRun {B : Type} (f : B → B) : List Nat → List (B × Bool) → Option (List (B × Bool))
  | [], ts => some ts
  | t :: sch, ts =>
    match updStep f ts t with
    | some ts => updRun f sch ts
    | none => none

/-- One example of multi-threaded training (src/executor.hpp:113-152), as a relation: some schedule of the
example tasks runs to the end, `process` runs alone after the barrier, and some schedule of the update tasks
(only trainable blocks get one) runs to the end. -/
def TrainOneMT {B E : Type} (be : Backend B E) (smp : List Rat → Rat → Nat) (e : Exec B) (x : E)
    (label : Nat) (e' : Exec B) : Prop :=
  ∃ (sch : List Nat) (p : Phase B) (sch2 : List Nat) (ts : List (B × Bool)),
    Phase.run (be.trainExample · x) be.votes e.fb.nClasses sch
      (Phase.init e.fb.reset.votes e.blocks) = some p ∧ p.finished ∧
    let fb := ({ e.fb with votes := p.votes } : FB).process smp label
    updRun (be.trainUpdate · x fb.feedback) sch2
      (p.tasks.map fun k => (k.block, !be.trainable k.block)) = some ts ∧ (∀ t ∈ ts, t.2 = true) ∧
    e' = { e with fb := fb, blocks := ts.map (·.1) }

/-- Multi-threaded training over a sequence of prepared examples (src/executor.hpp:111-153). -/
inductive TrainMT {B E : Type} (be : Backend B E) (smp : List Rat → Rat → Nat) :
    List (E × Nat) → Exec B → Exec B → Prop
  | nil (e : Exec B) : TrainMT be smp [] e e
  | cons {x : E} {label : Nat} {rest : List (E × Nat)} {e e' e'' : Exec B} :
      TrainOneMT be smp e x label e' → TrainMT be smp rest e' e'' →
      TrainMT be smp ((x, label) :: rest) e e''

/-- One example of multi-threaded evaluation (src/executor.hpp:170-191). -/
def EvalOneMT {B E : Type} (be : Backend B E) (e : Exec B) (x : E) (e' : Exec B) (k : Nat) : Prop :=
  ∃ (sch : List Nat) (p : Phase B),
    Phase.run (be.evalExample · x) be.votes e.fb.nClasses sch
      (Phase.init e.fb.reset.votes e.blocks) = some p ∧ p.finished ∧
    e' = { e with fb := { e.fb with votes := p.votes }, blocks := p.tasks.map (·.block) } ∧
    k = e'.fb.predict

/-- Multi-threaded evaluation of a batch (src/executor.hpp:165-195). -/
inductive EvalMT {B E : Type} (be : Backend B E) : List E → Exec B → Exec B → List Nat → Prop
  | nil (e : Exec B) : EvalMT be [] e e []
  | cons {x : E} {rest : List E} {e e' e'' : Exec B} {k : Nat} {ks : List Nat} :
      EvalOneMT be e x e' k → EvalMT be rest e' e'' ks → EvalMT be (x :: rest) e e'' (k :: ks)

end GT

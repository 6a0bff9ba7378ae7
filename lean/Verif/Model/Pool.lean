import Verif.Model.Basic

/-!
# The thread pool (src/BS_thread_pool.hpp)

One thread - the one that owns the executor - calls `push_task` and `wait_for_tasks` and finally destroys the
pool; `n` threads run `worker`.  Every access to an atomic, every lock acquisition, every blocking and every
notification is a step of its own; work done between two such points while the mutex is held is one step.
A schedule is an arbitrary interleaving.  `notify_one` wakes an arbitrary waiter, and a waiter may wake up
without any notification.

Simplifications: `tasks_total` is an `Int` here (a `size_t` in the code; it may pass through 2^64 - 1, because
a worker can finish a task before the pushing thread has counted it); `paused` is left out, no code in the
repository ever sets it; a task is a number, and running it is one step (what the tasks do to each other is
`Verif.Model.Threads`).
-/

namespace GT.Pool

/-- What the owning thread asks of the pool: `push_task` (src/BS_thread_pool.hpp:425-434), `wait_for_tasks`
(508-514), `destroy_threads` (536-544).  `~thread_pool` (260-264) is `wait` followed by `stop`. -/
inductive Cmd
  | push (task : Nat)
  | wait
  | stop
deriving DecidableEq, Repr

/-- Where a worker is (src/BS_thread_pool.hpp:568-587). -/
inductive WPc
  /-- before `while (running)` -/
  | top
  /-- wants `tasks_mutex` to evaluate the predicate (constructing the lock, or woken up inside `wait`) -/
  | wantLock
  /-- holds the mutex, evaluates `!tasks.empty() || !running` -/
  | check
  /-- holds the mutex, the predicate was false, about to block -/
  | block
  /-- blocked in `task_available_cv.wait`, mutex released -/
  | asleep
  /-- holds the mutex, the predicate was true -/
  | grab
  /-- mutex released, runs the task -/
  | run (task : Nat)
  /-- the task has returned, wants the mutex -/
  | finish
  /-- holds the mutex, about to do `--tasks_total` -/
  | decr
  /-- holds the mutex, about to read `waiting` and notify -/
  | notify
  /-- left the loop -/
  | exited
deriving DecidableEq, Repr

/-- Where the owning thread is (src/BS_thread_pool.hpp:425-434, 508-514, 536-544). -/
inductive MPc
  /-- between two calls -/
  | ready
  /-- task pushed, before `++tasks_total` -/
  | counting
  /-- before `task_available_cv.notify_one()` -/
  | notifying
  /-- in `wait_for_tasks`, wants the mutex -/
  | wantLock
  /-- holds the mutex, evaluates `tasks_total == 0` -/
  | check
  /-- holds the mutex, the predicate was false, about to block -/
  | block
  /-- blocked in `task_done_cv.wait` -/
  | asleep
  /-- holds the mutex, the predicate was true -/
  | leave
  /-- in `destroy_threads`, `running` is false, before `notify_all` -/
  | notifyAll
  /-- joins the threads -/
  | joining
deriving DecidableEq, Repr

/-- Who holds `tasks_mutex` (src/BS_thread_pool.hpp:626). -/
inductive Owner
  | main
  | worker (i : Nat)
deriving DecidableEq, Repr

/-- The pool and its threads (src/BS_thread_pool.hpp:590-643).  `prog` is what the owning thread has still to
do; `pushed` and `finished` record the tasks pushed and the task runs completed so far. -/
structure Pool where
  prog     : List Cmd
  mpc      : MPc
  lock     : Option Owner
  queue    : List Nat
  total    : Int
  waiting  : Bool
  running  : Bool
  workers  : List WPc
  pushed   : List Nat
  finished : List Nat
deriving DecidableEq, Repr

/-- `determine_thread_count` (src/BS_thread_pool.hpp:552-563); `hw` is
`std::thread::hardware_concurrency()`. -/
def threadCount (req hw : Nat) : Nat :=
  if req > 0 then req else if hw > 0 then hw else 1

/-- A new pool (src/BS_thread_pool.hpp:252-255, 524-531). -/
def Pool.init (req hw : Nat) (prog : List Cmd) : Pool :=
  { prog := prog, mpc := .ready, lock := none, queue := [], total := 0, waiting := false, running := true,
    workers := List.replicate (threadCount req hw) .top, pushed := [], finished := [] }

/-- Who moves: the owning thread (`k` is the waiter that a `notify_one` picks), worker `i`, or a spurious
wake-up of either (the threads of src/BS_thread_pool.hpp:524-587). -/
inductive Act
  | main (k : Nat)
  | worker (i : Nat)
  | spuriousMain
  | spuriousWorker (i : Nat)
deriving DecidableEq, Repr

/-- Wake-ups that nobody asked for (allowed by `std::condition_variable`, src/BS_thread_pool.hpp:509, 571). -/
def Act.spurious : Act → Bool
  | .spuriousMain | .spuriousWorker _ => true
  | _ => false

/-- One step of the owning thread (src/BS_thread_pool.hpp:425-434, 508-514, 536-544). -/
def Pool.mainStep (p : Pool) (k : Nat) : Option Pool :=
  match p.mpc with
  | .ready =>
    match p.prog with
    | [] => none
    | .push t :: r =>
      if p.lock = none then
        some { p with prog := r, queue := p.queue ++ [t], pushed := p.pushed ++ [t], mpc := .counting }
      else none
    | .wait :: r => some { p with prog := r, waiting := true, mpc := .wantLock }
    | .stop :: r => some { p with prog := r, running := false, mpc := .notifyAll }
  | .counting => some { p with total := p.total + 1, mpc := .notifying }
  | .notifying =>
    if .asleep ∈ p.workers then
      if p.workers[k]? = some .asleep then
        some { p with workers := p.workers.set k .wantLock, mpc := .ready }
      else none
    else some { p with mpc := .ready }
  | .wantLock => if p.lock = none then some { p with lock := some .main, mpc := .check } else none
  | .check => if p.total = 0 then some { p with mpc := .leave } else some { p with mpc := .block }
  | .block => some { p with lock := none, mpc := .asleep }
  | .asleep => none
  | .leave => some { p with waiting := false, lock := none, mpc := .ready }
  | .notifyAll =>
    some { p with
      workers := p.workers.map fun w => if w = .asleep then .wantLock else w
      mpc := .joining }
  | .joining => if ∀ w ∈ p.workers, w = .exited then some { p with mpc := .ready } else none

/-- One step of worker `i` (src/BS_thread_pool.hpp:568-587). -/
def Pool.workerStep (p : Pool) (i : Nat) : Option Pool :=
  match p.workers[i]? with
  | none => none
  | some .top =>
    some { p with workers := p.workers.set i (if p.running then .wantLock else .exited) }
  | some .wantLock =>
    if p.lock = none then
      some { p with lock := some (.worker i), workers := p.workers.set i .check }
    else none
  | some .check =>
    some { p with
      workers := p.workers.set i (if p.queue ≠ [] ∨ p.running = false then .grab else .block) }
  | some .block => some { p with lock := none, workers := p.workers.set i .asleep }
  | some .asleep => none
  | some .grab =>
    if p.running then
      match p.queue with
      | [] => none
      | t :: q => some { p with queue := q, lock := none, workers := p.workers.set i (.run t) }
    else some { p with lock := none, workers := p.workers.set i .top }
  | some (.run t) =>
    some { p with finished := p.finished ++ [t], workers := p.workers.set i .finish }
  | some .finish =>
    if p.lock = none then
      some { p with lock := some (.worker i), workers := p.workers.set i .decr }
    else none
  | some .decr => some { p with total := p.total - 1, workers := p.workers.set i .notify }
  | some .notify =>
    some { p with
      mpc := if p.waiting = true ∧ p.mpc = .asleep then .wantLock else p.mpc
      lock := none
      workers := p.workers.set i .top }
  | some .exited => none

/-- One step of the whole pool (src/BS_thread_pool.hpp:425-587). -/
def Pool.step (p : Pool) : Act → Option Pool
  | .main k => p.mainStep k
  | .worker i => p.workerStep i
  | .spuriousMain => if p.mpc = .asleep then some { p with mpc := .wantLock } else none
  | .spuriousWorker i =>
    if p.workers[i]? = some .asleep then some { p with workers := p.workers.set i .wantLock } else none

/-- A schedule; `none` if a chosen thread could not move (src/BS_thread_pool.hpp:425-587). -/
def Pool.run : List Act → Pool → Option Pool
  | [], p => some p
  | a :: as, p =>
    match p.step a with
    | some p => Pool.run as p
    | none => none

end GT.Pool

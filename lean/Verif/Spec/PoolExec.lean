import Verif.Model.PoolExec
import Verif.Spec.Executor

/-! # What a run of the executor with threads should amount to -/

namespace GT.Spec

open GT.Pool GT.Mt

/-- The same work done by one thread: the executor afterwards and the predictions, in order. -/
def oneByOne {B E : Type} (be : Backend B E) (smp : List Rat → Rat → Nat) : List (Item E) → Exec B → Exec B × List Nat
  | [], e => (e, [])
  | .train x y :: r, e => oneByOne be smp r (e.trainOne be smp x y)
  | .eval x :: r, e =>
    let p := e.evalOne be x
    let q := oneByOne be smp r p.1
    (q.1, p.2 :: q.2)

/-- The owning thread has run all its lines and returned from its last call. -/
def MtReturned {B E : Type} (s : State B E) : Prop := s.lines = [] ∧ s.pool.mpc = .ready

/-- No thread can take a step of its own. -/
def MtStuck {B E : Type} (be : Backend B E) (smp : List Rat → Rat → Nat) (s : State B E) : Prop :=
  ∀ a : Act, a.spurious = false → s.step be smp a = none

/-- Training and evaluating do not change whether a block is trainable. -/
def SteadyFlags {B E : Type} (be : Backend B E) : Prop :=
  ∀ b x fb, be.trainable (be.trainExample b x) = be.trainable b ∧ be.trainable (be.evalExample b x) = be.trainable b ∧
    be.trainable (be.trainUpdate b x fb) = be.trainable b

/-- Worker `i` is in the middle of a task on block `j`. -/
def WorksOn {B E : Type} (s : State B E) (i j : Nat) : Prop :=
  ∃ t, s.pool.workers[i]? = some (.run t) ∧ blockOf t = j

/-- The owning thread is about to touch the blocks' votes, the feedback block or the example buffer itself. -/
def OwnerActs {B E : Type} (s : State B E) : Prop :=
  s.pool.mpc = .ready ∧ ∃ l r, s.lines = l :: r ∧ ∀ c, l ≠ .pool c

/-- The memory the threads share, apart from the pool's own: a clause block, the feedback block, the input block's buffer. -/
inductive Place
  | block (j : Nat)
  | feedback
  | example
deriving DecidableEq, Repr

/-- What the next step of a thread (`none`: the owning one) touches; `true` for writing. Taking and releasing the votes lock touches
nothing. -/
def touches {B E : Type} (s : State B E) : Option Nat → List (Place × Bool)
  | none =>
    if s.pool.mpc = .ready then
      match s.lines with
      | .prepare _ :: _ => [(.feedback, true), (.example, true)]
      | .process _ :: _ => [(.feedback, true)]
      | .predict :: _ => [(.feedback, false)]
      | _ => []
    else []
  | some i =>
    match s.pool.workers[i]? with
    | some (.run t) =>
      match s.wpc i with
      | .start => if kindOf t = .update then [(.block (blockOf t), true), (.example, false), (.feedback, false)]
          else [(.block (blockOf t), true), (.example, false)]
      | .computed => []
      | .adding _ => [(.feedback, false)]
      | .loaded _ _ => [(.block (blockOf t), false), (.feedback, true)]
      | .done => []
    | _ => []

/-- A data race: two different threads are about to touch the same memory, at least one of them writing. -/
def Race {B E : Type} (s : State B E) : Prop :=
  ∃ (a b : Option Nat) (p : Place) (w : Bool), a ≠ b ∧ (p, true) ∈ touches s a ∧ (p, w) ∈ touches s b

end GT.Spec

import Verif.Model.Pool

/-!
# What the thread pool promises
-/

namespace GT.Spec

open GT.Pool

/-- The tasks a list of calls pushes. -/
def tasksOf : List Cmd → List Nat
  | [] => []
  | .push t :: r => t :: tasksOf r
  | _ :: r => tasksOf r

/-- Number of `push_task` calls. -/
def pushes (prog : List Cmd) : Nat := (tasksOf prog).length

/-- Number of `wait_for_tasks` calls. -/
def waits (prog : List Cmd) : Nat := prog.count .wait

/-- No thread can take a step of its own (only a spurious wake-up could still change anything). -/
def Stuck (p : Pool) : Prop := ∀ a : Act, a.spurious = false → p.step a = none

/-- The owning thread has returned from its last call. -/
def AllCallsReturned (p : Pool) : Prop := p.prog = [] ∧ p.mpc = .ready

end GT.Spec

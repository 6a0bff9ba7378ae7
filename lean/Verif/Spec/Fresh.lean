import Verif.Model.Conv
import Verif.Model.Sparse
import Verif.Spec.Neon

/-!
# What a user can see of a block, for C75

A block's literal counters (and, in a convolutional block, its chosen patches) are scratch memory: no function returns them. Everything
else is visible through the state getters, the votes and the predictions.
-/

namespace GT
namespace Spec

/-- The visible part of a clause. -/
def shown (c : Clause) : Clause := { c with cnt := 0 }

/-- The visible part of a sparse clause. -/
def shownS (c : SClause) : SClause := { c with cnt := 0 }

/-- The visible part of a clause of a vectorised block. -/
def shownV (c : VClause) : VClause := { c with cnt := 0 }

/-- What an executor does with one example: train on it with some feedback, or evaluate it. -/
inductive DStep
  | train (x : List Nat) (fb : Feedback)
  | eval (x : List Nat)

/-- The calls that make up a step (src/executor.hpp:118-148, 160-195). -/
def DStep.ops : DStep → List BlockOp
  | .train x fb => [.trainExample x, .trainUpdate x fb]
  | .eval x => [.evalExample x]

/-- A history of steps on a NEON block; `none`: the process crashed. -/
def neonSteps (b : NBlock) : List Step → Option NBlock
  | [] => some b
  | s :: ss => (neonStep b s).bind fun b => neonSteps b ss

end Spec
end GT

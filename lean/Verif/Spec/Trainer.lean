import Verif.Model.Trainer
import Verif.Spec.Executor

/-! # What the training properties mean -/

namespace GT.Spec

variable {S St : Type}

/-- The state right after training epoch `k` (from 0), and the state after evaluating it, when every epoch trains
on the training data and evaluates on the evaluation data. `afterEval env s k` is the state when epoch `k` begins. -/
def afterEval (env : Env S St) (s : S) : Nat → S
  | 0 => s
  | k + 1 => (env.eval (env.load .eval (env.train (env.load .train (afterEval env s k))).1)).1

/-- The state right after training epoch `k`. -/
def afterTrain (env : Env S St) (s : S) (k : Nat) : S := (env.train (env.load .train (afterEval env s k))).1

/-- The training accuracy of epoch `k`. -/
def accOf (env : Env S St) (s : S) (k : Nat) : Rat := (env.train (env.load .train (afterEval env s k))).2

/-- The evaluation score of epoch `k`. -/
def scoreOf (env : Env S St) (s : S) (k : Nat) : Rat := (env.eval (env.load .eval (afterTrain env s k))).2

/-- Setting data and evaluating do not change what has been learned. -/
def ReadOnly (env : Env S St) : Prop :=
  (∀ d s, env.snap (env.load d s) = env.snap s) ∧ ∀ s, env.snap (env.eval s).1 = env.snap s

/-- `n` epochs ran: all that were asked for, unless an evaluation reached the early-exit score, and then it was the
first. -/
def RanEpochs (asked : Int) (earlyAcc : Rat) (score : Nat → Rat) (n : Nat) (early : Bool) : Prop :=
  (early = false ∧ (n : Int) = asked ∧ ∀ k, k < n → score k < earlyAcc) ∨
  (early = true ∧ 1 ≤ n ∧ (n : Int) ≤ asked ∧ earlyAcc ≤ score (n - 1) ∧ ∀ k, k < n - 1 → score k < earlyAcc)

/-- `k` is the first of `n` epochs with the best score. -/
def FirstBest (score : Nat → Rat) (n k : Nat) : Prop :=
  k < n ∧ (∀ j, j < n → score j ≤ score k) ∧ ∀ j, j < k → score j < score k

/-- What `StratifiedKFold` promises: the evaluation parts together are all samples, each once, and the training part
of a fold is all other samples. -/
structure IsSplit (n : Nat) (split : List (List Nat × List Nat)) : Prop where
  evalParts : (split.flatMap (·.2)).Perm (List.range n)
  complement : ∀ f ∈ split, (f.1 ++ f.2).Perm (List.range n)

end GT.Spec

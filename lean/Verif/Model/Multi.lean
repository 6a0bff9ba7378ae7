import Verif.Model.Feedback
import Verif.Model.Trainer
import Verif.Model.Inference

/-!
# Multi-label mode (src/feedback_block.hpp:234-305, src/executor.hpp:198-230, green_tsetlin/trainer.py:316-349)

A machine for `n` labels has `2n` outputs: output `i` stands for "label i is on", output `n + i` for "label i
is off".
-/

namespace GT

/-- The constructor of `FeedbackBlockMultiLabel` (src/feedback_block.hpp:237-244). The base class is given the
number of labels, then the vote vector is made twice as long. -/
def FB.newMulti (nLabels : Nat) (threshold : Rat) (rng : Rng) : FB :=
  { FB.new nLabels threshold rng with votes := List.replicate (nLabels * 2) 0 }

/-- The votes after `reset` and one `register_votes` per clause block (src/executor.hpp:115-136,
src/feedback_block.hpp:181-203); a multi-label block hands over a vector of `2n` votes. -/
def FB.tally (fb : FB) (blockVotes : List (List Int)) : FB := blockVotes.foldl FB.register fb.reset

/-- The accuracy loop of `process` (src/feedback_block.hpp:272-287): (correct, total) after the labels from
`k` on. -/
def multiAccLoop (votes : List Int) (n : Nat) : List Nat → Nat → Nat × Nat → Nat × Nat
  | [], _, r => r
  | l :: ls, k, r =>
    let right : Bool :=
      if l = 1 then votes.getD k 0 ≥ votes.getD (k + n) 0 else votes.getD k 0 < votes.getD (k + n) 0
    multiAccLoop votes n ls (k + 1) (if right then r.1 + 1 else r.1, r.2 + 1)

/-- `FeedbackBlockMultiLabel::process` (src/feedback_block.hpp:247-289). `draws` is the stream of
`uniform_int_distribution(0, n-1)`, `k` the position in it: one draw for the positive label, then draws for the
negative one until it differs (`none`: not within `fuel` draws). -/
def FB.processMulti (draws : Nat → Nat) (fuel k : Nat) (fb : FB) (labels : List Nat) : Option FB :=
  let p := draws k
  (rejectLoop draws p fuel (k + 1)).map fun r =>
    let pos := if labels.getD p 0 = 0 then p + fb.nClasses else p
    let neg := if labels.getD r.1 0 = 1 then r.1 + fb.nClasses else r.1
    let acc := multiAccLoop fb.votes fb.nClasses (labels.take fb.nClasses) 0 (fb.correct, fb.total)
    { fb with
      posClass := pos
      negClass := neg
      posProb := (fb.threshold - clampT fb.threshold (fb.votes.getD pos 0)) / (2 * fb.threshold)
      negProb := (fb.threshold + clampT fb.threshold (fb.votes.getD neg 0)) / (2 * fb.threshold)
      correct := acc.1
      total := acc.2 }

/-- `FeedbackBlockMultiLabel::predict_multi` (src/feedback_block.hpp:291-304): computes the predictions in a
local vector and drops it; the output memory is returned as it was. -/
def FB.predictMulti (fb : FB) (out : List Nat) : List Nat × Bool :=
  let _preds := (List.range fb.nClasses).map fun i =>
    if fb.votes.getD i 0 ≥ fb.votes.getD (i + fb.nClasses) 0 then 1 else 0
  (out, false)

/-- A call that may end the whole process (`exit` at src/executor.hpp:200-202). -/
inductive Proc (α : Type)
  | exited (code : Nat)
  | returned (a : α)
deriving DecidableEq, Repr

/-- `eval_predict_multi` (src/executor.hpp:198-230): prints a message and calls `exit(1)` before anything
else. -/
def evalPredictMulti {S : Type} (_s : S) : Proc (S × List (List Nat)) := .exited 1

/-- `_train_inner` for a machine that may be multi-label (green_tsetlin/trainer.py:258-367): the same loop as
`Trainer.trainInner`, with `eval_predict_multi` in place of `eval_predict` in the first epoch of a multi-label
run; `env.train` is the multi-label training epoch. Only what the first epoch does before the evaluation can
happen. -/
def Trainer.trainProc {S St : Type} (multi : Bool) (env : Env S St) (t : Trainer St) (tmState : Option St) :
    Proc (Trainer St × Option St) :=
  if t.nEpochs < 1 then .returned (t, tmState)
  else if multi then
    let tr := env.train (env.load .train (env.start tmState))
    match evalPredictMulti (env.load .eval tr.1) with
    | .exited c => .exited c
    | .returned _ => .returned (t.trainInner env tmState)
  else .returned (t.trainInner env tmState)

end GT

import Verif.Model.Basic
import Verif.Model.Dense

/-!
# Feedback blocks (src/feedback_block.hpp)

Votes are 16-bit; thresholds, probabilities and the train counters are doubles in the code, here exact
rationals and natural numbers (the counters only ever get `+= 1.0`).
-/

namespace GT

/-- `FeedbackBlock`'s fields (src/feedback_block.hpp:205-228). -/
structure FB where
  nClasses  : Nat
  threshold : Rat
  votes     : List Int
  updProb   : List Rat
  posClass  : Nat
  negClass  : Nat
  posProb   : Rat
  negProb   : Rat
  correct   : Nat
  total     : Nat
  rng       : Rng

/-- The constructor (src/feedback_block.hpp:22-33). `rng` is the seeded generator. -/
def FB.new (nClasses : Nat) (threshold : Rat) (rng : Rng) : FB :=
  { nClasses := nClasses, threshold := threshold, votes := List.replicate nClasses 0,
    updProb := List.replicate nClasses 0, posClass := 0, negClass := 0, posProb := 0, negProb := 0,
    correct := 0, total := 0, rng := rng }

/-- `reset` (src/feedback_block.hpp:199-203). -/
def FB.reset (fb : FB) : FB := { fb with votes := List.replicate fb.votes.length 0 }

/-- `reset_train_predict_counter` (src/feedback_block.hpp:58-62). -/
def FB.resetCounter (fb : FB) : FB := { fb with correct := 0, total := 0 }

/-- `get_train_accuracy` (src/feedback_block.hpp:64-70). -/
def FB.accuracy (fb : FB) : Rat := if fb.total > 0 then (fb.correct : Rat) / fb.total else 0

/-- `register_votes` (src/feedback_block.hpp:181-191), executed under the lock: class by class
`m_votes[i] += votes[i]` for `i < m_num_classes`, stored in 16 bits. The rest of `m_votes` (multi-label:
the OFF half) is untouched. -/
def FB.register (fb : FB) (v : List Int) : FB :=
  { fb with votes := (fb.votes.take fb.nClasses).zipWith (fun a b => wrap16 (a + b)) v
      ++ fb.votes.drop fb.nClasses }

/-- `std::clamp(static_cast<double>(votes), -m_threshold, m_threshold)` (src/feedback_block.hpp:93). -/
def clampT (T : Rat) (v : Int) : Rat := max (-T) (min T (v : Rat))

/-- The running-maximum loop of `predict` and `process` (src/feedback_block.hpp:84-91, 131-138): from
class `k` on, with the best class and its votes so far; strict comparison. -/
def argmaxLoop : List Int → Nat → Nat → Int → Nat
  | [], _, bk, _ => bk
  | v :: vs, k, bk, bv => if v > bv then argmaxLoop vs (k + 1) k v else argmaxLoop vs (k + 1) bk bv

/-- `predict` (src/feedback_block.hpp:125-141). -/
def FB.predict (fb : FB) : Nat := argmaxLoop fb.votes.tail 1 0 (fb.votes.headD 0)

/-- The probability given to class `k` before sampling the negative class
(src/feedback_block.hpp:93-94). -/
def negWeight (T : Rat) (v : Int) : Rat := (T + clampT T v) / (2 * T) + 1 / 10 ^ 16

/-- `FeedbackBlock::process` (src/feedback_block.hpp:72-123). `smp ws u` is the class that
`std::discrete_distribution` with weights `ws` returns for the uniform draw `u`. -/
def FB.process (smp : List Rat → Rat → Nat) (fb : FB) (label : Nat) : FB :=
  let predicted := argmaxLoop fb.votes 0 0 (fb.votes.headD 0)
  let ws := (fb.votes.map (negWeight fb.threshold)).set label 0
  let u := fb.rng.next
  let neg := smp ws u.1
  { fb with
    posClass := label
    negClass := neg
    total := fb.total + 1
    correct := if predicted = label then fb.correct + 1 else fb.correct
    updProb := ws
    negProb := ws.getD neg 0
    posProb := (fb.threshold - clampT fb.threshold (fb.votes.getD label 0)) / (2 * fb.threshold)
    rng := u.2 }

/-- The libstdc++ algorithm of `std::discrete_distribution`: the first class whose cumulated weight
reaches `u` times the total (external code, the standard library used by src/feedback_block.hpp:105-106). -/
def discreteLoop : List Rat → Rat → Nat → Nat
  | [], _, k => k - 1
  | w :: ws, t, k => if t ≤ w then k else discreteLoop ws (t - w) (k + 1)

/-- Sampling with exact arithmetic (src/feedback_block.hpp:105-106). -/
def discreteSample (ws : List Rat) (u : Rat) : Nat := discreteLoop ws (u * ws.sum) 0

/-- The rejection loop of `FeedbackBlockUniform::process` (src/feedback_block.hpp:324-327): draws of
`uniform_int_distribution(0, n-1)` from position `k` on, until one differs from the positive class. The C++
loop is unbounded; `none` means that `fuel` draws were not enough. -/
def rejectLoop (draws : Nat → Nat) (pos : Nat) : Nat → Nat → Option (Nat × Nat)
  | 0, _ => none
  | fuel + 1, k => if draws k = pos then rejectLoop draws pos fuel (k + 1) else some (draws k, k + 1)

/-- `FeedbackBlockUniform::process` (src/feedback_block.hpp:315-356); `draws` is the stream of class
draws, `k` the position in it. -/
def FB.processUniform (draws : Nat → Nat) (fuel k : Nat) (fb : FB) (label : Nat) : Option FB :=
  (rejectLoop draws label fuel k).map fun r =>
    { fb with
      posClass := label
      negClass := r.1
      negProb := negWeight fb.threshold (fb.votes.getD r.1 0)
      posProb := (fb.threshold - clampT fb.threshold (fb.votes.getD label 0)) / (2 * fb.threshold)
      total := fb.total + 1
      correct := if argmaxLoop fb.votes.tail 1 0 (fb.votes.headD 0) = label then fb.correct + 1
        else fb.correct }

/-- What `process` leaves for `train_update` (src/feedback_block.hpp:38-56). -/
def FB.feedback (fb : FB) : Feedback := ⟨fb.posClass, fb.posProb, fb.negClass, fb.negProb⟩

end GT

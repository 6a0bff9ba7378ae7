import Verif.Model.Multi
import Verif.Spec.Feedback

/-!
# What multi-label mode should do
-/

namespace GT.Spec

/-- The votes output `i` should get: the 16-bit sum of what the blocks hand over for it. -/
def blockSum (blockVotes : List (List Int)) (i : Nat) : Int :=
  wrap16 ((blockVotes.map (·.getD i 0)).sum)

/-- Output `o` of `2n` says something true about the labels: ON output of a label that is 1, or OFF output of a
label that is 0. -/
def TrueOutput (n : Nat) (labels : List Nat) (o : Nat) : Prop :=
  ∃ i, i < n ∧ ((o = i ∧ labels[i]? = some 1) ∨ (o = n + i ∧ labels[i]? = some 0))

/-- Output `o` says something false about the labels. -/
def FalseOutput (n : Nat) (labels : List Nat) (o : Nat) : Prop :=
  ∃ i, i < n ∧ ((o = i ∧ labels[i]? = some 0) ∨ (o = n + i ∧ labels[i]? = some 1))

/-- Labels are 0 or 1, one per label. -/
def BinaryLabels (n : Nat) (labels : List Nat) : Prop := labels.length = n ∧ ∀ l ∈ labels, l = 0 ∨ l = 1

/-- Label `i` is predicted on: its ON output has at least as many votes as its OFF output. -/
def PredictedOn (votes : List Int) (n i : Nat) : Prop := votes.getD i 0 ≥ votes.getD (n + i) 0

/-- The right prediction for every label. -/
def MultiPrediction (votes : List Int) (n : Nat) (out : List Nat) : Prop :=
  out.length = n ∧ ∀ i, i < n → (out[i]? = some 1 ∧ PredictedOn votes n i) ∨
    (out[i]? = some 0 ∧ ¬ PredictedOn votes n i)

end GT.Spec

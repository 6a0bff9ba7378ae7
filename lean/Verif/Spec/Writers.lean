import Verif.Model.Writers
import Verif.Spec.Predictor

/-! # What the exporter properties mean -/

namespace GT.Spec

/-- The choice is one of the offered entries. -/
def ChoosesEntry (pick : List Nat → List Nat → List (Nat × List Nat) → Nat × List Nat) : Prop :=
  ∀ path R cands, cands ≠ [] → pick path R cands ∈ cands

/-- No two rules consist of the same literals. -/
def DistinctRules (rules : List (List Nat)) : Prop :=
  ∀ (i j : Nat) (a b : List Nat), rules[i]? = some a → rules[j]? = some b → (∀ t, t ∈ a ↔ t ∈ b) → i = j

/-- The votes for the example fit in 16 bits. -/
def VotesFit (rs : Rules) (x : List Nat) : Prop :=
  ∀ k, k < rs.nClasses → -32768 ≤ ruleSum rs.nLits rs.rules rs.weights x k ∧
    ruleSum rs.nLits rs.rules rs.weights x k ≤ 32767

end GT.Spec

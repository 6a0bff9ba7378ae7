import Mathlib.Data.List.Forall2
import Verif.Spec.Executor
import Verif.Spec.Ruleset
import Verif.Spec.StateArrays

/-! # One model in several places -/

namespace GT.Spec

/-- `ks` are the answers of the clauses `cls` for the examples: for each example the lowest-numbered class with the most votes. -/
def AnswersOf (n : Nat) (cls : List (List Int × List Int × List Int)) (data : List (List Nat)) (ks : List Nat) : Prop :=
  List.Forall₂ (fun x k => LowestMax (modelVotes n cls x) k) data ks

/-- The weights and votes of the clauses `cls` need no more than 16 bits: neither the sum over clauses with the same literals
nor the votes for any of the examples. -/
def Fits16 (m n : Nat) (cls : List (List Int × List Int × List Int)) (data : List (List Nat)) : Prop :=
  (∀ r k, k < n → -32768 ≤ sameClauseSum m cls r k ∧ sameClauseSum m cls r k ≤ 32767) ∧
  ∀ x ∈ data, ∀ k, k < n → -32768 ≤ firingSum cls x k ∧ firingSum cls x k ≤ 32767

end GT.Spec

import Verif.Spec.Trainer
import Verif.Spec.Writers

/-! # What the end-to-end property means -/

namespace GT.Spec

/-- What `get_predictor` makes of a trained machine whose clauses are `cls`: the state with these clauses, the rule
set compiled from it and a predictor on that rule set, after any use and without target names; all weight sums the
evaluation examples give rise to fit in 16 bits. -/
structure DeliveredFrom (m n : Nat) (cls : List (List Int × List Int × List Int)) (examples : List (List Nat))
    (rs : Rules) (p : Predictor) : Prop where
  made : ∃ (st : DState) (ml : Bool) (s : String) (excl : Bool) (p0 : Predictor) (calls : List Call),
    WellShaped st ∧ st.nLits = m ∧ st.nClasses = n ∧ stateClauses st = cls ∧ MergesFit st ∧
    compileDense ml st = .ok rs ∧ Predictor.fromRuleset rs s excl = .ok p0 ∧ p = afterCalls p0 calls
  names : p.names = none
  votes : ∀ x ∈ examples, ∀ k, k < n → -32768 ≤ firingSum cls x k ∧ firingSum cls x k ≤ 32767

/-- On the evaluation data the predictor and the exported C program answer with the same class numbers, and the
metric of these answers is `score`. -/
def Reproduces (n : Nat) (metric : List Nat → List Nat → Rat) (evalData : List (List Nat × Nat)) (p : Predictor)
    (prog : List Tok) (score : Rat) : Prop :=
  ∃ ks : List Nat, ks.length = evalData.length ∧
    (∀ (i : Nat) (d : List Nat × Nat), evalData[i]? = some d → ∃ k, ks[i]? = some k ∧
      (p.predict d.1).2 = .ok (.idx k) ∧
      ∀ prev : List Int, prev.length = n → ∃ votes, runC prog prev d.1 = some (votes, k)) ∧
    metric (evalData.map (·.2)) ks = score

end GT.Spec

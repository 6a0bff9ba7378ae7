import Verif.Model.SparseTrainer
import Verif.Spec.EndToEnd
import Verif.Spec.SparseState

/-! # What the end-to-end property means for a sparse machine -/

namespace GT.Spec

/-- The state holds these clauses: the weights of all of them one after the other, and for every block arrays that
denote the positive rows of its clauses followed by their negated rows. -/
def StateHolds (st : SparseSt) (cls : List (Half × Half × List Int)) : Prop :=
  ∃ parts : List (List (Half × Half × List Int)), cls = parts.flatten ∧ st.w = cls.map (·.2.2) ∧
    st.csr.length = parts.length ∧
    ∀ (i : Nat) (a : CsrArr) (part : List (Half × Half × List Int)), st.csr[i]? = some a → parts[i]? = some part →
      Denotes a (part.map (·.1) ++ part.map (·.2.1))

/-- A clause about which backend and rules agree on the examples (C37, C52): sorted halves of literals of the machine, a
weight per class, literals tracked on both sides, at least one of them included, no state exactly 0, and the last tracked
positive literal is included or not beyond the example. -/
structure Agreeable (m n : Nat) (examples : List (List Nat)) (c : Half × Half × List Int) : Prop where
  sorted   : SortedHalf c.1 ∧ SortedHalf c.2.1
  below    : (∀ p ∈ c.1, p.1 < m) ∧ (∀ p ∈ c.2.1, p.1 < m)
  weights  : c.2.2.length = n
  twoSided : c.1 ≠ [] ∧ c.2.1 ≠ []
  some     : ∃ t, On c.1 t ∨ On c.2.1 t
  nonZero  : (∀ p ∈ c.1, p.2 ≠ 0) ∧ (∀ p ∈ c.2.1, p.2 ≠ 0)
  last     : ∀ x ∈ examples, ∀ t, IsLast c.1 t → On c.1 t ∨ ∃ l ∈ x, t ≤ l

/-- What `get_predictor` makes of a trained sparse machine: a rule set compiled from its state and a predictor on that
rule set, after any use and without target names. The clauses in the state are agreeable, and all weight sums fit in 16
bits. -/
structure SDeliveredFrom (m n : Nat) (st : SparseSt) (examples : List (List Nat)) (rs : Rules) (p : Predictor) :
    Prop where
  made : ∃ (ml : Bool) (s : String) (excl : Bool) (p0 : Predictor) (calls : List Call),
    compileSparse ml n st = .ok rs ∧ Predictor.fromRuleset rs s excl = .ok p0 ∧ p = afterCalls p0 calls
  names : p.names = none
  clauses : ∃ cls, StateHolds st cls ∧ (∀ c ∈ cls, Agreeable m n examples c) ∧
    (∀ r j, j < n → -32768 ≤ aboveSame m cls r j ∧ aboveSame m cls r j ≤ 32767) ∧
    ∀ x ∈ examples, ∀ k, k < n → -32768 ≤ sFiringSum cls x k ∧ sFiringSum cls x k ≤ 32767

end GT.Spec

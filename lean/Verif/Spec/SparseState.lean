import Verif.Model.SparseState
import Verif.Spec.SparseExec
import Verif.Spec.Ruleset

/-! # What the properties of sparse states mean -/

namespace GT.Spec

/-- The CSR arrays denote these rows: the values and the column indices of all rows one after the other, and row `i`
begins where the rows before it end. -/
def Denotes (a : CsrArr) (rows : List Half) : Prop :=
  a.data = (rows.flatMap id).map (·.2) ∧ a.indices = (rows.flatMap id).map (·.1) ∧
  a.indptr.length = rows.length + 1 ∧
  ∀ i, i ≤ rows.length → a.indptr[i]? = some ((rows.take i).map (·.length)).sum

/-- Valid CSR arrays: as many indices as values, row pointers that start at 0, do not decrease and end at the number of
values. -/
structure ValidCsr (a : CsrArr) : Prop where
  same  : a.indices.length = a.data.length
  first : a.indptr.head? = some 0
  mono  : a.indptr.Pairwise (· ≤ ·)
  last  : a.indptr.getLast? = some a.data.length

/-- What a sparse block has learned: clauses, weights and the active literals of every class. -/
def sBlockLearned (b : SBlock) : List (Half × Half × List Int) × List (List Nat) :=
  (b.clauses.map sLearned, b.al.map (·.1))

/-- What a block is besides that. -/
def sBlockRest (b : SBlock) : Nat × Nat × SCfg × List Nat × List (Nat × Nat) × List Int :=
  (b.nLits, b.nClasses, b.cfg, b.al.map (·.2), b.clauses.map (fun c => (c.out, c.cnt)), b.votes)

/-- All active-literal lists of the block have the same length. -/
def EvenAL (b : SBlock) : Prop := ∀ p ∈ b.al, ∀ q ∈ b.al, p.1.length = q.1.length

/-- The literals of a half that a rule gets: those with a state greater than 0. -/
def Above (h : Half) (t : Nat) : Prop := ∃ v, (t, v) ∈ h ∧ 0 < v

/-- The conjunction of the literals above 0 holds for the dense example, and there is at least one. -/
def AboveFires (x : List Nat) (c : Half × Half × List Int) : Prop :=
  (∃ t, Above c.1 t ∨ Above c.2.1 t) ∧ (∀ t, Above c.1 t → x[t]? = some 1) ∧ (∀ t, Above c.2.1 t → x[t]? = some 0)

/-- Sum of the weights for class `k` of the clauses whose conjunction of literals above 0 holds. -/
noncomputable def aboveSum (cs : List (Half × Half × List Int)) (x : List Nat) (k : Nat) : Int :=
  open Classical in
  ((cs.filter (fun c => decide (AboveFires x c))).map (fun c => c.2.2.getD k 0)).sum

/-- The rule lists exactly the literals above 0 of the clause. -/
def ListsAbove (n : Nat) (c : Half × Half × List Int) (r : List Nat) : Prop :=
  ∀ i, i ∈ r ↔ (i < n ∧ Above c.1 i) ∨ (n ≤ i ∧ Above c.2.1 (i - n))

/-- Sum of the weights for class `k` of the clauses with exactly these literals above 0. -/
noncomputable def aboveSame (n : Nat) (cs : List (Half × Half × List Int)) (r : List Nat) (k : Nat) : Int :=
  open Classical in
  ((cs.filter (fun c => decide (ListsAbove n c r))).map (fun c => c.2.2.getD k 0)).sum

/-- The clauses are in order: sorted halves with literals of the machine and a weight per class. -/
def SClauseOK (m n : Nat) (c : SClause) : Prop :=
  SortedHalf c.pos ∧ SortedHalf c.neg ∧ LitsBelow m c ∧ c.w.length = n

end GT.Spec

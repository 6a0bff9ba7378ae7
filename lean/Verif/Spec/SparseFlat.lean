import Verif.Model.SparseFlat
import Verif.Spec.Sparse

namespace GT
namespace Spec

/-- The sparse block as it lies in memory: first the positive rows of all clauses, then the negated ones, literals and states in separate
vectors; one array of weights with `nClasses` weights per clause; literal counts only with a budget. -/
def flattenS (b : SBlock) : FlatS where
  nClauses := b.clauses.length
  nClasses := b.nClasses
  cfg := b.cfg
  rows := b.clauses.map (fun c => c.pos.map (·.1)) ++ b.clauses.map (fun c => c.neg.map (·.1))
  states := b.clauses.map (fun c => c.pos.map (·.2)) ++ b.clauses.map (fun c => c.neg.map (·.2))
  al := b.al.map (·.1)
  alIdx := b.al.map (·.2)
  counts := if b.cfg.budget.isSome then b.clauses.map (·.cnt) else []
  outputs := b.clauses.map (·.out)
  votes := b.votes
  weights := b.clauses.flatMap (·.w)
  fast := b.fast

/-- One weight per class for every clause; one list of active literals and one vote per class; a replace index inside the list of
active literals at its full size. -/
structure SBlockShaped (b : SBlock) : Prop where
  weights : ∀ c ∈ b.clauses, c.w.length = b.nClasses
  al : b.al.length = b.nClasses
  votes : b.votes.length = b.nClasses
  idx : ∀ a ∈ b.al, b.cfg.dynamicAL = true → a.2 < b.cfg.alSize

/-- The row numbers and the positions of the weights are `int`s. -/
structure SSmall (nClauses nClasses : Nat) : Prop where
  rows : 2 * nClauses < 2147483648
  weights : nClauses * nClasses < 2147483648

/-- What the executor passes: any example, and two classes that exist. -/
def SOpOk (nClasses : Nat) : BlockOp → Prop
  | .trainUpdate _ fb => fb.posClass < nClasses ∧ fb.negClass < nClasses
  | _ => True

end Spec
end GT

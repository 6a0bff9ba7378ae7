import Verif.Model.Flat
import Verif.Spec.Dense

namespace GT
namespace Spec

/-- The block as it lies in memory: for each clause its positive and then its negated literal states, one array of
weights with `nClasses` weights per clause, one output and one literal count per clause. -/
def flatten (b : DBlock) : FlatTM where
  nLits := b.nLits
  nClauses := b.clauses.length
  nClasses := b.nClasses
  cfg := b.cfg
  clauses := b.clauses.flatMap fun c => c.pos ++ c.neg
  outputs := b.clauses.map (·.out)
  weights := b.clauses.flatMap (·.w)
  votes := b.votes
  counts := b.clauses.map (·.cnt)
  fast := b.fast
  rng := b.rng

/-- Every clause has its two rows of literal states and one weight per class. -/
structure BlockShaped (b : DBlock) : Prop where
  rows : ∀ c ∈ b.clauses, Shaped b.nLits c ∧ c.w.length = b.nClasses
  votes : b.votes.length = b.nClasses

/-- The arrays have fewer than 2^31 elements (also a single row, if there are no clauses). -/
structure Small (nLits nClauses nClasses : Nat) : Prop where
  row : nLits * 2 < 2147483648
  clauses : nClauses * (nLits * 2) < 2147483648
  weights : nClauses * nClasses < 2147483648

/-- What the executor passes: an example has `nLits` literals and the two classes exist. -/
def OpOk (nLits nClasses : Nat) : BlockOp → Prop
  | .trainExample x => x.length = nLits
  | .evalExample x => x.length = nLits
  | .trainUpdate x fb => x.length = nLits ∧ fb.posClass < nClasses ∧ fb.negClass < nClasses

end Spec
end GT

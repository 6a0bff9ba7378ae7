import Verif.Model.NeonFlat
import Verif.Spec.AvxFlat
import Verif.Spec.Random

namespace GT
namespace Spec

/-- Size of the NEON backend's array of clause outputs: the number of clauses rounded up beyond the next multiple of 64. -/
def neonOutSize (nClauses : Nat) : Nat := (nClauses / 64 + 1) * 64

/-- The NEON block as it lies in memory: for each clause a row of `2 * neonMem nLits` bytes, one array of weights with `nClasses` weights
per clause, one output per clause (and unused outputs up to the size of the array), one literal count per clause if there is a budget. -/
def flattenNeon (b : NBlock) : FlatNeon where
  nLits := b.cfg.nLits
  mem := neonMem b.cfg.nLits
  nClauses := b.clauses.length
  nClasses := b.nClasses
  cfg := b.cfg
  mask := List.ofFn (neonMask b.cfg.nLits)
  clauses := b.clauses.flatMap fun c => (List.range (neonMem b.cfg.nLits * 2)).map c.row
  outputs := b.clauses.map (·.out) ++ List.replicate (neonOutSize b.clauses.length - b.clauses.length) 0
  weights := b.clauses.flatMap (·.w)
  votes := b.votes
  counts := if b.cfg.budget.isSome then b.clauses.map (·.cnt) else []
  fast := b.fast
  vrng := b.vrng

/-- Every clause has one weight per class. -/
structure NeonShaped (b : NBlock) : Prop where
  weights : ∀ c ∈ b.clauses, c.w.length = b.nClasses
  votes : b.votes.length = b.nClasses

/-- The arrays have fewer than 2^31 bytes, rounded up to multiples of 32. -/
structure NeonSmall (nLits nClauses nClasses : Nat) : Prop where
  row : neonMem nLits * 2 < 2147483648
  clauses : nClauses * (neonMem nLits * 2) < 2147483648
  weights : nClauses * nClasses * 2 ≤ 2147483616
  votes : nClasses * 2 ≤ 2147483616
  outputs : neonOutSize nClauses < 2147483648

end Spec
end GT

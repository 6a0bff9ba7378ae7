import Verif.Model.AvxFlat
import Verif.Spec.Avx2

namespace GT
namespace Spec

/-- Size of the array of clause outputs: the number of clauses rounded up beyond the next multiple of 128. -/
def outSize (nClauses : Nat) : Nat := (nClauses / 128 + 1) * 128

/-- Size of the example buffer that a dense input block allocates (src/input_block.hpp:57). -/
def exampleMem (nLits : Nat) : Nat := (nLits / 32 + 1) * 32

/-- The AVX2 block as it lies in memory: for each clause a row of `2 * avxMem nLits` bytes, one array of weights with `nClasses` weights
per clause, one output per clause (and unused outputs up to the size of the array), one literal count per clause if there is a budget. -/
def flattenAvx (b : VBlock) : FlatAvx where
  nLits := b.cfg.nLits
  mem := avxMem b.cfg.nLits
  nClauses := b.clauses.length
  nClasses := b.nClasses
  cfg := b.cfg
  mask := List.ofFn (avxMask b.cfg.nLits)
  clauses := b.clauses.flatMap fun c => (List.range (avxMem b.cfg.nLits * 2)).map c.row
  outputs := b.clauses.map (·.out) ++ List.replicate (outSize b.clauses.length - b.clauses.length) 0
  weights := b.clauses.flatMap (·.w)
  votes := b.votes
  counts := if b.cfg.budget.isSome then b.clauses.map (·.cnt) else []
  fast := b.fast
  vrng := b.vrng

/-- Every clause has one weight per class. -/
structure AvxShaped (b : VBlock) : Prop where
  weights : ∀ c ∈ b.clauses, c.w.length = b.nClasses
  votes : b.votes.length = b.nClasses

/-- The arrays have fewer than 2^31 elements. -/
structure AvxSmall (nLits nClauses nClasses : Nat) : Prop where
  row : avxMem nLits * 2 < 2147483648
  clauses : nClauses * (avxMem nLits * 2) < 2147483648
  weights : nClauses * nClasses < 2147483648
  outputs : outSize nClauses < 2147483648

/-- The same call, with the contents of the example buffer. -/
def opMem : FlatAvxOp → VOp
  | .trainExample x => .trainExample fun a => x.getD a 0#8
  | .evalExample x => .evalExample fun a => x.getD a 0#8
  | .trainUpdate x fb => .trainUpdate (fun a => x.getD a 0#8) fb

/-- What the executor passes: the example buffer of the input block, and classes that exist. -/
def AvxOpOk (nLits nClasses : Nat) : FlatAvxOp → Prop
  | .trainExample x => x.length = exampleMem nLits
  | .evalExample x => x.length = exampleMem nLits
  | .trainUpdate x fb => x.length = exampleMem nLits ∧ fb.posClass < nClasses ∧ fb.negClass < nClasses

end Spec
end GT

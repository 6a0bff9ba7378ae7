import Verif.Model.ConvScalarFlat
import Verif.Spec.Flat
import Verif.Spec.Conv

namespace GT
namespace Spec

/-- The dense part of a convolutional block. -/
def densePart (b : ConvBlock) : DBlock :=
  ⟨b.nLits, b.nClasses, b.cfg, b.clauses.map (·.base), b.votes, b.fast, b.rng⟩

/-- The block as it lies in memory: the dense arrays, the active patch of each clause, and a literal count for each patch. -/
def flattenConv (b : ConvBlock) : FlatConv where
  tm := flatten (densePart b)
  nPatches := b.nPatches
  active := b.clauses.map (·.patch)
  perPatch := (List.range b.nPatches).map b.counts

/-- Every clause has its two rows of literal states and one weight per class. -/
structure ConvShaped (b : ConvBlock) : Prop where
  rows : ∀ c ∈ b.clauses, Shaped b.nLits c.base ∧ c.base.w.length = b.nClasses
  votes : b.votes.length = b.nClasses

/-- The arrays and an example have fewer than 2^31 elements. -/
structure SmallConv (nLits nClauses nClasses nPatches : Nat) : Prop where
  small : Small nLits nClauses nClasses
  example' : nPatches * nLits < 2147483648

/-- What the executor does with one example: training sets the outputs and then applies feedback, once or more often, for the same
example; evaluation only reads. -/
inductive ConvUse
  | train (x : List Nat) (fbs : List Feedback)
  | eval (x : List Nat)

/-- The calls of one use. -/
def ConvUse.ops : ConvUse → List BlockOp
  | .train x fbs => .trainExample x :: fbs.map (.trainUpdate x)
  | .eval x => [.evalExample x]

/-- The example has `nPatches` patches of `nLits` literals and the classes exist. -/
def ConvUse.Ok (nLits nClasses nPatches : Nat) : ConvUse → Prop
  | .train x fbs => x.length = nPatches * nLits ∧ ∀ fb ∈ fbs, fb.posClass < nClasses ∧ fb.negClass < nClasses
  | .eval x => x.length = nPatches * nLits

end Spec
end GT

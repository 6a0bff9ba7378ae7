import Verif.Model.Conv
import Verif.Model.Neon
import Verif.Model.Executor

/-!
# The executor over convolutional and NEON clause blocks
-/

namespace GT

/-- The portable convolutional block as a backend of the executor (src/main.cpp:101-127,
src/clause_block.hpp:65-86,187-212). -/
def convBackend : Backend ConvBlock (List Nat) where
  trainExample b x := b.apply (.trainExample x)
  evalExample b x := b.apply (.evalExample x)
  trainUpdate b x fb := b.apply (.trainUpdate x fb)
  votes b := b.votes
  trainable _ := true

/-- `TrainUpdateConvAVX2::operator()` (src/func_conv_avx2.hpp:301-332). -/
def avxConvTrainClauses (cfg : VCfg) (lits : Mem) (fb : Feedback) :
    List VConvClause → Rng → VRng → List VConvClause × Rng × VRng
  | [], fast, g => ([], fast, g)
  | c :: cs, fast, g =>
    let r := avxConvTrainClause cfg lits fb c fast g
    let rs := avxConvTrainClauses cfg lits fb cs r.2.1 r.2.2
    (r.1 :: rs.1, rs.2.1, rs.2.2)

/-- A convolutional block of the AVX2 backend (src/main.cpp:183-205). The padded part of a clause's weights is never read
and not modelled. -/
structure VConvBlock where
  nClasses : Nat
  nPatches : Nat
  cfg      : VCfg
  clauses  : List VConvClause
  counts   : Nat → Nat
  votes    : List Int
  fast     : Rng
  rng      : Rng
  vrng     : VRng

/-- Effect of one call (src/clause_block.hpp:65-86,187-212); votes are counted by `CountVotesAVX2` as in a dense block.
Every load of literals is taken to succeed, see C76 for those that do not. -/
def VConvBlock.apply (b : VConvBlock) : VOp → VConvBlock
  | .trainExample lits =>
    let r := avxConvSetClauses b.cfg b.nPatches lits b.clauses b.counts b.rng
    { b with clauses := r.1, counts := r.2.1, rng := r.2.2, votes := avxCountVotes b.nClasses (r.1.map (·.base)) }
  | .evalExample lits =>
    let cs := b.clauses.map (avxConvEvalClause b.cfg b.nPatches lits)
    { b with clauses := cs, votes := avxCountVotes b.nClasses (cs.map (·.base)) }
  | .trainUpdate lits fb =>
    let r := avxConvTrainClauses b.cfg lits fb b.clauses b.fast b.vrng
    { b with clauses := r.1, fast := r.2.1, vrng := r.2.2 }

/-- The AVX2 convolutional block as a backend of the executor (src/main.cpp:194-205). -/
def avxConvBackend : Backend VConvBlock Mem where
  trainExample b x := b.apply (.trainExample x)
  evalExample b x := b.apply (.evalExample x)
  trainUpdate b x fb := b.apply (.trainUpdate x fb)
  votes b := b.votes
  trainable _ := true

/-- The NEON block as a backend of the executor (src/main.cpp:212-233); `none`: the process has crashed. -/
def neonBackend : Backend (Option NBlock) Mem where
  trainExample b x := b.bind (·.apply (.trainExample x))
  evalExample b x := b.bind (·.apply (.evalExample x))
  trainUpdate b x fb := b.bind (·.apply (.trainUpdate x fb))
  votes b := (b.map NBlock.votes).getD []
  trainable _ := true

end GT

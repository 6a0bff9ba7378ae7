import Verif.Model.Sparse
import Verif.Model.Executor

/-!
# The executor over sparse clause blocks
-/

namespace GT

/-- The sparse block as a backend of the executor (src/main.cpp:129-151, src/clause_block.hpp:65-86,425-447). The
example is the list of the literals that are 1, as `pull_example` finds it in the sparse input block. -/
def sparseBackend : Backend SBlock (List Nat) where
  trainExample b x := b.apply (.trainExample x)
  evalExample b x := b.apply (.evalExample x)
  trainUpdate b x fb := b.apply (.trainUpdate x fb)
  votes b := b.votes
  trainable _ := true

end GT

import Verif.Model.Trainer
import Verif.Model.SparseExec
import Verif.Model.SparseState

/-! # Training a sparse machine (green_tsetlin/trainer.py:257-369, green_tsetlin/sparse_tsetlin_machine.py:110-140) -/

namespace GT

/-- The environment of a `Trainer` with a sparse machine of `nLits` literals, `nClauses` clauses and `nClasses` classes:
a snapshot is the `SparseState` that `_load_state_from_backend` makes
(green_tsetlin/trainer.py:257-369, green_tsetlin/sparse_tsetlin_machine.py:110-140). -/
def sparseEnv (nLits nClauses nClasses : Nat) (init : Option SparseSt → Exec SBlock) (smp : List Rat → Rat → Nat)
    (shuffle : Nat → List Nat → List Nat) (metric : List Nat → List Nat → Rat)
    (trainData evalData : List (List Nat × Nat)) : Env (ExecS SBlock (List Nat)) SparseSt :=
  backendEnv sparseBackend (fun e => sLoad nLits nClauses nClasses e.blocks) init smp shuffle metric trainData evalData

end GT

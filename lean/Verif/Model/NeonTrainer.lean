import Verif.Model.Trainer
import Verif.Model.ConvExec

/-! # Training on the NEON backend (green_tsetlin/trainer.py:257-369, src/func_neon.hpp) -/

namespace GT

/-- The environment of a `Trainer` with the NEON backend: a snapshot is the list of clauses without the padding
(green_tsetlin/trainer.py:257-369, src/aligned_tsetlin_state.hpp:84-97, 130-140). A block that is `none` has crashed the
process; it has no clauses. -/
def neonEnv (init : Option (List (List Int × List Int × List Int)) → Exec (Option NBlock)) (smp : List Rat → Rat → Nat)
    (shuffle : Nat → List Nat → List Nat) (metric : List Nat → List Nat → Rat)
    (trainData evalData : List (Mem × Nat)) :
    Env (ExecS (Option NBlock) Mem) (List (List Int × List Int × List Int)) :=
  backendEnv neonBackend
    (fun e => e.blocks.flatMap fun b => (b.map fun b => b.clauses.map fun c =>
      ((List.range b.cfg.nLits).map fun i => (c.row i).toInt,
       (List.range b.cfg.nLits).map fun i => (c.row (neonMem b.cfg.nLits + i)).toInt, c.w)).getD [])
    init smp shuffle metric trainData evalData

end GT

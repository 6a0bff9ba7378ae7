import Verif.Model.Neon
import Verif.Spec.Avx2

/-!
# Reading a NEON block as a dense block
-/

namespace GT.Spec

/-- The clause stored in a NEON row of `n` literals: the first `n` bytes of each half, as signed numbers. -/
def neonUnpad (n : Nat) (c : VClause) : Clause :=
  { pos := (List.range n).map fun i => (c.row i).toInt
    neg := (List.range n).map fun i => (c.row (neonMem n + i)).toInt
    w := c.w, out := c.out, cnt := c.cnt }

/-- The step on a NEON block; `none`: the process crashed. -/
def neonStep (b : NBlock) : Step → Option NBlock
  | .train lits fb => (b.apply (.trainExample lits)).bind fun b => b.apply (.trainUpdate lits fb)
  | .eval lits => b.apply (.evalExample lits)

end GT.Spec

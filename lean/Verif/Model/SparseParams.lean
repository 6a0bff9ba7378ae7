import Verif.Model.Config
import Verif.Model.Sparse

/-!
# The size limits and the threshold of a sparse machine
(green_tsetlin/sparse_tsetlin_machine.py:97-110, 198-216, src/clause_block.hpp:250-283)

The choice of the block class and its failure for a second kind of sparse machine are in `Model/Backend.lean`; here
the class is taken to be found.
-/

namespace GT

/-- `np.ceil(np.sqrt(n)).astype(int)` in exact arithmetic (green_tsetlin/sparse_tsetlin_machine.py:103-104); that the
rounding of the root does not matter is `C91_rounding`. The root of a negative number is NaN, which becomes the
smallest 64-bit integer (x86). -/
def sqrtUp (n : Int) : Int :=
  if n < 0 then -(2 ^ 63)
  else
    let r := Nat.sqrt n.toNat
    if r * r = n.toNat then r else r + 1

/-- What a sparse block holds before it is allocated: the common settings, and the three of `SparseClauseState`
(src/clause_block.hpp:250-283, src/sparse_tsetlin_state.hpp:20-38). Sizes are `size_t`. -/
structure SparseSetup where
  base       : BlockSetup
  clauseSize : Nat
  alSize     : Nat
  lowerTA    : Int
deriving DecidableEq, Repr

/-- The machine: the attributes of the base class, its own three, and the list of blocks
(green_tsetlin/sparse_tsetlin_machine.py:97-110, green_tsetlin/tsetlin_machine.py:88). -/
structure SparseTM where
  tm         : TM
  clauseSize : Int
  alSize     : Int
  lowerTA    : Int
  cbs        : Option (List SparseSetup)
deriving DecidableEq, Repr

/-- `SparseTsetlinMachine.__init__` (green_tsetlin/sparse_tsetlin_machine.py:97-110). -/
def SparseTM.new (nLiterals nClauses nClasses : Int) (s : SArg) (threshold : Int) (budget : Option Int)
    (boost multiLabel : Bool) : Except PyErr SparseTM :=
  match TM.new nLiterals nClauses nClasses s threshold budget boost multiLabel with
  | .error e => .error e
  | .ok tm => .ok ⟨tm, sqrtUp nLiterals, sqrtUp nLiterals, -40, none⟩

/-- The block's constructor (src/clause_block.hpp:250-260), with the settings made before the sparse ones
(green_tsetlin/tsetlin_machine.py:308-312). -/
def SparseSetup.new (b : BlockSetup) : SparseSetup := ⟨b, b.nLiterals.toNat, b.nLiterals.toNat, -20⟩

/-- A Python int as the C++ `int` of a bound method; one that does not fit is a `TypeError` (pybind11, for
src/main.cpp:271-279). -/
def cInt (v : Int) : Except PyErr Int :=
  if -(2 ^ 31) ≤ v ∧ v < 2 ^ 31 then .ok v else .error .typeError

/-- `(size_t) v` (src/clause_block.hpp:280, 283). -/
def toSizeT (v : Int) : Nat := (v % 2 ^ 64).toNat

/-- `_set_extra_params_on_cb` (green_tsetlin/sparse_tsetlin_machine.py:198-216) and the setters it calls
(src/clause_block.hpp:277-283). -/
def SparseTM.setExtra (m : SparseTM) (b : SparseSetup) : Except PyErr SparseSetup :=
  if m.alSize < 1 then .error .valueError
  else if m.clauseSize < 1 then .error .valueError
  else if m.lowerTA > 0 then .error .valueError
  else do
    let al ← cInt m.alSize
    let b := { b with alSize := toSizeT al }
    let cs ← cInt m.clauseSize
    let b := { b with clauseSize := toSizeT cs }
    let lo ← cInt m.lowerTA
    return { b with lowerTA := lo }

/-- The loop of `construct_clause_blocks` (green_tsetlin/tsetlin_machine.py:306-317): the blocks appended to `_cbs`
before an exception stay there. -/
def SparseTM.fill (m : SparseTM) : List BlockSetup → List SparseSetup → List SparseSetup × Option PyErr
  | [], done => (done, none)
  | b :: bs, done =>
    match m.setExtra (.new b) with
    | .error e => (done, some e)
    | .ok b => m.fill bs (done ++ [b])

/-- `construct_clause_blocks` of a sparse machine (green_tsetlin/tsetlin_machine.py:289-319). -/
def SparseTM.construct (m : SparseTM) : SparseTM × Option PyErr :=
  match m.tm.constructClauseBlocks with
  | .error e => (m, some e)
  | .ok bs =>
    let r := m.fill bs []
    ({ m with cbs := some r.1 }, r.2)

/-- The machine's part of `train()` before the first epoch: blocks are made if there are none, and constructed anew
every time (green_tsetlin/trainer.py:270-274). -/
def SparseTM.prepare (m : SparseTM) (nJobs : Int) : SparseTM × Option PyErr :=
  match m.tm.ensureBlocks nJobs with
  | (tm, some e) => ({ m with tm := tm }, some e)
  | (tm, none) => { m with tm := tm }.construct

/-- The parameters with which a constructed block works (`SCfg` is what `Model/Sparse.lean` reads). -/
def SparseSetup.cfg (b : SparseSetup) (boost dynamicAL : Bool) (sInv sMin1Inv : Rat) : SCfg :=
  { budget := b.base.budget.map (·.toNat), boost := boost, dynamicAL := dynamicAL, sInv := sInv, sMin1Inv := sMin1Inv,
    clauseSize := b.clauseSize, alSize := b.alSize, lowerTA := b.lowerTA }

end GT

import Verif.Model.Sparse
import Verif.Model.Ruleset
import Verif.Model.Config

/-!
# The state of a sparse machine: CSR arrays, transfer, files, rule sets
(src/clause_block.hpp:286-400, green_tsetlin/sparse_tsetlin_machine.py:15-148, green_tsetlin/ruleset.py:43-103)

Offsets and indices are natural numbers (no 32-bit overflow).
-/

namespace GT

/-- The three arrays of one block (`c_data[k]`, `c_indices[k]`, `c_indptr[k]`)
(green_tsetlin/sparse_tsetlin_machine.py:15-40). -/
structure CsrArr where
  data    : List Int
  indices : List Nat
  indptr  : List Nat
deriving DecidableEq, Repr

/-- The loop of `get_clause_state_sparse_npy` from row `rows` on, with the running `offset`
(src/clause_block.hpp:296-309). -/
def csrLoop : List Half → Nat → CsrArr
  | [], off => ⟨[], [], [off]⟩
  | r :: rs, off =>
    let t := csrLoop rs (off + r.length)
    ⟨r.map (·.2) ++ t.data, r.map (·.1) ++ t.indices, off :: t.indptr⟩

/-- The `2 * num_clauses` rows of a block: positive halves, then negated halves (src/func_sparse.hpp:141-142). -/
def SBlock.rows (b : SBlock) : List Half := b.clauses.map (·.pos) ++ b.clauses.map (·.neg)

/-- `get_clause_state_sparse_npy` (src/clause_block.hpp:286-319). -/
def SBlock.getCsr (b : SBlock) : CsrArr := csrLoop b.rows 0

/-- The inner loop of `set_clause_state_sparse_npy` (src/clause_block.hpp:347-351) for `j` from `lo`, `k` entries;
reading past an array is undefined behaviour (`none`). -/
def csrRow (a : CsrArr) : Nat → Nat → Option Half
  | _, 0 => some []
  | lo, k + 1 =>
    match a.indices[lo]?, a.data[lo]?, csrRow a (lo + 1) k with
    | some i, some v, some r => some ((i, v) :: r)
    | _, _, _ => none

/-- The outer loop (src/clause_block.hpp:344-353) over the remaining row pointers. -/
def csrRows (a : CsrArr) : List Nat → Option (List Half)
  | lo :: hi :: ps =>
    match csrRow a lo (hi - lo), csrRows a (hi :: ps) with
    | some r, some rs => some (r :: rs)
    | _, _ => none
  | _ => some []

/-- The rows as the rows of the block's clauses. With fewer than `2 * num_clauses` rows the next call reads past the
end of the vector (`none`); further rows are never read (src/clause_block.hpp:340-353). -/
def SBlock.setRows (b : SBlock) (rows : List Half) : Option SBlock :=
  if rows.length < 2 * b.clauses.length then none
  else some { b with clauses := b.clauses.mapIdx fun i c =>
    { c with pos := rows.getD i [], neg := rows.getD (i + b.clauses.length) [] } }

/-- `set_clause_state_sparse_npy` (src/clause_block.hpp:322-357); an empty `indptr` makes `resize(-1)` throw, which
is left out (`none`). -/
def SBlock.setCsr (b : SBlock) (a : CsrArr) : Option SBlock :=
  if a.indptr = [] then none
  else match csrRows a a.indptr with
    | some rows => b.setRows rows
    | none => none

/-- `get_active_literals_npy` (src/clause_block.hpp:360-372). -/
def SBlock.getAL (b : SBlock) : List (List Nat) := b.al.map (·.1)

/-! ## The machine's state -/

/-- `SparseState` (green_tsetlin/sparse_tsetlin_machine.py:15-46). -/
structure SparseSt where
  nLits : Option Nat
  w     : List (List Int)
  csr   : List CsrArr
  al    : List (List (List Nat))
deriving DecidableEq, Repr

/-- `SparseState.copy` (green_tsetlin/sparse_tsetlin_machine.py:49-56): `n_literals` is not copied. -/
def SparseSt.copy (s : SparseSt) : SparseSt := { s with nLits := none }

/-- Writing rows of weights from row `off` on (src/sparse_tsetlin_state.hpp:95-105; `num_class_weights_mem` is
`num_classes`, src/func_sparse.hpp:71-72). -/
def overwriteRows (w : List (List Int)) (off : Nat) (rows : List (List Int)) : List (List Int) :=
  w.take off ++ rows ++ w.drop (off + rows.length)

/-- The loop of `_load_state_from_backend` (green_tsetlin/sparse_tsetlin_machine.py:127-135). -/
def sLoadLoop : List SBlock → Nat → SparseSt → SparseSt
  | [], _, s => s
  | b :: bs, off, s =>
    sLoadLoop bs (off + b.clauses.length)
      { s with csr := s.csr ++ [b.getCsr], al := s.al ++ [b.getAL],
               w := overwriteRows s.w off (b.clauses.map (·.w)) }

/-- `_load_state_from_backend` (green_tsetlin/sparse_tsetlin_machine.py:110-140): always into a new state. -/
def sLoad (nLits nClauses nClasses : Nat) (bs : List SBlock) : SparseSt :=
  sLoadLoop bs 0 ⟨some nLits, List.replicate nClauses (List.replicate nClasses 0), [], []⟩

/-- How a transfer can fail: a Python exception, or undefined behaviour in C++ (now or in the next call)
(green_tsetlin/sparse_tsetlin_machine.py:142-156, src/clause_block.hpp:322-386). -/
inductive Fault
  | py (e : PyErr)
  | undefined
deriving DecidableEq, Repr

/-- `set_clause_weights` with rows `off ..` of the array (src/sparse_tsetlin_state.hpp:83-93); reading past the
array is undefined. -/
def SBlock.setWeights (b : SBlock) (w : List (List Int)) (off : Nat) : Option SBlock :=
  if w.length < off + b.clauses.length then none
  else some { b with clauses := b.clauses.mapIdx fun i c => { c with w := w.getD (off + i) [] } }

/-- `set_active_literals_npy` (src/clause_block.hpp:374-386) with a list of arrays: the conversion to one
two-dimensional array fails (TypeError) unless all have the same length; fewer arrays than classes are counted as undefined
behaviour. The replace index stays. -/
def SBlock.setAL (b : SBlock) (rows : List (List Nat)) : Except Fault SBlock :=
  if rows.any (fun r => r.length != (rows.headD []).length) then .error (.py .typeError)
  else if rows.length < b.nClasses then .error .undefined
  else .ok { b with al := b.al.mapIdx fun i a => (rows.getD i [], a.2) }

/-- The loop of `_save_state_in_backend` (green_tsetlin/sparse_tsetlin_machine.py:151-156): the blocks afterwards and
how it ended. `c_data[index]` past the end is an IndexError. -/
def sSaveLoop (s : SparseSt) : List SBlock → Nat → Nat → List SBlock × Except Fault Unit
  | [], _, _ => ([], .ok ())
  | b :: bs, k, off =>
    match s.csr[k]?, s.al[k]? with
    | some a, some rows =>
      match b.setCsr a with
      | none => (b :: bs, .error .undefined)
      | some b1 =>
        match b1.setWeights s.w off with
        | none => (b1 :: bs, .error .undefined)
        | some b2 =>
          match b2.setAL rows with
          | .error e => (b2 :: bs, .error e)
          | .ok b3 =>
            let r := sSaveLoop s bs (k + 1) (off + b.clauses.length)
            (b3 :: r.1, r.2)
    | _, _ => (b :: bs, .error (.py .indexError))

/-- `_save_state_in_backend` (green_tsetlin/sparse_tsetlin_machine.py:142-156) when there are blocks and a state. -/
def sSave (s : SparseSt) (bs : List SBlock) : List SBlock × Except Fault Unit := sSaveLoop s bs 0 0

/-! ## Files -/

/-- One element of `c_data`, `c_indices` or `c_indptr` of a state: a numpy array, or a plain Python list
(green_tsetlin/sparse_tsetlin_machine.py:83-98). -/
structure PyRow (α : Type) where
  isArray : Bool
  vals    : List α
deriving DecidableEq, Repr

/-- `np.array(rows, dtype=object)`, stored and read back with `.tolist()`
(green_tsetlin/sparse_tsetlin_machine.py:83-98): arrays of one common length are stacked into a two-dimensional array
of objects, from which `tolist` makes plain lists; arrays of different lengths come back as arrays. -/
def viaFile {α : Type} (rows : List (List α)) : List (PyRow α) :=
  rows.map fun r => ⟨rows.any (fun r' => r'.length != (rows.headD []).length), r⟩

/-- A state read from a file (green_tsetlin/sparse_tsetlin_machine.py:58-82). -/
structure LoadedSt where
  nLits   : Nat
  w       : List (List Int)
  data    : List (PyRow Int)
  indices : List (PyRow Nat)
  indptr  : List (PyRow Nat)
  al      : List (List (List Nat))
deriving DecidableEq, Repr

/-- `save_to_file` followed by `load_from_file` (green_tsetlin/sparse_tsetlin_machine.py:58-98) for a state whose
`n_literals` is `n`. The active literals of a block come back as a list per class, whether stacked or not, and both
convert alike. -/
def SparseSt.viaFile (s : SparseSt) (n : Nat) : LoadedSt :=
  ⟨n, s.w, GT.viaFile (s.csr.map (·.data)), GT.viaFile (s.csr.map (·.indices)),
    GT.viaFile (s.csr.map (·.indptr)), s.al⟩

/-- `set_clause_state_sparse` with elements of a loaded state: the arguments must be arrays
(`pybind11::array`, src/clause_block.hpp:322), a list is a TypeError. -/
def SBlock.setLoaded (b : SBlock) (d : PyRow Int) (i p : PyRow Nat) : Except Fault SBlock :=
  if d.isArray && i.isArray && p.isArray then
    match b.setCsr ⟨d.vals, i.vals, p.vals⟩ with
    | some b => .ok b
    | none => .error .undefined
  else .error (.py .typeError)

/-- `_save_state_in_backend` (green_tsetlin/sparse_tsetlin_machine.py:151-156) with a loaded state. -/
def sSaveLoadedLoop (s : LoadedSt) : List SBlock → Nat → Nat → List SBlock × Except Fault Unit
  | [], _, _ => ([], .ok ())
  | b :: bs, k, off =>
    match s.data[k]?, s.indices[k]?, s.indptr[k]?, s.al[k]? with
    | some d, some i, some p, some rows =>
      match b.setLoaded d i p with
      | .error e => (b :: bs, .error e)
      | .ok b1 =>
        match b1.setWeights s.w off with
        | none => (b1 :: bs, .error .undefined)
        | some b2 =>
          match b2.setAL rows with
          | .error e => (b2 :: bs, .error e)
          | .ok b3 =>
            let r := sSaveLoadedLoop s bs (k + 1) (off + b.clauses.length)
            (b3 :: r.1, r.2)
    | _, _, _, _ => (b :: bs, .error (.py .indexError))

/-! ## Rule sets -/

/-- `l[lo:hi]` (green_tsetlin/ruleset.py:78-85). -/
def pySlice {α : Type} (l : List α) (lo hi : Nat) : List α := (l.take hi).drop lo

/-- The literals of one row that the rule gets: those with a state greater than 0
(green_tsetlin/ruleset.py:78-85). Simplification: `c_data` is as long as `c_indices`. -/
def ruleLits (a : CsrArr) (lo hi : Nat) : List Nat :=
  (((pySlice a.indices lo hi).zip (pySlice a.data lo hi)).filter fun e => decide (e.2 > 0)).map (·.1)

/-- The rule of clause `i` of a block with `nc` clauses (green_tsetlin/ruleset.py:73-86,92). -/
def ruleOf (n : Nat) (a : CsrArr) (nc i : Nat) : List Nat :=
  ruleLits a (a.indptr.getD i 0) (a.indptr.getD (i + 1) 0) ++
    (ruleLits a (a.indptr.getD (i + nc) 0) (a.indptr.getD (i + nc + 1) 0)).map (· + n)

/-- The rules of the clauses of all blocks, in order (green_tsetlin/ruleset.py:64-73). -/
def stateRules (n : Nat) (csr : List CsrArr) : List (List Nat) :=
  csr.flatMap fun a =>
    let nc := (a.indptr.length - 1) / 2
    (List.range nc).map (ruleOf n a nc)

/-- The rest of the loop body (green_tsetlin/ruleset.py:89-100). -/
def sCompileStep (nClasses : Nat) (m : List (List Nat × List Int)) (key : List Nat) (w : List Int) :
    List (List Nat × List Int) :=
  if w.all (· == 0) then m
  else if key.length < 1 then m
  else
    match ruleGet m key with
    | some u => ruleSet m key (addWeights u w)
    | none => m ++ [(key, addWeights (List.replicate nClasses 0) w)]

/-- The loops (green_tsetlin/ruleset.py:63-100), `k` being `done_clauses`; a missing weight row is an IndexError. -/
def sCompileLoop (nClasses : Nat) (ws : List (List Int)) :
    List (List Nat) → Nat → List (List Nat × List Int) → Except PyErr (List (List Nat × List Int))
  | [], _, m => .ok m
  | key :: keys, k, m =>
    match ws[k]? with
    | some w => sCompileLoop nClasses ws keys (k + 1) (sCompileStep nClasses m key w)
    | none => .error .indexError

/-- `n_literals` of the rule set (green_tsetlin/ruleset.py:49-53): guessed from the first block when the state does
not have it. -/
def ruleLiterals (s : SparseSt) : Except PyErr Nat :=
  match s.nLits with
  | some n => .ok n
  | none =>
    match s.csr with
    | [] => .error .indexError
    | a :: _ =>
      match a.indices with
      | [] => .error .valueError
      | i :: is => .ok (is.foldl max i + 1)

/-- `RuleSet.compile_from_sparse_state` (green_tsetlin/ruleset.py:43-103); `nClasses` is `w.shape[1]`. -/
def compileSparse (multiLabel : Bool) (nClasses : Nat) (s : SparseSt) : Except PyErr Rules :=
  match ruleLiterals s with
  | .error e => .error e
  | .ok n =>
    match sCompileLoop nClasses s.w (stateRules n s.csr) 0 [] with
    | .ok m => .ok ⟨n, nClasses, multiLabel, m.map (·.1), m.map (·.2)⟩
    | .error e => .error e

/-- The values of a loaded state, whatever their kind (green_tsetlin/sparse_tsetlin_machine.py:58-82). -/
def LoadedSt.values (s : LoadedSt) : SparseSt :=
  ⟨some s.nLits, s.w,
    (s.data.zip (s.indices.zip s.indptr)).map fun t => ⟨t.1.vals, t.2.1.vals, t.2.2.vals⟩, s.al⟩

/-- `compile_from_sparse_state` on a loaded state: `c_indptr.shape` does not exist on a plain list
(green_tsetlin/ruleset.py:70); slicing works on lists too, and all blocks have the same kind. -/
def compileLoaded (multiLabel : Bool) (nClasses : Nat) (s : LoadedSt) : Except PyErr Rules :=
  if s.indptr.all (·.isArray) then compileSparse multiLabel nClasses s.values
  else .error .attributeError

end GT

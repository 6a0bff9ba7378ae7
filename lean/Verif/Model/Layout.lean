import Verif.Model.Config
import Verif.Model.Avx2
import Verif.Model.Inference

/-!
# Flat arrays and copying a machine's state (src/aligned_tsetlin_state.hpp:84-140,
green_tsetlin/tsetlin_machine.py:13-35,201-254)

Memory is a function from addresses to values. `int` index arithmetic is on natural numbers (no 32-bit
overflow).
-/

namespace GT

/-- `memcpy(&dst[d], &src[s], n)` (used at src/aligned_tsetlin_state.hpp:91-137). -/
def memcpy (dst : Nat → Int) (d : Nat) (src : Nat → Int) (s n : Nat) : Nat → Int := fun a =>
  if d ≤ a ∧ a < d + n then src (s + (a - d)) else dst a

/-- The sizes, strides and arrays of a clause block (src/aligned_tsetlin_state.hpp:16-45): `litMem` is
`num_literals_mem`, `wMem` is `num_class_weights_mem`. -/
structure Flat where
  nLits    : Nat
  nClauses : Nat
  nClasses : Nat
  litMem   : Nat
  wMem     : Nat
  clauses  : Nat → Int
  weights  : Nat → Int

/-- A block as the portable initialiser allocates it (src/func_tm.hpp:22-31): no padding. -/
def Flat.portable (nLits nClauses nClasses : Nat) (cl ws : Nat → Int) : Flat :=
  ⟨nLits, nClauses, nClasses, nLits, nClasses, cl, ws⟩

/-- A block as the AVX2 initialiser allocates it (src/func_avx2.hpp:36-78): literals padded to 32, weights
padded to a multiple of `opv = outputs_per_vector` when `pad_class_weights`. -/
def Flat.avx2 (pad : Bool) (opv nLits nClauses nClasses : Nat) (cl ws : Nat → Int) : Flat :=
  ⟨nLits, nClauses, nClasses, avxMem nLits, if pad then (nClasses / opv + 1) * opv else nClasses, cl, ws⟩

/-- `get_clause_state` (src/aligned_tsetlin_state.hpp:84-97). -/
def Flat.getClauseState (b : Flat) (dst : Nat → Int) (off : Nat) : Nat → Int :=
  (List.range b.nClauses).foldl (fun dst i =>
    let so := i * b.litMem * 2
    let d := (i + off) * b.nLits * 2
    let dst := memcpy dst d b.clauses so b.nLits
    memcpy dst (d + b.nLits) b.clauses (so + b.litMem) b.nLits) dst

/-- `set_clause_state` (src/aligned_tsetlin_state.hpp:99-113). -/
def Flat.setClauseState (b : Flat) (src : Nat → Int) (off : Nat) : Flat :=
  { b with clauses := (List.range b.nClauses).foldl (fun cl i =>
      let so := (i + off) * (b.nLits * 2)
      let d := i * (b.litMem * 2)
      let cl := memcpy cl d src so b.nLits
      memcpy cl (d + b.litMem) src (so + b.nLits) b.nLits) b.clauses }

/-- `set_clause_weights` (src/aligned_tsetlin_state.hpp:115-128). -/
def Flat.setClauseWeights (b : Flat) (src : Nat → Int) (off : Nat) : Flat :=
  { b with weights := (List.range b.nClauses).foldl (fun ws i =>
      memcpy ws (i * b.wMem) src ((i + off) * b.nClasses) b.nClasses) b.weights }

/-- `get_clause_weights` (src/aligned_tsetlin_state.hpp:130-140). -/
def Flat.getClauseWeights (b : Flat) (dst : Nat → Int) (off : Nat) : Nat → Int :=
  (List.range b.nClauses).foldl (fun dst i =>
    memcpy dst ((i + off) * b.nClasses) b.weights (i * b.wMem) b.nClasses) dst

/-- The two C-contiguous numpy arrays of a `DenseState` (green_tsetlin/tsetlin_machine.py:13-28): `c` has
`rows` rows of `2 * nLits` int8, `w` has `rows` rows of `nClasses` int16. -/
structure Arrays where
  rows     : Nat
  nLits    : Nat
  nClasses : Nat
  c        : Nat → Int
  w        : Nat → Int

/-- `DenseState(n_literals, n_clauses, n_classes)` (green_tsetlin/tsetlin_machine.py:22-25). -/
def Arrays.zeros (nLits rows nClasses : Nat) : Arrays := ⟨rows, nLits, nClasses, fun _ => 0, fun _ => 0⟩

/-- The rows of the two arrays, as the rule set compiler reads them (green_tsetlin/ruleset.py:106-147). -/
def Arrays.toDState (a : Arrays) : DState :=
  { nLits := a.nLits, nClasses := a.nClasses
    c := (List.range a.rows).map fun i => (List.range (2 * a.nLits)).map fun j => a.c (i * (2 * a.nLits) + j)
    w := (List.range a.rows).map fun i => (List.range a.nClasses).map fun k => a.w (i * a.nClasses + k) }

/-- The loop of `_load_state_from_backend` (green_tsetlin/tsetlin_machine.py:213-217). -/
def loadLoop : List Flat → Nat → Arrays → Arrays
  | [], _, a => a
  | b :: bs, off, a =>
    loadLoop bs (off + b.nClauses) { a with c := b.getClauseState a.c off, w := b.getClauseWeights a.w off }

/-- The loop of `_save_state_in_backend` (green_tsetlin/tsetlin_machine.py:234-238). -/
def saveLoop : List Flat → Nat → Arrays → List Flat
  | [], _, _ => []
  | b :: bs, off, a => (b.setClauseState a.c off).setClauseWeights a.w off :: saveLoop bs (off + b.nClauses) a

/-- The part of a `TsetlinMachine` that the state transfer uses: its sizes, `_state` and `_cbs`
(green_tsetlin/tsetlin_machine.py:94-127). -/
structure Holder where
  nLits    : Nat
  nClauses : Nat
  nClasses : Nat
  state    : Option Arrays
  cbs      : Option (List Flat)

/-- `_load_state_from_backend` (green_tsetlin/tsetlin_machine.py:201-222): the new machine, and the returned
state when `only_return_copy`. Iterating over `None` raises TypeError. -/
def Holder.loadStateFromBackend (m : Holder) (onlyReturnCopy : Bool) : Except PyErr (Holder × Option Arrays) :=
  let st := if onlyReturnCopy then none else m.state
  let st := st.getD (Arrays.zeros m.nLits m.nClauses m.nClasses)
  match m.cbs with
  | none => .error .typeError
  | some bs =>
    let st := loadLoop bs 0 st
    if onlyReturnCopy then .ok (m, some st) else .ok ({ m with state := some st }, none)

/-- `_save_state_in_backend` (green_tsetlin/tsetlin_machine.py:225-238). -/
def Holder.saveStateInBackend (m : Holder) : Except PyErr Holder :=
  match m.cbs with
  | none => .error .valueError
  | some bs =>
    match m.state with
    | none => .error .valueError
    | some a => .ok { m with cbs := some (saveLoop bs 0 a) }

/-- `load_state` with a state object (green_tsetlin/tsetlin_machine.py:241-254): nothing is checked. -/
def Holder.loadState (m : Holder) (a : Arrays) : Holder := { m with state := some a }

end GT

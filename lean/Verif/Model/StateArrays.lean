import Verif.Model.Files
import Verif.Model.Flat

/-!
# State transfer on checked arrays (src/aligned_tsetlin_state.hpp:84-140, src/clause_block.hpp:126-157,
green_tsetlin/tsetlin_machine.py:13-35, 201-254)

`Verif.Model.Layout` takes the arrays of a state to be C-contiguous, of the right type and large enough. Here a state
holds numpy arrays as the caller made them: any element type, any shape, any strides, possibly a view on a larger buffer.
pybind11 and numpy are modelled by their documented behaviour for `array_t<T>` arguments: an array of the type `T` is
passed as it is, another one is converted into a new array. Accesses outside a buffer and overflow of `int` arithmetic
give `none` (undefined behaviour); a call that returns gives the object as it is afterwards and the exception,
if one was raised. Elements are integers; a floating-point array is modelled for integral values only.
-/

namespace GT
namespace Arr

/-- A two-dimensional numpy array, as passed at green_tsetlin/tsetlin_machine.py:215-216 and 236-237: a window on a buffer.
Offset and strides count elements, not bytes. -/
structure NpMat where
  dtype : DType
  rows  : Nat
  cols  : Nat
  buf   : List Int
  off   : Nat
  rs    : Int
  cs    : Int
deriving DecidableEq, Repr

/-- `a[i, j]` (for the arrays of green_tsetlin/tsetlin_machine.py:24-25). -/
def NpMat.elem (m : NpMat) (i j : Nat) : Option Int := rd m.buf (m.off + m.rs * i + m.cs * j)

/-- `np.zeros(shape=(rows, cols), dtype=...)` (green_tsetlin/tsetlin_machine.py:24-25). -/
def NpMat.zeros (d : DType) (rows cols : Nat) : NpMat := ⟨d, rows, cols, List.replicate (rows * cols) 0, 0, cols, 1⟩

/-- An array read from a `.npz` file in C order (green_tsetlin/tsetlin_machine.py:40, 52-53). An array of more or fewer
dimensions is seen as first dimension × the rest. -/
def NpMat.ofNpy (a : Npy) : NpMat :=
  ⟨a.dtype, a.shape.headD 0, (a.shape.drop 1).foldl (· * ·) 1, a.data, 0, ((a.shape.drop 1).foldl (· * ·) 1 : Nat), 1⟩

/-- Conversion of an integer to an element type (numpy, for src/clause_block.hpp:126-157). -/
def castTo (d : DType) (v : Int) : Int :=
  match d with
  | .int8 => wrap8 v
  | .int16 => wrap16 v
  | _ => v

/-- The array pybind11 makes when the element types differ (for src/clause_block.hpp:126-157): `array_t<T>` without
`c_style` asks numpy to convert and to keep the order of the axes by stride. -/
def NpMat.asType (d : DType) (m : NpMat) : NpMat :=
  if m.cs.natAbs ≤ m.rs.natAbs then
    ⟨d, m.rows, m.cols,
      (List.range m.rows).flatMap fun (i : Nat) => (List.range m.cols).map fun (j : Nat) => castTo d ((m.elem i j).getD 0), 0,
      m.cols, 1⟩
  else
    ⟨d, m.rows, m.cols,
      (List.range m.cols).flatMap fun (j : Nat) => (List.range m.rows).map fun (i : Nat) => castTo d ((m.elem i j).getD 0), 0,
      1, m.rows⟩

/-- The array a parameter `pybind11::array_t<T>` refers to (src/clause_block.hpp:126, 135, 144, 151). -/
def NpMat.pass (d : DType) (m : NpMat) : NpMat := if m.dtype = d then m else m.asType d

/-- `memcpy(&dst[d], &src[s], n)` (used at src/aligned_tsetlin_state.hpp:91-137), element by element. -/
def cpy (dst : List Int) (d : Int) (src : List Int) (s : Int) (n : Nat) : Option (List Int) :=
  forLoop (fun k dst => do
    let v ← rd src (s + k)
    wr dst (d + k) v) n 0 dst

/-- The sizes, strides and arrays of a clause block (src/aligned_tsetlin_state.hpp:16-45): `litMem` is
`num_literals_mem`, `wMem` is `num_class_weights_mem`. -/
structure Blk where
  nLits    : Nat
  nClauses : Nat
  nClasses : Nat
  litMem   : Nat
  wMem     : Nat
  clauses  : List Int
  weights  : List Int
deriving DecidableEq, Repr

/-- One clause of `get_clause_state` (src/aligned_tsetlin_state.hpp:88-95); `base` is where the array starts in its buffer. -/
def Blk.getStateBody (b : Blk) (base off i : Nat) (dst : List Int) : Option (List Int) := do
  let so ← i32 (i * b.litMem)
  let so ← i32 (so * 2)
  let d ← i32 (i + off)
  let d ← i32 (d * b.nLits)
  let d ← i32 (d * 2)
  let dst ← cpy dst (base + d) b.clauses so b.nLits
  let d ← i32 (d + b.nLits)
  let so ← i32 (so + b.litMem)
  cpy dst (base + d) b.clauses so b.nLits

/-- `get_clause_state` (src/aligned_tsetlin_state.hpp:84-97). -/
def Blk.getState (b : Blk) (dst : List Int) (base off : Nat) : Option (List Int) :=
  forLoop (b.getStateBody base off) b.nClauses 0 dst

/-- One clause of `set_clause_state` (src/aligned_tsetlin_state.hpp:104-111). -/
def Blk.setStateBody (b : Blk) (src : List Int) (base off i : Nat) (cl : List Int) : Option (List Int) := do
  let s ← i32 (i + off)
  let w ← i32 (b.nLits * 2)
  let s ← i32 (s * w)
  let w ← i32 (b.litMem * 2)
  let d ← i32 (i * w)
  let cl ← cpy cl d src (base + s) b.nLits
  let d ← i32 (d + b.litMem)
  let s ← i32 (s + b.nLits)
  cpy cl d src (base + s) b.nLits

/-- `set_clause_state` (src/aligned_tsetlin_state.hpp:99-113). -/
def Blk.setState (b : Blk) (src : List Int) (base off : Nat) : Option Blk := do
  return { b with clauses := ← forLoop (b.setStateBody src base off) b.nClauses 0 b.clauses }

/-- One clause of `set_clause_weights` (src/aligned_tsetlin_state.hpp:122-126). -/
def Blk.setWeightsBody (b : Blk) (src : List Int) (base off i : Nat) (ws : List Int) : Option (List Int) := do
  let s ← i32 (i + off)
  let s ← i32 (s * b.nClasses)
  let d ← i32 (i * b.wMem)
  cpy ws d src (base + s) b.nClasses

/-- `set_clause_weights` (src/aligned_tsetlin_state.hpp:115-128). -/
def Blk.setWeights (b : Blk) (src : List Int) (base off : Nat) : Option Blk := do
  return { b with weights := ← forLoop (b.setWeightsBody src base off) b.nClauses 0 b.weights }

/-- One clause of `get_clause_weights` (src/aligned_tsetlin_state.hpp:134-138). -/
def Blk.getWeightsBody (b : Blk) (base off i : Nat) (dst : List Int) : Option (List Int) := do
  let s ← i32 (i * b.wMem)
  let d ← i32 (i + off)
  let d ← i32 (d * b.nClasses)
  cpy dst (base + d) b.weights s b.nClasses

/-- `get_clause_weights` (src/aligned_tsetlin_state.hpp:130-140). -/
def Blk.getWeights (b : Blk) (dst : List Int) (base off : Nat) : Option (List Int) :=
  forLoop (b.getWeightsBody base off) b.nClauses 0 dst

/-- `get_clause_state_npy` (src/clause_block.hpp:126-133): writing into a converted array does not reach the caller's. -/
def Blk.getStateNpy (b : Blk) (a : NpMat) (off : Nat) : Option NpMat := do
  let p := a.pass .int8
  let buf ← b.getState p.buf p.off off
  return if a.dtype = .int8 then { a with buf := buf } else a

/-- `set_clause_state_npy` (src/clause_block.hpp:135-142). -/
def Blk.setStateNpy (b : Blk) (a : NpMat) (off : Nat) : Option Blk :=
  b.setState (a.pass .int8).buf (a.pass .int8).off off

/-- `get_clause_weights_npy` (src/clause_block.hpp:144-149). -/
def Blk.getWeightsNpy (b : Blk) (a : NpMat) (off : Nat) : Option NpMat := do
  let p := a.pass .int16
  let buf ← b.getWeights p.buf p.off off
  return if a.dtype = .int16 then { a with buf := buf } else a

/-- `set_clause_weights_npy` (src/clause_block.hpp:151-156). -/
def Blk.setWeightsNpy (b : Blk) (a : NpMat) (off : Nat) : Option Blk :=
  b.setWeights (a.pass .int16).buf (a.pass .int16).off off

/-- A `DenseState` (green_tsetlin/tsetlin_machine.py:22-28): the arrays of `DenseState()` are `None`. -/
structure St where
  w : Option NpMat
  c : Option NpMat
deriving DecidableEq, Repr

/-- `DenseState(n_literals, n_clauses, n_classes)` (green_tsetlin/tsetlin_machine.py:23-25). -/
def St.zeros (nLits rows nClasses : Nat) : St :=
  ⟨some (NpMat.zeros .int16 rows nClasses), some (NpMat.zeros .int8 rows (nLits * 2))⟩

/-- The loop of `_load_state_from_backend` (green_tsetlin/tsetlin_machine.py:213-217). The arrays are written in place;
`None` is not accepted as an array (TypeError). -/
def loadLoop : List Blk → Nat → St → Option (St × Except PyErr Unit)
  | [], _, st => some (st, .ok ())
  | b :: bs, off, st =>
    match st.c with
    | none => some (st, .error .typeError)
    | some c => do
      let c ← b.getStateNpy c off
      match st.w with
      | none => return ({ st with c := some c }, .error .typeError)
      | some w => do
        let w ← b.getWeightsNpy w off
        loadLoop bs (off + b.nClauses) ⟨some w, some c⟩

/-- The loop of `_save_state_in_backend` (green_tsetlin/tsetlin_machine.py:234-238): `done` are the blocks before. -/
def saveLoop (st : St) (done : List Blk) : List Blk → Nat → Option (List Blk × Except PyErr Unit)
  | [], _ => some (done, .ok ())
  | b :: bs, off =>
    match st.c with
    | none => some (done ++ b :: bs, .error .typeError)
    | some c => do
      let b ← b.setStateNpy c off
      match st.w with
      | none => return (done ++ b :: bs, .error .typeError)
      | some w => do
        let b ← b.setWeightsNpy w off
        saveLoop st (done ++ [b]) bs (off + b.nClauses)

/-- The part of a `TsetlinMachine` that the state transfer uses (green_tsetlin/tsetlin_machine.py:94-127). -/
structure Mach where
  nLits    : Nat
  nClauses : Nat
  nClasses : Nat
  state    : Option St
  cbs      : Option (List Blk)
deriving DecidableEq, Repr

/-- `_load_state_from_backend(only_return_copy=True)` (green_tsetlin/tsetlin_machine.py:201-220): the returned state.
The machine is not touched. -/
def Mach.collectCopy (m : Mach) : Option (Except PyErr St) :=
  match m.cbs with
  | none => some (.error .typeError)
  | some bs => do
    let (st, r) ← loadLoop bs 0 (St.zeros m.nLits m.nClauses m.nClasses)
    match r with
    | .error e => return .error e
    | .ok () => return .ok st

/-- `_load_state_from_backend()` (green_tsetlin/tsetlin_machine.py:201-222): a state the machine already has is written
in place, also when an exception ends the loop. -/
def Mach.collect (m : Mach) : Option (Mach × Except PyErr Unit) :=
  match m.cbs with
  | none => some (m, .error .typeError)
  | some bs =>
    match m.state with
    | none => do
      let (st, r) ← loadLoop bs 0 (St.zeros m.nLits m.nClauses m.nClasses)
      match r with
      | .error e => return (m, .error e)
      | .ok () => return ({ m with state := some st }, .ok ())
    | some st => do
      let (st, r) ← loadLoop bs 0 st
      return ({ m with state := some st }, r)

/-- `_save_state_in_backend` (green_tsetlin/tsetlin_machine.py:225-238). -/
def Mach.restore (m : Mach) : Option (Mach × Except PyErr Unit) :=
  match m.cbs with
  | none => some (m, .error .valueError)
  | some bs =>
    match m.state with
    | none => some (m, .error .valueError)
    | some st => do
      let (bs, r) ← saveLoop st [] bs 0
      return ({ m with cbs := some bs }, r)

/-- `load_state` with a state object (green_tsetlin/tsetlin_machine.py:241-254): nothing is checked. -/
def Mach.loadState (m : Mach) (st : St) : Mach := { m with state := some st }

/-- `load_state` with a path (green_tsetlin/tsetlin_machine.py:251-252, 37-55). -/
def Mach.loadFile (m : Mach) (fs : FS) (path : String) : Mach × Except PyErr Unit :=
  match DenseArr.loadFromFile fs path with
  | .error e => (m, .error e)
  | .ok s => ({ m with state := some ⟨some (NpMat.ofNpy s.w), some (NpMat.ofNpy s.c)⟩ }, .ok ())

/-- What `np.savez` stores of an array (green_tsetlin/tsetlin_machine.py:61): its elements in C order. Arrays with columns one after the other,
which numpy stores in that order, are not modelled. -/
def NpMat.toNpy (m : NpMat) : Option Npy := do
  let xs ← (List.range (m.rows * m.cols)).mapM fun p => m.elem (p / m.cols) (p % m.cols)
  return ⟨m.dtype, [m.rows, m.cols], xs⟩

/-- `self._state.save_to_file(path)` (green_tsetlin/tsetlin_machine.py:57-61, 274). A state without arrays (`DenseState()`) is not modelled. -/
def Mach.writeState (m : Mach) (fs : FS) (path : String) : Option (Mach × FS × Except PyErr Unit) :=
  match m.state with
  | some ⟨some w, some c⟩ => do
    let w ← w.toNpy
    let c ← c.toNpy
    match DenseArr.saveToFile ⟨w, c⟩ fs path with
    | .error e => return (m, fs, .error e)
    | .ok fs' => return (m, fs', .ok ())
  | _ => none

/-- `save_state` (green_tsetlin/tsetlin_machine.py:257-274): without a state it is collected from the blocks first. -/
def Mach.saveFile (m : Mach) (fs : FS) (path : String) : Option (Mach × FS × Except PyErr Unit) :=
  match m.state with
  | some _ => m.writeState fs path
  | none =>
    match m.cbs with
    | none => some (m, fs, .error .valueError)
    | some _ => do
      let (m, r) ← m.collect
      match r with
      | .error e => return (m, fs, .error e)
      | .ok () => m.writeState fs path

end Arr
end GT

import Verif.Model.Data
import Verif.Model.Layout

/-!
# State files (green_tsetlin/tsetlin_machine.py:31-61,241-274)

A `.npz` file is a table of named arrays, the file system a table of files. An array here is its dtype, shape and
elements in C order; numpy's own serialisation is taken to be faithful. A missing file is `FileNotFoundError`
(`osError`), a missing array `KeyError`.
-/

namespace GT

/-- A stored array (green_tsetlin/tsetlin_machine.py:40-55). -/
structure Npy where
  dtype : DType
  shape : List Nat
  data  : List Int
deriving DecidableEq, Repr

/-- The contents of a `.npz` file (green_tsetlin/tsetlin_machine.py:40, 61). -/
abbrev Npz := List (String × Npy)

/-- The file system (green_tsetlin/tsetlin_machine.py:40, 61). -/
abbrev FS := String → Option Npz

/-- `d[name]` (green_tsetlin/tsetlin_machine.py:41-44). -/
def Npz.get (d : Npz) (name : String) : Except PyErr Npy :=
  match d.lookup name with
  | some a => .ok a
  | none => .error .keyError

/-- `file_path.endswith(".npz")` (green_tsetlin/tsetlin_machine.py:38, 58). -/
def isNpz (path : String) : Bool := ".npz".toList.isSuffixOf path.toList

/-- A `DenseState` with its arrays (green_tsetlin/tsetlin_machine.py:13-28). -/
structure DenseArr where
  w : Npy
  c : Npy
deriving DecidableEq, Repr

/-- `DenseState.load_from_file` (green_tsetlin/tsetlin_machine.py:37-55). The messages of lines 47 and 50 index the
new `DenseState` object, which raises `TypeError` before the `ValueError` is made. -/
def DenseArr.loadFromFile (fs : FS) (path : String) : Except PyErr DenseArr :=
  if !isNpz path then .error .valueError
  else match fs path with
    | none => .error .osError
    | some d =>
      match d.get "w" with
      | .error e => .error e
      | .ok w =>
        match w.shape with
        | [] => .error .indexError
        | nw :: _ =>
          match d.get "c" with
          | .error e => .error e
          | .ok c =>
            match c.shape with
            | [] => .error .indexError
            | nc :: _ =>
              if nw ≠ nc then .error .valueError
              else if w.dtype ≠ .int16 then .error .typeError
              else if c.dtype ≠ .int8 then .error .typeError
              else .ok ⟨w, c⟩

/-- `DenseState.save_to_file` (green_tsetlin/tsetlin_machine.py:57-61). -/
def DenseArr.saveToFile (s : DenseArr) (fs : FS) (path : String) : Except PyErr FS :=
  if !isNpz path then .error .valueError
  else .ok fun p => if p = path then some [("w", s.w), ("c", s.c)] else fs p

/-- The argument of `load_state` (green_tsetlin/tsetlin_machine.py:241). -/
inductive PathOrState
  | path (p : String)
  | state (s : DenseArr)

/-- `load_state` (green_tsetlin/tsetlin_machine.py:241-254): the outcome and the machine's `_state` afterwards. -/
def loadState (fs : FS) (st : Option DenseArr) (a : PathOrState) : Except PyErr Unit × Option DenseArr :=
  match a with
  | .path p => match DenseArr.loadFromFile fs p with
    | .error e => (.error e, st)
    | .ok s => (.ok (), some s)
  | .state s => (.ok (), some s)

/-- `save_state` (green_tsetlin/tsetlin_machine.py:257-274): `blocks` is what `_load_state_from_backend` would
collect, if there are blocks. The outcome, the machine's `_state` and the files afterwards. -/
def saveState (fs : FS) (st blocks : Option DenseArr) (path : String) :
    Except PyErr Unit × Option DenseArr × FS :=
  let st' := match st with
    | some s => some s
    | none => blocks
  match st' with
  | none => (.error .valueError, st, fs)
  | some s => match s.saveToFile fs path with
    | .error e => (.error e, some s, fs)
    | .ok fs' => (.ok (), some s, fs')

/-- The arrays of a state collected from blocks, as numpy arrays (green_tsetlin/tsetlin_machine.py:22-25). -/
def Arrays.toDenseArr (a : Arrays) : DenseArr :=
  ⟨⟨.int16, [a.rows, a.nClasses], (List.range (a.rows * a.nClasses)).map a.w⟩,
   ⟨.int8, [a.rows, 2 * a.nLits], (List.range (a.rows * (2 * a.nLits))).map a.c⟩⟩

/-- The loaded arrays as the state transfer reads them (green_tsetlin/tsetlin_machine.py:225-238). -/
def DenseArr.toArrays (nLits nClasses : Nat) (s : DenseArr) : Arrays :=
  ⟨s.w.shape.headD 0, nLits, nClasses, fun p => s.c.data.getD p 0, fun p => s.w.data.getD p 0⟩

end GT

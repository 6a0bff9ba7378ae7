import Verif.Model.CText
import Verif.Model.Files

/-!
# Files that are being written (green_tsetlin/predictor.py:49-62, green_tsetlin/writers/simple_c.py:20-37,
green_tsetlin/writers/topographical_c.py:33-52, green_tsetlin/tsetlin_machine.py:37-61, 257-274)

Writing as a sequence of steps, so that the process can end after any of them. Simplifications: what was written is in
the file in the order it was written (no loss of power); an archive is written as the pieces of a zip file, each as
one step, where a piece cut short counts as not written.
-/

namespace GT
open Spec.CLang

/-- A step of writing a file: opening it for writing, which empties it, or adding to its end
(green_tsetlin/writers/simple_c.py:22-36). -/
inductive FileOp (α : Type)
  | openW
  | put (a : α)
deriving DecidableEq, Repr

/-- The file after a step; `none`: there is no file (green_tsetlin/writers/simple_c.py:22-36). -/
def FileOp.run {α : Type} (f : Option (List α)) : FileOp α → Option (List α)
  | .openW => some []
  | .put a => f.map (· ++ [a])

/-- The file when the process ends after `k` steps (green_tsetlin/writers/simple_c.py:22-36). -/
def fileAfter {α : Type} (ops : List (FileOp α)) (k : Nat) (old : Option (List α)) : Option (List α) :=
  (ops.take k).foldl FileOp.run old

/-- `open(path_to_file, "w")` and the writes (green_tsetlin/writers/simple_c.py:22-36). -/
def writeOps {α : Type} (content : List α) : List (FileOp α) := .openW :: content.map .put

/-- The steps of `export_as_program` on the file (green_tsetlin/predictor.py:49-62): an unknown exporter raises before
the file is opened, and the tree is built before it is opened (green_tsetlin/writers/topographical_c.py:35-36). -/
def exportOps (pick : List Nat → List Nat → List (Nat × List Nat) → Nat × List Nat) (rs : Rules) (fuel : Nat)
    (exporter : String) : List (FileOp Char) :=
  match exportAsProgram pick rs fuel exporter with
  | .ok (some text) => writeOps text
  | _ => []

/-- The pieces of a `.npz` file, which is a zip archive: the header of an entry, its array, and at the end the directory
of the entries (`np.savez`, green_tsetlin/tsetlin_machine.py:61). -/
inductive Piece
  | head (name : String)
  | body (a : Npy)
  | directory (names : List String)
deriving DecidableEq, Repr

/-- `np.savez` (green_tsetlin/tsetlin_machine.py:61): the entries one after another, then the directory. -/
def savezPieces (d : Npz) : List Piece :=
  d.flatMap (fun e => [.head e.1, .body e.2]) ++ [.directory (d.map (·.1))]

/-- The array of an entry (`np.load`, green_tsetlin/tsetlin_machine.py:41). -/
def findEntry (name : String) : List Piece → Option Npy
  | .head n :: .body a :: ps => if n = name then some a else findEntry name ps
  | _ => none

/-- The entries a directory names (`np.load`, green_tsetlin/tsetlin_machine.py:41). -/
def readEntries (ps : List Piece) : List String → Option Npz
  | [] => some []
  | n :: ns => match findEntry n ps, readEntries ps ns with
    | some a, some d => some ((n, a) :: d)
    | _, _ => none

/-- `np.load` (green_tsetlin/tsetlin_machine.py:41): a zip file is read from the directory at its end; without one it
is not a zip file. -/
def readNpz (ps : List Piece) : Option Npz :=
  match ps.getLast? with
  | some (.directory names) => readEntries ps names
  | _ => none

/-- How reading a state fails: an exception of `load_from_file`, or numpy's exception for a file that is not a
complete archive (`BadZipFile`, `EOFError`, `ValueError`) (green_tsetlin/tsetlin_machine.py:37-55). -/
inductive ReadErr
  | py (e : PyErr)
  | notAnArchive
deriving DecidableEq, Repr

/-- Files as they are on disk (green_tsetlin/tsetlin_machine.py:41, 61). -/
abbrev Disk := String → Option (List Piece)

/-- `DenseState.load_from_file` (green_tsetlin/tsetlin_machine.py:37-55) from the disk. -/
def loadFromDisk (disk : Disk) (path : String) : Except ReadErr DenseArr :=
  if !isNpz path then .error (.py .valueError)
  else match disk path with
    | none => .error (.py .osError)
    | some ps => match readNpz ps with
      | none => .error .notAnArchive
      | some d => match DenseArr.loadFromFile (fun _ => some d) path with
        | .error e => .error (.py e)
        | .ok s => .ok s

/-- `load_state` (green_tsetlin/tsetlin_machine.py:241-254) with a path: the outcome and the machine's `_state`
afterwards. -/
def loadStateFromDisk (disk : Disk) (st : Option DenseArr) (path : String) : Except ReadErr Unit × Option DenseArr :=
  match loadFromDisk disk path with
  | .error e => (.error e, st)
  | .ok s => (.ok (), some s)

/-- The disk when the process ends after `k` steps of `DenseState.save_to_file`
(green_tsetlin/tsetlin_machine.py:57-61). -/
def saveToDisk (s : DenseArr) (disk : Disk) (path : String) (k : Nat) : Disk :=
  if !isNpz path then disk
  else fun p => if p = path then fileAfter (writeOps (savezPieces [("w", s.w), ("c", s.c)])) k (disk p) else disk p

end GT

import Verif.Model.Session

/-!
# Input blocks and executor loops of the pure-Python implementation (green_tsetlin/py_gtc)

Arrays are lists of rows; a one-dimensional array of labels has rows of one element. An exception is `none`. As in `Verif.Model.Session`
only what the clause blocks and the feedback block are given is recorded.
-/

namespace GT

/-- A two-dimensional array: number of columns and rows; for labels, `dims` tells one dimension from two (green_tsetlin/py_gtc/dense_input_block.py:22-42). -/
structure PyRows where
  dims : Nat
  cols : Nat
  rows : List (List Nat)

/-- `DenseInputBlock` (green_tsetlin/py_gtc/dense_input_block.py:6-15, 51-53). `None` and attributes not yet set are `none`. -/
structure PyDenseIB where
  nLits     : Nat
  nExamples : Nat
  perEx     : Nat
  data      : Option (List (List Nat))
  labels    : Option (List (List Nat))
  example_  : Option (List Nat)
  label     : Option (List Nat)

/-- Constructor (green_tsetlin/py_gtc/dense_input_block.py:7-15). -/
def PyDenseIB.new (nLits : Nat) : PyDenseIB := ⟨nLits, 0, 0, none, none, none, none⟩

/-- `set_data` (green_tsetlin/py_gtc/dense_input_block.py:22-45): the assignment at the end is made for empty labels too. The first value is whether it raised. -/
def PyDenseIB.setData (b : PyDenseIB) (d : PyRows × PyRows) : Bool × PyDenseIB :=
  let b := { b with nExamples := d.1.rows.length }
  if d.1.cols ≠ b.nLits then (true, b)
  else
    let b := { b with data := some d.1.rows }
    if d.2.rows.length = 0 then (false, { b with labels := some d.2.rows })
    else if d.2.rows.length ≠ b.nExamples then (true, b)
    else (false, { b with perEx := if d.2.dims = 1 then 1 else d.2.cols, labels := some d.2.rows })

/-- `a[i]` of an array of rows, for `i ≥ 0`; `IndexError` past the end (green_tsetlin/py_gtc/dense_input_block.py:51, 53). -/
def pyRow {α : Type} (a : List α) (i : Int) : Option α := if 0 ≤ i then a[i.toNat]? else none

/-- `if self.m_labels is not None: self.m_current_label = self.m_labels[i]` (green_tsetlin/py_gtc/dense_input_block.py:50-51, 171-172). -/
def pyLabel (labels : Option (List (List Nat))) (old : Option (List Nat)) (i : Int) : Option (Option (List Nat)) :=
  match labels with
  | some l => (pyRow l i).map some
  | none => some old

/-- `prepare_example` (green_tsetlin/py_gtc/dense_input_block.py:48-53). -/
def PyDenseIB.prepare (b : PyDenseIB) (i : Int) : Option PyDenseIB := do
  let label ← pyLabel b.labels b.label (i * b.perEx)
  let d ← b.data
  let x ← pyRow d (i * b.perEx)
  return { b with label := label, example_ := some x }

/-- `SparseInpuDenseOutputBlock` (green_tsetlin/py_gtc/dense_input_block.py:125-137). -/
structure PyCsrDenseIB where
  nLits     : Nat
  nExamples : Int
  indices   : List Int
  indptr    : Option (List Int)
  labels    : Option (List (List Nat))
  example_  : List Nat
  label     : Option (List Nat)

/-- Constructor (green_tsetlin/py_gtc/dense_input_block.py:126-136). -/
def PyCsrDenseIB.new (nLits : Nat) : PyCsrDenseIB := ⟨nLits, 0, [], none, none, List.replicate nLits 0, none⟩

/-- CSR arrays with their labels (the arguments of green_tsetlin/py_gtc/dense_input_block.py:142). -/
structure PyCsrData where
  indices : List Int
  indptr  : List Int
  labels  : PyRows

/-- `set_data` (green_tsetlin/py_gtc/dense_input_block.py:142-166). -/
def PyCsrDenseIB.setData (b : PyCsrDenseIB) (d : PyCsrData) : Bool × PyCsrDenseIB :=
  let b := { b with nExamples := (d.indptr.length : Int) - 1, indices := d.indices, indptr := some d.indptr }
  if d.labels.rows.length ≠ 0 ∧ (d.labels.rows.length : Int) ≠ b.nExamples then (true, b)
  else (false, { b with labels := some d.labels.rows })

/-- `self.m_current_example[v] = 1` for the entries (green_tsetlin/py_gtc/dense_input_block.py:178); `IndexError` past the end. Negative column numbers are not modelled. -/
def pySetEntries : List Int → List Nat → Option (List Nat)
  | [], buf => some buf
  | v :: vs, buf => if 0 ≤ v ∧ v.toNat < buf.length then pySetEntries vs (buf.set v.toNat 1) else none

/-- The entries of a row (green_tsetlin/py_gtc/dense_input_block.py:176-178). -/
def pyEntries (indices : List Int) : Nat → Int → Option (List Int)
  | 0, _ => some []
  | r + 1, k => do
    let v ← pyRow indices k
    return v :: (← pyEntries indices r (k + 1))

/-- `prepare_example` (green_tsetlin/py_gtc/dense_input_block.py:169-178). -/
def PyCsrDenseIB.prepare (b : PyCsrDenseIB) (i : Int) : Option PyCsrDenseIB := do
  let label ← pyLabel b.labels b.label i
  let p ← b.indptr
  let stop ← pyRow p (i + 1)
  let start ← pyRow p i
  let vs ← pyEntries b.indices (stop - start).toNat start
  let x ← pySetEntries vs (List.replicate b.example_.length 0)
  return { b with label := label, example_ := x }

/-- `SparseInputBlock` (green_tsetlin/py_gtc/dense_input_block.py:66-77, 90-91, 117). -/
structure PyCsrIB where
  nLits     : Nat
  nExamples : Int
  indices   : List Int
  indptr    : Option (List Int)
  labels    : Option (List (List Nat))
  example_  : Option (List Int)
  label     : Option (List Nat)

/-- Constructor (green_tsetlin/py_gtc/dense_input_block.py:67-76). -/
def PyCsrIB.new (nLits : Nat) : PyCsrIB := ⟨nLits, 0, [], none, none, none, none⟩

/-- `set_data` (green_tsetlin/py_gtc/dense_input_block.py:82-107): column numbers are not compared with the number of literals; the number of labels
per example, which nothing reads, is left out. -/
def PyCsrIB.setData (b : PyCsrIB) (d : PyCsrData) : Bool × PyCsrIB :=
  let b := { b with nExamples := (d.indptr.length : Int) - 1, indices := d.indices, indptr := some d.indptr }
  if d.labels.rows.length ≠ 0 ∧ (d.labels.rows.length : Int) ≠ b.nExamples then (true, b)
  else (false, { b with labels := some d.labels.rows })

/-- `prepare_example` (green_tsetlin/py_gtc/dense_input_block.py:110-117). -/
def PyCsrIB.prepare (b : PyCsrIB) (i : Int) : Option PyCsrIB := do
  let label ← pyLabel b.labels b.label i
  let p ← b.indptr
  let stop ← pyRow p (i + 1)
  let start ← pyRow p i
  let vs ← pyEntries b.indices (stop - start).toNat start
  return { b with label := label, example_ := some vs }

/-- The dense input block as the executor uses it (green_tsetlin/py_gtc/dense_input_block.py:6-63): the current label is a row, read from its beginning. -/
def pyDenseInput : InputOps PyDenseIB (PyRows × PyRows) (List Nat) where
  setData := PyDenseIB.setData
  prepare := PyDenseIB.prepare
  nExamples b := b.nExamples
  lab b := ⟨b.perEx, none, b.label.map (·, 0)⟩
  shown b := b.example_.getD []

/-- CSR data shown to dense clause blocks (green_tsetlin/py_gtc/dense_input_block.py:125-187). -/
def pyCsrDenseInput : InputOps PyCsrDenseIB PyCsrData (List Nat) where
  setData := PyCsrDenseIB.setData
  prepare := PyCsrDenseIB.prepare
  nExamples b := b.nExamples
  lab b := ⟨1, none, b.label.map (·, 0)⟩
  shown b := b.example_

/-- CSR data shown to sparse clause blocks (green_tsetlin/py_gtc/dense_input_block.py:66-124). -/
def pyCsrInput : InputOps PyCsrIB PyCsrData (List Int) where
  setData := PyCsrIB.setData
  prepare := PyCsrIB.prepare
  nExamples b := b.nExamples
  lab b := ⟨1, none, b.label.map (·, 0)⟩
  shown b := b.example_.getD []

/-- `train_slice` of `SingleThreadExecutor` (green_tsetlin/py_gtc/executors.py:55-99): the order is a local variable, unbound unless `start` is 0, and the loop
is over `range(end)`. -/
def pyTrainSlice {S D X : Type} (io : InputOps S D X) (s : S) (start stop : Int) (shuffle : List Nat → List Nat) : Option (S × List (Shown X)) :=
  if start = 0 then
    if io.nExamples s < 0 then none
    else trainWalk io 1 (shuffle (List.range (io.nExamples s).toNat)) stop.toNat 0 s
  else if 0 < stop then none
  else some (s, [])

/-- Calls on a `SingleThreadExecutor` and its input block (green_tsetlin/py_gtc/executors.py:46-119). -/
def pyCall {S D X : Type} (io : InputOps S D X) (s : S) : SessionCall D → Option (S × List (Shown X))
  | .setData d => some ((io.setData s d).2, [])
  | .trainEpoch shuffle => pyTrainSlice io s 0 (io.nExamples s) shuffle
  | .trainSlice a b shuffle => pyTrainSlice io s a b shuffle
  | .evalPredict outLen =>
    if (outLen : Int) ≠ io.nExamples s then some (s, [])
    else evalWalk io outLen 0 s

/-- A history of calls (green_tsetlin/py_gtc/executors.py:46-119). -/
def pyRun {S D X : Type} (io : InputOps S D X) : S → List (SessionCall D) → Option (S × List (Shown X))
  | s, [] => some (s, [])
  | s, c :: cs => do
    let (s, t) ← pyCall io s c
    let (s, ts) ← pyRun io s cs
    return (s, t ++ ts)

/-- Calls on a `MultiThreadExecutor` (green_tsetlin/py_gtc/executors.py:167-231): `train_slice` does nothing, and `eval_predict` takes no output array, so that
calling it with one, as the trainer does (green_tsetlin/trainer.py:323), raises `TypeError`. -/
def pyMultiCall {S D X : Type} (io : InputOps S D X) (s : S) : SessionCall D → Option (S × List (Shown X))
  | .setData d => some ((io.setData s d).2, [])
  | .trainEpoch _ => some (s, [])
  | .trainSlice _ _ _ => some (s, [])
  | .evalPredict _ => none

/-- A history of calls on a `MultiThreadExecutor` (green_tsetlin/py_gtc/executors.py:167-231). -/
def pyMultiRun {S D X : Type} (io : InputOps S D X) : S → List (SessionCall D) → Option (S × List (Shown X))
  | s, [] => some (s, [])
  | s, c :: cs => do
    let (s, t) ← pyMultiCall io s c
    let (s, ts) ← pyMultiRun io s cs
    return (s, t ++ ts)

end GT

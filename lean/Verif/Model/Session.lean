import Verif.Model.Flat

/-!
# Input blocks on their arrays, and the executor that walks over the examples
(src/input_block.hpp, src/executor.hpp)

The functions of `Verif.Model.Input` again, on arrays of definite length. Reading or writing outside an array, reading through a
pointer that was never set, and `int` arithmetic that overflows give `none`. All arrays are C-contiguous (C40 has the others). What the clause
blocks and the feedback block do with an example is left out here; only what they are given is recorded.
-/

namespace GT

/-- A C-contiguous numpy array (the arguments of src/input_block.hpp:106, 176, 275): its shape and its elements. -/
structure NdArr (α : Type) where
  shape : List Nat
  elems : List α

/-- The label members of an input block (src/input_block.hpp:144-150, 308-315): `m_num_labels_per_example`, `m_labels` (`none`: nullptr) and
`m_current_label` (array and offset; `none`: never set). -/
structure LabelMem where
  perEx  : Nat
  labels : Option (List Nat)
  cur    : Option (List Nat × Int)

/-- `m_current_label = &m_labels[index*m_num_labels_per_example]` (src/input_block.hpp:85-86, 164-165, 249-250). -/
def LabelMem.point (l : LabelMem) (i : Int) : Option LabelMem :=
  match l.labels with
  | some a => do return { l with cur := some (a, ← i32 (i * l.perEx)) }
  | none => some l

/-- `m_num_labels_per_example` from the shape of the labels (src/input_block.hpp:131-134, 196-199, 295-298). -/
def labelsPer : List Nat → Nat
  | _ :: k :: _ => k
  | _ => 1

/-- `DenseInputBlock` (src/input_block.hpp:140-151). -/
structure FlatDenseIB where
  nLits     : Nat
  nExamples : Int
  data      : Option (List Nat)
  buffer    : List Nat
  lab       : LabelMem

/-- Constructor (src/input_block.hpp:48-67), for a number of literals whose buffer size fits in an `int`. -/
def FlatDenseIB.new (nLits : Nat) : FlatDenseIB := ⟨nLits, 0, none, List.replicate ((nLits / 32 + 1) * 32) 0, ⟨0, none, none⟩⟩

/-- `DenseInputBlock::set_data` (src/input_block.hpp:106-138) for a two-dimensional array of examples; the first value is whether it threw. -/
def FlatDenseIB.setData (b : FlatDenseIB) (d : NdArr Nat × NdArr Nat) : Bool × FlatDenseIB :=
  let b := { b with nExamples := d.1.shape.headD 0 }
  if d.1.shape.tail.headD 0 ≠ b.nLits then (true, b)
  else
    let b := { b with data := some d.1.elems }
    if d.2.shape.headD 0 = 0 then (false, { b with lab := { b.lab with labels := none } })
    else if (d.2.shape.headD 0 : Int) ≠ b.nExamples then (true, b)
    else (false, { b with lab := { b.lab with perEx := labelsPer d.2.shape, labels := some d.2.elems } })

/-- `memcpy(dst, &a[i], n)` with `n` bytes from an array (src/input_block.hpp:88); `none` when it leaves the array. -/
def copyFrom (a : List Nat) (i : Int) (n : Nat) : Option (List Nat) :=
  if 0 ≤ i ∧ i.toNat + n ≤ a.length then some ((a.drop i.toNat).take n) else none

/-- `DenseInputBlock::prepare_example` (src/input_block.hpp:83-89). -/
def FlatDenseIB.prepare (b : FlatDenseIB) (i : Int) : Option FlatDenseIB := do
  let lab ← b.lab.point i
  let d ← b.data
  let row ← copyFrom d (← i32 (i * b.nLits)) b.nLits
  return { b with lab := lab, buffer := row ++ b.buffer.drop b.nLits }

/-- `SparseInputDenseOutputBlock` (src/input_block.hpp:154-212). -/
structure FlatCsrDenseIB where
  nLits     : Nat
  nExamples : Int
  indices   : List Int
  indptr    : Option (List Int)
  buffer    : List Nat
  lab       : LabelMem

/-- Constructor (src/input_block.hpp:158). -/
def FlatCsrDenseIB.new (nLits : Nat) : FlatCsrDenseIB := ⟨nLits, 0, [], none, List.replicate ((nLits / 32 + 1) * 32) 0, ⟨0, none, none⟩⟩

/-- The arrays of a CSR data set, with 32-bit indices (the arguments of src/input_block.hpp:176, 275). -/
structure CsrData where
  indices : List Int
  indptr  : List Int
  labels  : NdArr Nat

/-- `set_data_sparse` (src/input_block.hpp:176-202) for labels of at least one dimension. -/
def FlatCsrDenseIB.setData (b : FlatCsrDenseIB) (d : CsrData) : Bool × FlatCsrDenseIB :=
  let b := { b with indices := d.indices, indptr := some d.indptr, nExamples := (d.indptr.length : Int) - 1 }
  if (d.labels.shape.headD 0 : Int) ≠ b.nExamples then (true, b)
  else (false, { b with lab := { b.lab with perEx := labelsPer d.labels.shape, labels := some d.labels.elems } })

/-- The entries of a row, read one after the other from `row_iter` on (src/input_block.hpp:170-173, 255-261). -/
def readRow (indices : List Int) : Nat → Int → Option (List Int)
  | 0, _ => some []
  | r + 1, k => do
    let v ← rd indices k
    return v :: (← readRow indices r (k + 1))

/-- The bounds of a row and its entries (src/input_block.hpp:169-170, 254-255). -/
def csrEntries (indices indptr : List Int) (i : Int) : Option (List Int) := do
  let stop ← rd indptr (← i32 (i + 1))
  let start ← rd indptr i
  readRow indices (stop - start).toNat start

/-- `m_current_example[v] = 1` for the entries (src/input_block.hpp:172). -/
def setEntries : List Int → List Nat → Option (List Nat)
  | [], buf => some buf
  | v :: vs, buf => do setEntries vs (← wr buf v 1)

/-- `SparseInputDenseOutputBlock::prepare_example` (src/input_block.hpp:162-174). -/
def FlatCsrDenseIB.prepare (b : FlatCsrDenseIB) (i : Int) : Option FlatCsrDenseIB := do
  let lab ← b.lab.point i
  let p ← b.indptr
  let vs ← csrEntries b.indices p i
  let buf ← setEntries vs (List.replicate b.nLits 0 ++ b.buffer.drop b.nLits)
  return { b with lab := lab, buffer := buf }

/-- `SparseInputBlock` (src/input_block.hpp:216-316). -/
structure FlatCsrIB where
  nLits     : Nat
  nExamples : Int
  indices   : List Int
  indptr    : Option (List Int)
  current   : List Int
  lab       : LabelMem

/-- Constructor (src/input_block.hpp:222-236). -/
def FlatCsrIB.new (nLits : Nat) : FlatCsrIB := ⟨nLits, 0, [], none, [], ⟨0, none, none⟩⟩

/-- `SparseInputBlock::set_data` (src/input_block.hpp:275-302). -/
def FlatCsrIB.setData (b : FlatCsrIB) (d : CsrData) : Bool × FlatCsrIB :=
  let b := { b with indices := d.indices, indptr := some d.indptr, nExamples := (d.indptr.length : Int) - 1 }
  if (d.labels.shape.headD 0 : Int) ≠ b.nExamples then (true, b)
  else (false, { b with lab := { b.lab with perEx := labelsPer d.labels.shape, labels := some d.labels.elems } })

/-- `SparseInputBlock::prepare_example` (src/input_block.hpp:247-263). -/
def FlatCsrIB.prepare (b : FlatCsrIB) (i : Int) : Option FlatCsrIB := do
  let lab ← b.lab.point i
  let p ← b.indptr
  let vs ← csrEntries b.indices p i
  return { b with lab := lab, current := vs }

/-- The virtual functions of an input block that the executor calls, `set_data`, and what `pull_current_example` shows to the clause blocks
(src/input_block.hpp:15-41). -/
structure InputOps (S D X : Type) where
  setData   : S → D → Bool × S
  prepare   : S → Int → Option S
  nExamples : S → Int
  lab       : S → LabelMem
  shown     : S → X

/-- The dense input block (src/input_block.hpp:42-151). -/
def denseInput : InputOps FlatDenseIB (NdArr Nat × NdArr Nat) (List Nat) where
  setData := FlatDenseIB.setData
  prepare := FlatDenseIB.prepare
  nExamples b := b.nExamples
  lab b := b.lab
  shown b := b.buffer.take b.nLits

/-- CSR data shown to dense clause blocks (src/input_block.hpp:154-212). -/
def csrDenseInput : InputOps FlatCsrDenseIB CsrData (List Nat) where
  setData := FlatCsrDenseIB.setData
  prepare := FlatCsrDenseIB.prepare
  nExamples b := b.nExamples
  lab b := b.lab
  shown b := b.buffer.take b.nLits

/-- CSR data shown to sparse clause blocks (src/input_block.hpp:216-316). -/
def csrInput : InputOps FlatCsrIB CsrData (List Int) where
  setData := FlatCsrIB.setData
  prepare := FlatCsrIB.prepare
  nExamples b := b.nExamples
  lab b := b.lab
  shown b := b.current

/-- What the clause blocks and the feedback block are given: an example and its labels in training, an example in evaluation
(src/executor.hpp:116-133, 174-191). -/
inductive Shown (X : Type)
  | trained (x : X) (y : List Nat)
  | evaluated (x : X)
deriving DecidableEq

/-- The labels a feedback block reads through the pointer it is given: `n` is 1, or the number of labels in multi-label mode
(src/feedback_block.hpp:77, 258-279, src/executor.hpp:133; the multi-label code reads only some of them). -/
def readLabels (p : Option (List Nat × Int)) : Nat → Nat → Option (List Nat)
  | 0, _ => some []
  | n + 1, k => do
    let (a, o) ← p
    let y ← rd a (o + k)
    return y :: (← readLabels p n (k + 1))

/-- The input block and `m_index_set` of an executor (src/executor.hpp:238-242). -/
structure Session (S : Type) where
  ib    : S
  index : List Nat

/-- The loop of `train_slice` (src/executor.hpp:111-133): `r` examples from position `i` of the index set. -/
def trainWalk {S D X : Type} (io : InputOps S D X) (nRead : Nat) (index : List Nat) : Nat → Int → S → Option (S × List (Shown X))
  | 0, _, s => some (s, [])
  | r + 1, i, s => do
    let e ← rd index i
    let s ← io.prepare s e
    let y ← readLabels (io.lab s).cur nRead 0
    let (s', tr) ← trainWalk io nRead index r (i + 1) s
    return (s', .trained (io.shown s) y :: tr)

/-- `train_slice` (src/executor.hpp:99-154); `shuffle` is what `std::shuffle` does with the generator's next draws. A negative size of the index set
is an exception. -/
def trainSliceOn {S D X : Type} (io : InputOps S D X) (nRead : Nat) (s : Session S) (start stop : Int) (shuffle : List Nat → List Nat) :
    Option (Session S × List (Shown X)) := do
  let n := io.nExamples s.ib
  if start = 0 ∧ n < 0 then none
  else
    let index := if start = 0 then shuffle (List.range n.toNat) else s.index
    let (ib, tr) ← trainWalk io nRead index (stop - start).toNat start s.ib
    return (⟨ib, index⟩, tr)

/-- The loop of `eval_predict` (src/executor.hpp:171-192); the output array has one element per example. -/
def evalWalk {S D X : Type} (io : InputOps S D X) : Nat → Int → S → Option (S × List (Shown X))
  | 0, _, s => some (s, [])
  | r + 1, i, s => do
    let s ← io.prepare s i
    let (s', tr) ← evalWalk io r (i + 1) s
    return (s', .evaluated (io.shown s) :: tr)

/-- Calls on an executor and its input block (src/executor.hpp:89-195, src/input_block.hpp:106). -/
inductive SessionCall (D : Type)
  | setData (d : D)
  | trainEpoch (shuffle : List Nat → List Nat)
  | trainSlice (start stop : Int) (shuffle : List Nat → List Nat)
  | evalPredict (outLen : Nat)

/-- Effect of one call: the state afterwards, and the examples and labels that were used. `train_epoch` is a slice over all examples
(src/executor.hpp:89-97); `eval_predict` refuses an output array of another length (src/executor.hpp:162-164). -/
def Session.call {S D X : Type} (io : InputOps S D X) (nRead : Nat) (s : Session S) : SessionCall D → Option (Session S × List (Shown X))
  | .setData d => some ({ s with ib := (io.setData s.ib d).2 }, [])
  | .trainEpoch shuffle => trainSliceOn io nRead s 0 (io.nExamples s.ib) shuffle
  | .trainSlice a b shuffle => trainSliceOn io nRead s a b shuffle
  | .evalPredict outLen =>
    if (outLen : Int) ≠ io.nExamples s.ib then some (s, [])
    else do
      let (ib, tr) ← evalWalk io outLen 0 s.ib
      return ({ s with ib := ib }, tr)

/-- A history of calls (src/executor.hpp:89-195). -/
def Session.run {S D X : Type} (io : InputOps S D X) (nRead : Nat) : Session S → List (SessionCall D) → Option (Session S × List (Shown X))
  | s, [] => some (s, [])
  | s, c :: cs => do
    let (s, t) ← s.call io nRead c
    let (s, ts) ← s.run io nRead cs
    return (s, t ++ ts)

/-- The calls `Trainer.train` makes for the given shuffles, one per epoch (green_tsetlin/trainer.py:266, 311-350): data are set before the loop and, if another epoch follows, after
each evaluation. -/
def trainerCalls {D : Type} (train eval : D) (nEval : Nat) : List (List Nat → List Nat) → List (SessionCall D)
  | [] => []
  | sh :: shs => [.setData train, .trainEpoch sh, .setData eval, .evalPredict nEval] ++ trainerCalls train eval nEval shs

end GT

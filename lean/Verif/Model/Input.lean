import Verif.Model.Layout

/-!
# Input blocks and patch extraction (src/input_block.hpp)

Pointers are functions from offsets to values. Reading outside an array is undefined behaviour in C++; here memory is
total and the theorems ask for indices in range. `int` arithmetic does not overflow.
-/

namespace GT

/-- A two-dimensional numpy array of bytes: `mem` is its buffer from the first element on, with the strides (in
elements) that numpy uses to find element `(i, j)` (the argument of src/input_block.hpp:107-140). -/
structure NpArr2 where
  rows : Nat
  cols : Nat
  rowStride : Nat
  colStride : Nat
  mem : Nat → Int

/-- `a[i, j]` (numpy, for the arrays of src/input_block.hpp:107-140). -/
def NpArr2.at (a : NpArr2) (i j : Nat) : Int := a.mem (i * a.rowStride + j * a.colStride)

/-- `a.copy()`: the same elements in C order (green_tsetlin/trainer.py:149, 200). -/
def NpArr2.copy (a : NpArr2) : NpArr2 :=
  ⟨a.rows, a.cols, a.cols, 1, fun p => a.at (p / a.cols) (p % a.cols)⟩

/-- A C-contiguous label array: its shape and buffer (the argument of src/input_block.hpp:107-140). -/
structure LabelArr where
  shape : List Nat
  mem   : Nat → Int

/-- `DenseInputBlock` (src/input_block.hpp:142-151). `example` is the buffer `m_current_example`. -/
structure DenseIB where
  nLits     : Nat
  nExamples : Nat
  perEx     : Nat
  data      : Option (Nat → Int)
  labels    : Option (Nat → Int)
  buffer    : Nat → Int
  label     : Option (Nat → Int)

/-- Constructor (src/input_block.hpp:47-67). The pointer `m_current_label` is left uninitialised there; here it is
`none`. The buffer has `((n / 32) + 1) * 32` bytes, all zeroed. -/
def DenseIB.new (nLits : Nat) : DenseIB := ⟨nLits, 0, 0, none, none, fun _ => 0, none⟩

/-- `DenseInputBlock::set_data` (src/input_block.hpp:107-140). The buffer pointer of the array is kept, its strides are
not looked at. The first value is whether an exception (`RuntimeError`) was thrown. -/
def DenseIB.setData (b : DenseIB) (x : NpArr2) (y : LabelArr) : Bool × DenseIB :=
  let b := { b with nExamples := x.rows }
  if x.cols ≠ b.nLits then (true, b)
  else
    let b := { b with data := some x.mem }
    match y.shape with
    | [] => (false, { b with labels := none })
    | n :: rest =>
      if n = 0 then (false, { b with labels := none })
      else if n ≠ b.nExamples then (true, b)
      else
        let b := { b with perEx := match rest with
          | [] => 1
          | k :: _ => k }
        (false, { b with labels := some y.mem })

/-- `DenseInputBlock::prepare_example` (src/input_block.hpp:83-89). -/
def DenseIB.prepare (b : DenseIB) (i : Nat) : DenseIB :=
  let b := match b.labels with
    | some l => { b with label := some fun k => l (i * b.perEx + k) }
    | none => b
  match b.data with
  | some d => { b with buffer := memcpy b.buffer 0 d (i * b.nLits) b.nLits }
  | none => b

/-- A call on a dense input block (src/input_block.hpp:83-140). -/
inductive DenseCall
  | setData (x : NpArr2) (y : LabelArr)
  | prepare (i : Nat)

/-- The block after a call (src/input_block.hpp:83-140). -/
def DenseIB.call (b : DenseIB) : DenseCall → DenseIB
  | .setData x y => (b.setData x y).2
  | .prepare i => b.prepare i

/-- A `scipy.sparse.csr_matrix`: stored entries `indptr[i] ≤ k < indptr[i+1]` of row `i` have column `indices[k]` and
value `data[k]` (scipy, used at green_tsetlin/trainer.py:445-447). -/
structure Csr where
  rows    : Nat
  cols    : Nat
  indptr  : Nat → Nat
  indices : Nat → Nat
  data    : Nat → Int

/-- `x.indices` and `x.indptr` with 32-bit elements, as `_flexible_set_data` passes them
(green_tsetlin/trainer.py:445-447). The values `x.data` are not passed. -/
structure CsrPtrs where
  indices : Nat → Nat
  indptr  : Nat → Nat
  lenPtr  : Nat

/-- The arrays passed for a matrix (green_tsetlin/trainer.py:447). -/
def Csr.ptrs (x : Csr) : CsrPtrs := ⟨x.indices, x.indptr, x.rows + 1⟩

/-- `SparseInputDenseOutputBlock` (src/input_block.hpp:154-212). -/
structure SparseDenseIB where
  base : DenseIB
  ptrs : Option CsrPtrs

/-- Constructor (src/input_block.hpp:158). -/
def SparseDenseIB.new (nLits : Nat) : SparseDenseIB := ⟨DenseIB.new nLits, none⟩

/-- `set_data_sparse` (src/input_block.hpp:177-203), with labels of at least one dimension. The first value is
whether an exception was thrown. -/
def SparseDenseIB.setData (b : SparseDenseIB) (p : CsrPtrs) (y : LabelArr) : Bool × SparseDenseIB :=
  let b : SparseDenseIB := ⟨{ b.base with nExamples := p.lenPtr - 1 }, some p⟩
  if y.shape.headD 0 ≠ b.base.nExamples then (true, b)
  else
    (false, { b with base := { b.base with
      perEx := match y.shape.tail with
        | [] => 1
        | k :: _ => k
      labels := some y.mem } })

/-- The loop over a row's entries (src/input_block.hpp:169-174). -/
def setOnes (p : CsrPtrs) (i : Nat) (buf : Nat → Int) : Nat → Int :=
  (List.range (p.indptr (i + 1) - p.indptr i)).foldl
    (fun m k => fun a => if a = p.indices (p.indptr i + k) then 1 else m a) buf

/-- `SparseInputDenseOutputBlock::prepare_example` (src/input_block.hpp:162-175). -/
def SparseDenseIB.prepare (b : SparseDenseIB) (i : Nat) : SparseDenseIB :=
  let base := match b.base.labels with
    | some l => { b.base with label := some fun k => l (i * b.base.perEx + k) }
    | none => b.base
  match b.ptrs with
  | some p => { b with base := { base with buffer := setOnes p i (memcpy base.buffer 0 (fun _ => 0) 0 base.nLits) } }
  | none => { b with base := base }

/-- `SparseInputBlock` (src/input_block.hpp:215-316); `current` is the vector `m_current_example`. It does not
override `get_num_labels_per_example`, which stays 0. -/
structure SparseIB where
  nLits     : Nat
  nExamples : Nat
  perEx     : Nat
  ptrs      : Option CsrPtrs
  labels    : Option (Nat → Int)
  current   : List Nat
  label     : Option (Nat → Int)

/-- Constructor (src/input_block.hpp:221-236). -/
def SparseIB.new (nLits : Nat) : SparseIB := ⟨nLits, 0, 0, none, none, [], none⟩

/-- `SparseInputBlock::set_data` (src/input_block.hpp:277-302). -/
def SparseIB.setData (b : SparseIB) (p : CsrPtrs) (y : LabelArr) : Bool × SparseIB :=
  let b := { b with ptrs := some p, nExamples := p.lenPtr - 1 }
  if y.shape.headD 0 ≠ b.nExamples then (true, b)
  else
    (false, { b with
      perEx := match y.shape.tail with
        | [] => 1
        | k :: _ => k
      labels := some y.mem })

/-- `SparseInputBlock::prepare_example` (src/input_block.hpp:247-263). -/
def SparseIB.prepare (b : SparseIB) (i : Nat) : SparseIB :=
  let b := match b.labels with
    | some l => { b with label := some fun k => l (i * b.perEx + k) }
    | none => b
  match b.ptrs with
  | some p =>
    let v := (List.range (p.indptr (i + 1) - p.indptr i)).foldl (fun v k => v ++ [p.indices (p.indptr i + k)]) []
    { b with current := v }
  | none => b

/-- What `static_cast<int32_t*>` makes of an array of non-negative 64-bit integers on a little-endian machine
(src/input_block.hpp:181,187,283,289): pairs of words, low word first. -/
def words64 (a : Nat → Nat) (p : Nat) : Nat := if p % 2 = 0 then a (p / 2) % 2 ^ 32 else a (p / 2) / 2 ^ 32

/-! ### Patches -/

/-- `memset(&out[d], v, n)` (used at src/input_block.hpp:321). -/
def memset (out : Nat → Int) (d : Nat) (v : Int) (n : Nat) : Nat → Int := fun a =>
  if d ≤ a ∧ a < d + n then v else out a

/-- `cumlative_encode` (src/input_block.hpp:319-326). -/
def cumlativeEncode (out : Nat → Int) (d number size : Nat) : Nat → Int :=
  (List.range number).foldl (fun m i => memset m (d + i) 1 1) (memset out d 0 size)

/-- Sizes of a patch extraction (src/input_block.hpp:344-361): `width` and `height` are `shape[1]` and `shape[2]`. The
window is assumed to fit, so that the subtractions are exact. -/
structure Im2col where
  nExamples : Nat
  width     : Nat
  height    : Nat
  channels  : Nat
  pw        : Nat
  ph        : Nat

namespace Im2col
variable (g : Im2col)

/-- `n_patches_y` (src/input_block.hpp:353). -/
def nY : Nat := g.height - g.ph + 1
/-- `n_patches_x` (src/input_block.hpp:354). -/
def nX : Nat := g.width - g.pw + 1
/-- `n_patches` (src/input_block.hpp:355). -/
def nPatches : Nat := g.nX * g.nY
/-- `position_emb_x_size` (src/input_block.hpp:358). -/
def embX : Nat := g.width - g.pw
/-- `position_emb_y_size` (src/input_block.hpp:359). -/
def embY : Nat := g.height - g.ph
/-- `literals_per_patch` (src/input_block.hpp:357-361). -/
def lits : Nat := g.pw * g.ph * g.channels + g.embX + g.embY

/-- The body of the two inner loops (src/input_block.hpp:381-395): writes the patch at `(py, px)` of the image that
starts at `example` to `d`. -/
def writePatch (src : Nat → Int) (ex py px : Nat) (out : Nat → Int) (d : Nat) : Nat → Int :=
  let out := cumlativeEncode out d py g.embY
  let d := d + g.embY
  let out := cumlativeEncode out d px g.embX
  let d := d + g.embX
  ((List.range g.ph).foldl (fun (s : (Nat → Int) × Nat) y =>
    (memcpy s.1 s.2 src (ex + (py + y) * g.width * g.channels + px * g.channels) (g.pw * g.channels),
     s.2 + g.pw * g.channels)) (out, d)).1

/-- The loops over the window positions (src/input_block.hpp:376-399), with the counter `patch_index`. -/
def writeExample (src : Nat → Int) (ex : Nat) (out : Nat → Int) (dst : Nat) : Nat → Int :=
  ((List.range g.nY).foldl (fun (s : (Nat → Int) × Nat) py =>
    (List.range g.nX).foldl (fun (s : (Nat → Int) × Nat) px =>
      (g.writePatch src ex py px s.1 (dst + s.2 * g.lits), s.2 + 1)) s) (out, 0)).1

/-- `tsetlin_im2col` (src/input_block.hpp:328-414): the result array, of shape
`(n_examples, n_patches, literals_per_patch)`; `out` is the allocated memory. -/
def run (src out : Nat → Int) : Nat → Int :=
  (List.range g.nExamples).foldl (fun m e =>
    g.writeExample src (e * (g.width * g.height * g.channels)) m (e * (g.nPatches * g.lits))) out

end Im2col
end GT

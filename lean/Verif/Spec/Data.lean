import Verif.Model.Data

/-! # What good data is (C34) -/

namespace GT.Spec

/-- The examples are a uint8 array, dense or sparse, of `rows` rows and `nLits` columns. -/
def Examples (nLits : Int) (rows : Nat) : XVal → Prop
  | .ndarray a => a.dtype = .uint8 ∧ ∃ cols rest, a.shape = rows :: cols :: rest ∧ (cols : Int) = nLits
  | .csr d r c _ => d = .uint8 ∧ r = rows ∧ (c : Int) = nLits
  | .other => False

/-- The labels are a uint32 array with one entry (or row) per example; a scalar is one label. -/
def Labels (rows : Nat) (y : NArr) : Prop :=
  y.dtype = .uint32 ∧ (y.shape.head?.getD 1 = rows)

/-- Dense and sparse examples are not mixed with each other or with a machine of the other kind: beside a dense array there is only a
dense array, beside a sparse matrix only a sparse matrix, and a sparse machine takes no dense array. -/
def Consistent (held : Option XVal) (sparse : Bool) (x : XVal) : Prop :=
  (∀ a, held = some (.ndarray a) → ∃ a', x = .ndarray a') ∧
  (∀ d r c b, held = some (.csr d r c b) → ∃ d' r' c' b', x = .csr d' r' c' b') ∧
  (sparse = true → ∀ a, x ≠ .ndarray a)

/-- Data that may be set beside `held`. -/
def Good (nLits : Int) (sparse : Bool) (held : Option XVal) (x : XVal) (y : NArr) : Prop :=
  Consistent held sparse x ∧ ∃ rows, Examples nLits rows x ∧ Labels rows y

/-- The elements of an examples value, and what kind, dtype and shape it has. -/
def content (h : Heap) : XVal → Option (Bool × DType × List Nat × List Int)
  | .ndarray a => some (false, a.dtype, a.shape, h.mem a.buf)
  | .csr d r c b => some (true, d, [r, c], h.mem b)
  | .other => none

/-- The elements of the labels, and their dtype and shape, a scalar being an array of one. -/
def labelContent (h : Heap) (y : NArr) : DType × List Nat × List Int :=
  (y.dtype, if y.shape = [] then [1] else y.shape, h.mem y.buf)

/-- Buffers an examples value uses. -/
def xBuf : XVal → Option Nat
  | .ndarray a => some a.buf
  | .csr _ _ _ b => some b
  | .other => none

end GT.Spec

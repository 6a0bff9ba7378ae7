import Verif.Model.Input

/-! # What input blocks and patches should be (C39, C40) -/

namespace GT.Spec

/-- The numpy array is C-contiguous. -/
def CContiguous (x : NpArr2) : Prop := x.rowStride = x.cols ∧ x.colStride = 1

/-- Row `i` of an array. -/
def row (x : NpArr2) (i : Nat) : List Int := (List.range x.cols).map (x.at i)

/-- The literals a clause block of `n` literals sees. -/
def seen (buffer : Nat → Int) (n : Nat) : List Int := (List.range n).map buffer

/-- Labels of the right length: one entry, or one row of `per` entries, per example. -/
def LabelsFor (rows per : Nat) (y : LabelArr) : Prop :=
  0 < rows ∧ ((y.shape = [rows] ∧ per = 1) ∨ ∃ rest, y.shape = rows :: per :: rest)

/-- The label (or labels) of example `i`. -/
def labelRow (y : LabelArr) (per i : Nat) : List Int := (List.range per).map fun k => y.mem (i * per + k)

/-- `(i, j)` is a stored entry, at position `k`. -/
def StoredAt (x : Csr) (i j k : Nat) : Prop := x.indptr i ≤ k ∧ k < x.indptr (i + 1) ∧ x.indices k = j

/-- A canonical 0/1 matrix: every stored value is 1, no entry is stored twice, columns are in range. -/
structure Canonical01 (x : Csr) : Prop where
  ones : ∀ i j k, StoredAt x i j k → x.data k = 1
  once : ∀ i j k k', StoredAt x i j k → StoredAt x i j k' → k = k'
  inRange : ∀ i j k, StoredAt x i j k → j < x.cols

/-- `x.toarray()[i, j]`: the sum of the values stored for `(i, j)`. -/
def csrElem (x : Csr) (i j : Nat) : Int :=
  ((List.range (x.indptr (i + 1) - x.indptr i)).map fun t =>
    if x.indices (x.indptr i + t) = j then x.data (x.indptr i + t) else 0).sum

/-- `x.toarray()[i]`. -/
def csrRow (x : Csr) (i : Nat) : List Int := (List.range x.cols).map (csrElem x i)

/-- `k` ones followed by zeros. -/
def thermometer (k size : Nat) : List Int := (List.range size).map fun i => if i < k then 1 else 0

/-- Element `[e, r, c, ch]` of a C-contiguous array of shape `(_, A, B, C)`. -/
def pixel (A B C : Nat) (src : Nat → Int) (e r c ch : Nat) : Int := src (((e * A + r) * B + c) * C + ch)

/-- The pixels of the window whose corner is at row `py` and column `px`, row by row. -/
def window (img : Nat → Nat → Nat → Int) (ph pw C py px : Nat) : List Int :=
  (List.range ph).flatMap fun y => (List.range pw).flatMap fun x => (List.range C).map fun ch => img (py + y) (px + x) ch

/-- `p`-th patch of example `e` in the result array of shape `(_, nP, L)`. -/
def patch (out : Nat → Int) (nP L e p : Nat) : List Int := (List.range L).map fun j => out ((e * nP + p) * L + j)

end GT.Spec

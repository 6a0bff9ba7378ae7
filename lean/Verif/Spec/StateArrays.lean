import Verif.Model.StateArrays

/-! # What the arrays of a state and the blocks of a machine say about clauses, element by element -/

namespace GT.Spec
open GT.Arr

/-- The array and every element of it lie in its buffer (numpy never makes other arrays). -/
def ValidArray (a : NpMat) : Prop :=
  a.off ≤ a.buf.length ∧ ∀ i j : Nat, i < a.rows → j < a.cols → ∃ v, a.elem i j = some v

/-- The rows are stored one after the other (numpy's `C_CONTIGUOUS`). -/
def RowAfterRow (a : NpMat) : Prop := a.rs = a.cols ∧ a.cs = 1

/-- The value of `a[i, j]`. -/
def valueAt (a : NpMat) (i j : Nat) : Int := (a.elem i j).getD 0

/-- The clauses a state describes for `n` literals and `m` classes: of each row the states of the `n` literals, the
states of the `n` negated literals and the `m` weights. -/
def arrClauses (n m : Nat) (w c : NpMat) : List (List Int × List Int × List Int) :=
  (List.range c.rows).map fun i =>
    ((List.range n).map (fun j => valueAt c i j), (List.range n).map (fun j => valueAt c i (n + j)),
     (List.range m).map (fun k => valueAt w i k))

/-- The clauses a block holds. -/
def heldBy (b : Blk) : List (List Int × List Int × List Int) :=
  (List.range b.nClauses).map fun i =>
    ((List.range b.nLits).map (fun j => b.clauses.getD (i * (2 * b.litMem) + j) 0),
     (List.range b.nLits).map (fun j => b.clauses.getD (i * (2 * b.litMem) + b.litMem + j) 0),
     (List.range b.nClasses).map (fun k => b.weights.getD (i * b.wMem + k) 0))

/-- The clauses of all blocks of a machine, in order. -/
def held (bs : List Blk) : List (List Int × List Int × List Int) := bs.flatMap heldBy

/-- A block of `n` literals and `m` classes with memory for all its rows; row offsets fit in `int`. -/
structure BlockReady (n m : Nat) (b : Blk) : Prop where
  lits    : b.nLits = n
  classes : b.nClasses = m
  litMem  : n ≤ b.litMem
  wMem    : m ≤ b.wMem
  clauses : b.nClauses * (2 * b.litMem) ≤ b.clauses.length
  weights : b.nClauses * b.wMem ≤ b.weights.length
  smallC  : b.nClauses * (2 * b.litMem) < 2147483648
  smallW  : b.nClauses * b.wMem < 2147483648

/-- A machine with allocated blocks that together hold its clauses; a state of its size has offsets that fit in `int`. -/
structure MachineReady (m : Mach) (bs : List Blk) : Prop where
  cbs    : m.cbs = some bs
  blocks : ∀ b ∈ bs, BlockReady m.nLits m.nClasses b
  total  : (bs.map (·.nClauses)).sum = m.nClauses
  small  : m.nClauses < 2147483648
  smallC : m.nClauses * (2 * m.nLits) < 2147483648
  smallW : m.nClauses * m.nClasses < 2147483648

/-- The arrays have the dimensions of the machine. -/
def SameSize (m : Mach) (w c : NpMat) : Prop :=
  c.rows = m.nClauses ∧ c.cols = 2 * m.nLits ∧ w.rows = m.nClauses ∧ w.cols = m.nClasses

/-- Arrays as the library itself makes them: `int8` and `int16`, rows one after the other. -/
def UsualArrays (w c : NpMat) : Prop :=
  c.dtype = .int8 ∧ w.dtype = .int16 ∧ RowAfterRow c ∧ RowAfterRow w ∧ ValidArray c ∧ ValidArray w

/-- An array whose values reach a parameter of element type `d` (with values from `-lim` to `lim - 1`) unchanged: either it has
this type and its rows one after the other, or it has another type, values in range and no transposed strides. -/
def Readable (d : DType) (lim : Int) (a : NpMat) : Prop :=
  ValidArray a ∧
  ((a.dtype = d ∧ RowAfterRow a) ∨
   (a.dtype ≠ d ∧ a.cs.natAbs ≤ a.rs.natAbs ∧
    ∀ i j : Nat, i < a.rows → j < a.cols → -lim ≤ valueAt a i j ∧ valueAt a i j < lim))

/-- `a'` differs from `a` only in the values of its own elements. -/
def OnlyElements (a a' : NpMat) : Prop :=
  a'.dtype = a.dtype ∧ a'.rows = a.rows ∧ a'.cols = a.cols ∧ a'.off = a.off ∧ a'.rs = a.rs ∧ a'.cs = a.cs ∧
  a'.buf.length = a.buf.length ∧
  ∀ p, p < a.off ∨ a.off + a.rows * a.cols ≤ p → a'.buf[p]? = a.buf[p]?

/-- `b'` has the memory of `b`, and differs from `b` at most where the literal states and the weights are: the padding at the end of
each row of literals, at the end of each row of weights and behind the last row is the same. -/
def PaddingKept (b b' : Blk) : Prop :=
  b'.clauses.length = b.clauses.length ∧ b'.weights.length = b.weights.length ∧
  (∀ i h j, i < b.nClauses → h < 2 → b.nLits ≤ j → j < b.litMem →
    b'.clauses[i * (2 * b.litMem) + h * b.litMem + j]? = b.clauses[i * (2 * b.litMem) + h * b.litMem + j]?) ∧
  (∀ p, b.nClauses * (2 * b.litMem) ≤ p → b'.clauses[p]? = b.clauses[p]?) ∧
  (∀ i k, i < b.nClauses → b.nClasses ≤ k → k < b.wMem → b'.weights[i * b.wMem + k]? = b.weights[i * b.wMem + k]?) ∧
  (∀ p, b.nClauses * b.wMem ≤ p → b'.weights[p]? = b.weights[p]?)

/-- The array of a file has two dimensions and all its elements. -/
def WholeArray (a : Npy) (rows cols : Nat) : Prop := a.shape = [rows, cols] ∧ a.data.length = rows * cols

end GT.Spec

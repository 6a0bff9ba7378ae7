import Verif.Model.PredictArray
import Mathlib.Algebra.Order.Floor.Defs
import Mathlib.Data.Rat.Floor

/-!
# `Predictor.predict` on numpy arrays of any shape (green_tsetlin/predictor.py:91-107, src/inference.hpp:85-95)

`Verif.Model.PredictArray` has one-dimensional arrays of integers; here the array has any number of dimensions and may hold
floating-point numbers. numpy's and pybind11's documented behaviour is modelled.
-/

namespace GT

/-- Element types of an example: `uint8`, `bool`, signed integers, floating-point numbers (green_tsetlin/predictor.py:91). -/
inductive NdType
  | u8
  | bool
  | int
  | flt
deriving DecidableEq, Repr

/-- A numpy array: a window on memory with a size and a step for each dimension (green_tsetlin/predictor.py:91-98). Addresses
count elements, not bytes. Infinities and NaN are left out. -/
structure NdArray where
  dtype : NdType
  mem   : Int → Rat
  off   : Int
  dims  : List (Nat × Int)

/-- The addresses of the elements, last index fastest, for the window that starts at `o` (numpy). -/
def ndAddrs : List (Nat × Int) → Int → List Int
  | [], o => [o]
  | d :: ds, o => (List.range d.1).flatMap fun (i : Nat) => ndAddrs ds (o + d.2 * i)

/-- The elements in C order, as `x.ravel()` gives them (numpy, for src/inference.hpp:85). -/
def NdArray.elems (a : NdArray) : List Rat := (ndAddrs a.dims a.off).map a.mem

/-- `x.size` (numpy). -/
def ndSize : List (Nat × Int) → Nat
  | [] => 1
  | d :: ds => d.1 * ndSize ds

/-- The steps are those of a C array; the step of a dimension of size 1 does not matter (numpy's
`_UpdateContiguousFlags`). -/
def ndSteps : List (Nat × Int) → Bool
  | [] => true
  | d :: ds => ndSteps ds && (d.1 == 1 || d.2 == ndSize ds)

/-- `x.flags["C_CONTIGUOUS"]` (green_tsetlin/predictor.py:96): arrays without elements always are. -/
def NdArray.contiguous (a : NdArray) : Bool := ndSize a.dims == 0 || ndSteps a.dims

/-- Conversion of an element to `uint8` (numpy, for green_tsetlin/predictor.py:98 and src/inference.hpp:85): floating-point
numbers lose their fraction; outside the range of `uint8` the result is platform-dependent and modelled modulo 256. -/
def toU8Nd (d : NdType) (v : Rat) : Nat :=
  match d with
  | .bool => if v = 0 then 0 else 1
  | _ => ((if 0 ≤ v then v.floor else -((-v).floor)) % 256).toNat

/-- Leading dimensions of size 1 are dropped when an array is assigned to one of fewer dimensions (numpy). -/
def stripOnes : List (Nat × Int) → List (Nat × Int)
  | [] => []
  | [d] => [d]
  | d :: e :: ds => if d.1 = 1 then stripOnes (e :: ds) else d :: e :: ds

/-- `np.copyto(self.x_copy_mem, x)` (green_tsetlin/predictor.py:98): conversion "of the same kind" only, which excludes signed
and floating-point to unsigned; then the shape must be that of the buffer, or be broadcast to it. -/
def copyToNd (dst : List Nat) (a : NdArray) : Except String (List Nat) :=
  if a.dtype = .int ∨ a.dtype = .flt then .error "TypeError"
  else
    match stripOnes a.dims with
    | [] => .ok (dst.map fun _ => toU8Nd a.dtype (a.mem a.off))
    | [d] =>
      if d.1 = dst.length then .ok (a.elems.map (toU8Nd a.dtype))
      else if d.1 = 1 then .ok (dst.map fun _ => toU8Nd a.dtype (a.mem a.off))
      else .error "ValueError"
    | _ => .error "ValueError"

/-- The `n` bytes `predict_npy` reads (src/inference.hpp:85-95, 128): a `uint8` array is passed as it is, others are converted
into a new array in the same order. The shape is fetched and not looked at; `heap` is what lies behind a converted array. -/
def bytesReadNd (n : Nat) (heap : Nat → Nat) (a : NdArray) : List Nat :=
  (List.range n).map fun (i : Nat) =>
    if a.dtype = .u8 then toU8Nd .u8 (a.mem (a.off + i))
    else ((a.elems.map (toU8Nd a.dtype))[i]?).getD (heap i)

/-- `predict` (green_tsetlin/predictor.py:91-107): an array that is not contiguous goes through the buffer. -/
def ArrayPredictor.predictNd (heap : Nat → Nat) (q : ArrayPredictor) (a : NdArray) :
    ArrayPredictor × Except String Target :=
  if a.contiguous then
    let r := q.p.predict (bytesReadNd q.p.inf.nLits heap a)
    ({ q with p := r.1 }, r.2)
  else
    match copyToNd q.copy a with
    | .error e => (q, .error e)
    | .ok b =>
      let r := q.p.predict b
      ({ p := r.1, copy := b }, r.2)

end GT

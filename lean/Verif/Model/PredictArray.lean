import Verif.Model.Inference

/-!
# `Predictor.predict` on numpy arrays (green_tsetlin/predictor.py:91-107, src/inference.hpp:85-95)

`Verif.Model.Inference` takes the values of an example; here the example is an array in memory, as the caller passes
it. numpy's and pybind11's documented behaviour is modelled for one-dimensional arrays; floating-point arrays and
arrays of more dimensions are in `Verif.Model.PredictNd`.
-/

namespace GT

/-- Element types of an example: `uint8`, `bool` and the signed integers (green_tsetlin/predictor.py:91). -/
inductive ElemType
  | u8
  | bool
  | int
deriving DecidableEq, Repr

/-- A one-dimensional numpy array: a window on memory, with a step that may be negative
(green_tsetlin/predictor.py:91-98). Addresses count elements, not bytes. -/
structure NpArray where
  dtype  : ElemType
  mem    : Int → Int
  off    : Int
  stride : Int
  len    : Nat

/-- `x[i]` (green_tsetlin/predictor.py:91). -/
def NpArray.elem (a : NpArray) (i : Nat) : Int := a.mem (a.off + a.stride * i)

/-- `x.flags["C_CONTIGUOUS"]` (green_tsetlin/predictor.py:96): arrays with at most one element always are. -/
def NpArray.contiguous (a : NpArray) : Bool := a.len ≤ 1 || a.stride == 1

/-- Conversion of an element to `uint8` (numpy, for green_tsetlin/predictor.py:98 and src/inference.hpp:85). -/
def toU8 (d : ElemType) (v : Int) : Nat :=
  match d with
  | .bool => if v = 0 then 0 else 1
  | _ => (v % 256).toNat

/-- `np.copyto(self.x_copy_mem, x)` (green_tsetlin/predictor.py:98): conversion "of the same kind" only, which
excludes signed to unsigned; one element is broadcast, other lengths must match. -/
def copyTo (dst : List Nat) (a : NpArray) : Except String (List Nat) :=
  if a.dtype = .int then .error "TypeError"
  else if a.len = dst.length then .ok ((List.range a.len).map fun i => toU8 a.dtype (a.elem i))
  else if a.len = 1 then .ok (dst.map fun _ => toU8 a.dtype (a.elem 0))
  else .error "ValueError"

/-- The `n` bytes `predict_npy` reads (src/inference.hpp:85-95, 128) when called with an array: a `uint8` array is
passed as it is, others are converted into a new array. Nothing compares the array's length with `n`; `heap` is what
lies behind a converted array. -/
def bytesRead (n : Nat) (heap : Nat → Nat) (a : NpArray) : List Nat :=
  (List.range n).map fun (i : Nat) =>
    if a.dtype = .u8 then toU8 .u8 (a.mem (a.off + i))
    else if i < a.len then toU8 a.dtype (a.elem i)
    else heap i

/-- A predictor with the buffer `x_copy_mem` (green_tsetlin/predictor.py:20, 69). -/
structure ArrayPredictor where
  p    : Predictor
  copy : List Nat
deriving DecidableEq

/-- `from_ruleset` with `_set_ruleset` (green_tsetlin/predictor.py:41-47, 64-69): the buffer has one byte per
literal. -/
def ArrayPredictor.fromRuleset (rs : Rules) (explanation : String) (exclNeg : Bool) : Except String ArrayPredictor :=
  match Predictor.fromRuleset rs explanation exclNeg with
  | .error e => .error e
  | .ok p => .ok ⟨p, List.replicate rs.nLits 0⟩

/-- `predict` (green_tsetlin/predictor.py:91-107): an array that is not contiguous goes through the buffer. -/
def ArrayPredictor.predict (heap : Nat → Nat) (q : ArrayPredictor) (a : NpArray) :
    ArrayPredictor × Except String Target :=
  if a.contiguous then
    let r := q.p.predict (bytesRead q.p.inf.nLits heap a)
    ({ q with p := r.1 }, r.2)
  else
    match copyTo q.copy a with
    | .error e => (q, .error e)
    | .ok b =>
      let r := q.p.predict b
      ({ p := r.1, copy := b }, r.2)

end GT

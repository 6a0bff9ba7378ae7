import Verif.Model.PredictNd
import Verif.Spec.PredictArray

/-! # What the property about arrays of any shape means -/

namespace GT.Spec

/-- The elements of the array, read in order, begin with this example. -/
def BeginsWith (a : NdArray) (x : List Nat) : Prop := ∃ rest : List Rat, a.elems = x.map (fun (v : Nat) => (v : Rat)) ++ rest

/-- The elements of the array, read in order, are exactly this example. -/
def Spells (a : NdArray) (x : List Nat) : Prop := a.elems = x.map (fun (v : Nat) => (v : Rat))

/-- The array is a row: all dimensions but the last have size 1. -/
def IsRow (a : NdArray) : Prop := ∃ ones d, a.dims = ones ++ [d] ∧ ∀ o ∈ ones, o.1 = 1

/-- A call on a predictor whose examples are arrays of any shape. -/
inductive NdCall
  | predict (a : NdArray)
  | other (c : Call)

/-- The predictor after a call. -/
def afterNdCall (heap : Nat → Nat) (q : ArrayPredictor) : NdCall → ArrayPredictor
  | .predict a => (q.predictNd heap a).1
  | .other c => { q with p := afterCall q.p c }

/-- The predictor after a history of calls. -/
def afterNdCalls (heap : Nat → Nat) (q : ArrayPredictor) (cs : List NdCall) : ArrayPredictor :=
  cs.foldl (afterNdCall heap) q

/-- The one-dimensional array as an array of any shape. -/
def asNd (a : NpArray) : NdArray :=
  ⟨match a.dtype with | .u8 => .u8 | .bool => .bool | .int => .int, fun i => (a.mem i : Rat), a.off, [(a.len, a.stride)]⟩

end GT.Spec

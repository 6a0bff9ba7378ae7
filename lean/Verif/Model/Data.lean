import Verif.Model.Config

/-!
# Giving a trainer its data (green_tsetlin/trainer.py:110-213)

A numpy array is its dtype, its shape and the buffer holding its elements; buffers live in a heap, so that sharing
and copying can be told apart. A `csr_matrix` is two-dimensional and its three arrays count as one buffer. Labels
are what `np.asarray` makes of the argument. Any other object has no `shape` attribute.
-/

namespace GT

/-- numpy dtypes (green_tsetlin/trainer.py:152-156, 203-207). -/
inductive DType
  | uint8 | uint32 | int8 | int16 | int64 | float64 | object
deriving DecidableEq, Repr

/-- An array: dtype, shape and buffer (arguments of green_tsetlin/trainer.py:110, 164). -/
structure NArr where
  dtype : DType
  shape : List Nat
  buf   : Nat
deriving DecidableEq, Repr

/-- An argument for the examples (arguments of green_tsetlin/trainer.py:110, 164). -/
inductive XVal
  | ndarray (a : NArr)
  | csr (dtype : DType) (rows cols buf : Nat)
  | other
deriving DecidableEq, Repr

/-- Buffers; `next` is the next free one (numpy's buffers, copied at green_tsetlin/trainer.py:149-150, 200-201). -/
structure Heap where
  next : Nat
  mem  : Nat → List Int

/-- A copy of buffer `b` (green_tsetlin/trainer.py:149-150, 200-201). -/
def Heap.dup (h : Heap) (b : Nat) : Heap × Nat :=
  (⟨h.next + 1, fun a => if a = h.next then h.mem b else h.mem a⟩, h.next)

/-- A program writing `v` into buffer `b` (the caller of green_tsetlin/trainer.py:110-213). -/
def Heap.write (h : Heap) (b : Nat) (v : List Int) : Heap :=
  ⟨h.next, fun a => if a = b then v else h.mem a⟩

/-- `a.copy()` (green_tsetlin/trainer.py:150, 201). -/
def NArr.copy (a : NArr) (h : Heap) : Heap × NArr :=
  let r := h.dup a.buf
  (r.1, { a with buf := r.2 })

/-- `x.copy()`; other objects never get there (green_tsetlin/trainer.py:149, 200). -/
def XVal.copy (x : XVal) (h : Heap) : Heap × XVal :=
  match x with
  | .ndarray a =>
    let r := a.copy h
    (r.1, .ndarray r.2)
  | .csr d n m b =>
    let r := h.dup b
    (r.1, .csr d n m r.2)
  | .other => (h, .other)

/-- `isinstance(x, np.ndarray)` (green_tsetlin/trainer.py:134, 140, 186, 192). -/
def XVal.isNd : XVal → Bool
  | .ndarray _ => true
  | _ => false

/-- `isinstance(x, csr_matrix)` (green_tsetlin/trainer.py:137, 189). -/
def XVal.isCsr : XVal → Bool
  | .csr .. => true
  | _ => false

/-- `x.shape[i]` (green_tsetlin/trainer.py:145, 158, 196, 209). -/
def XVal.dim (x : XVal) (i : Nat) : Except PyErr Nat :=
  match x with
  | .ndarray a => match a.shape[i]? with
    | some n => .ok n
    | none => .error .indexError
  | .csr _ n m _ => match [n, m][i]? with
    | some n => .ok n
    | none => .error .indexError
  | .other => .error .attributeError

/-- `x.dtype` (green_tsetlin/trainer.py:152, 203). -/
def XVal.dtype (x : XVal) : Except PyErr DType :=
  match x with
  | .ndarray a => .ok a.dtype
  | .csr d .. => .ok d
  | .other => .error .attributeError

/-- `np.atleast_1d(y)`: a scalar becomes an array of one element over the same buffer
(green_tsetlin/trainer.py:144, 195). -/
def atleast1d (y : NArr) : NArr := if y.shape = [] then { y with shape := [1] } else y

/-- The trainer's attributes involved (green_tsetlin/trainer.py:66,103-106); `None` initially. -/
structure TData where
  copyTraining : Bool
  xTrain : Option XVal
  yTrain : Option NArr
  xEval  : Option XVal
  yEval  : Option NArr
deriving DecidableEq, Repr

/-- The checks on the types, green_tsetlin/trainer.py:135-142 and 185-192: `held` is the other data set's examples,
`sparse` whether the machine's clause block class is the sparse one. -/
def checkKinds (held : Option XVal) (sparse : Bool) (x : XVal) : Except PyErr Unit :=
  if (held.map XVal.isNd).getD false ∧ ¬ x.isNd then .error .valueError
  else if (held.map XVal.isCsr).getD false ∧ ¬ x.isCsr then .error .valueError
  else if x.isNd ∧ sparse then .error .valueError
  else .ok ()

/-- The checks on dtypes and columns, green_tsetlin/trainer.py:153-160 and 203-210. -/
def checkTypes (nLits : Int) (x : XVal) (y : NArr) : Except PyErr Unit :=
  match x.dtype with
  | .error e => .error e
  | .ok d =>
    if d ≠ .uint8 then .error .valueError
    else if y.dtype ≠ .uint32 then .error .valueError
    else match x.dim 1 with
      | .error e => .error e
      | .ok m => if (m : Int) ≠ nLits then .error .valueError else .ok ()

/-- `set_train_data` (green_tsetlin/trainer.py:110-162): the outcome, the trainer and the heap afterwards. -/
def TData.setTrain (nLits : Int) (sparse : Bool) (t : TData) (h : Heap) (x : XVal) (y : NArr) :
    Except PyErr Unit × TData × Heap :=
  match checkKinds t.xEval sparse x with
  | .error e => (.error e, t, h)
  | .ok () =>
    let y := atleast1d y
    match x.dim 0 with
    | .error e => (.error e, t, h)
    | .ok n =>
      match y.shape with
      | [] => (.error .indexError, t, h)
      | k :: _ =>
        if n ≠ k then (.error .valueError, t, h)
        else
          let cx := if t.copyTraining then x.copy h else (h, x)
          let cy := if t.copyTraining then y.copy cx.1 else (cx.1, y)
          match checkTypes nLits cx.2 cy.2 with
          | .error e => (.error e, t, cy.1)
          | .ok () =>
            let t := { t with xTrain := some cx.2 }
            let t := { t with yTrain := some cy.2 }
            (.ok (), t, cy.1)

/-- `set_eval_data` (green_tsetlin/trainer.py:165-213). -/
def TData.setEval (nLits : Int) (sparse : Bool) (t : TData) (h : Heap) (x : XVal) (y : NArr) :
    Except PyErr Unit × TData × Heap :=
  match checkKinds t.xTrain sparse x with
  | .error e => (.error e, t, h)
  | .ok () =>
    let y := atleast1d y
    match x.dim 0 with
    | .error e => (.error e, t, h)
    | .ok n =>
      match y.shape with
      | [] => (.error .indexError, t, h)
      | k :: _ =>
        if n ≠ k then (.error .valueError, t, h)
        else
          let cx := x.copy h
          let cy := y.copy cx.1
          match checkTypes nLits cx.2 cy.2 with
          | .error e => (.error e, t, cy.1)
          | .ok () =>
            let t := { t with xEval := some cx.2 }
            let t := { t with yEval := some cy.2 }
            (.ok (), t, cy.1)

end GT

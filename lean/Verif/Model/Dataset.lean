import Verif.Model.Config
import Mathlib.Data.Rat.Defs
import Mathlib.Algebra.Order.Field.Rat

/-!
# The XOR data set (green_tsetlin/dataset_generator.py)

Arrays are lists of rows. numpy's generator is a record of functions; what its documentation promises about them is
`Spec.NumpyRandom`. The dtypes of the results, `uint8` and `uint32`, hold all values that occur.
-/

namespace GT

/-- `numpy.random.RandomState` with hidden state `S`: `RandomState(seed)`, `randint(low, high, size=(rows, cols))` and
`random(n)` (used at green_tsetlin/dataset_generator.py:27,32,36,39). -/
structure NpRandom (S : Type) where
  init    : Int → Except PyErr S
  randint : Int → Int → Int → Int → S → Except PyErr (List (List Int) × S)
  random  : Int → S → Except PyErr (List Rat × S)

/-- `np.logical_xor(x[:, 0], x[:, 1])` (green_tsetlin/dataset_generator.py:33,40); with two or more columns, as
line 29 makes sure. -/
def xorColumns (x : List (List Int)) : List Bool := x.map fun r => (r.getD 0 0 != 0) ^^ (r.getD 1 0 != 0)

/-- `train_y[flips] = np.logical_not(train_y[flips])` (green_tsetlin/dataset_generator.py:37). -/
def flipLabels (flips y : List Bool) : List Bool := List.zipWith (fun f b => if f then !b else b) flips y

/-- `y.astype(np.uint32)` (green_tsetlin/dataset_generator.py:42). -/
def labelsOf (y : List Bool) : List Nat := y.map fun b => if b then 1 else 0

/-- `x.astype(np.uint8)` (green_tsetlin/dataset_generator.py:42). -/
def literalsOf (x : List (List Int)) : List (List Nat) := x.map fun r => r.map fun v => (v % 256).toNat

/-- The noise step (green_tsetlin/dataset_generator.py:35-37). -/
def addNoise {S : Type} (np : NpRandom S) (noise : Option Rat) (nTrain : Int) (y : List Bool) (g : S) :
    Except PyErr (List Bool × S) :=
  match noise with
  | none => .ok (y, g)
  | some p =>
    if p > 0 then
      match np.random nTrain g with
      | .error e => .error e
      | .ok (u, g) => .ok (flipLabels (u.map fun v => decide (v < p)) y, g)
    else .ok (y, g)

/-- `xor_dataset` (green_tsetlin/dataset_generator.py:16-42). -/
def xorDataset {S : Type} (np : NpRandom S) (noise : Option Rat) (nTrain nTest nLits seed : Int) :
    Except PyErr (List (List Nat) × List Nat × List (List Nat) × List Nat) :=
  match np.init seed with
  | .error e => .error e
  | .ok g =>
    if nLits < 2 then .error .valueError
    else match np.randint 0 2 nTrain nLits g with
    | .error e => .error e
    | .ok (trainX, g) =>
      match addNoise np noise nTrain (xorColumns trainX) g with
      | .error e => .error e
      | .ok (trainY, g) =>
        match np.randint 0 2 nTest nLits g with
        | .error e => .error e
        | .ok (testX, _) =>
          .ok (literalsOf trainX, labelsOf trainY, literalsOf testX, labelsOf (xorColumns testX))

end GT

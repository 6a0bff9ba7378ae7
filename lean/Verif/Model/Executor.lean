import Verif.Model.Feedback
import Verif.Model.Avx2

/-!
# The executor (src/executor.hpp), single-threaded

Generic in the clause block type `B` and the example type `E`, so that the same loop is instantiated for
the portable and the AVX2 blocks.  The multi-threaded version is in `Verif.Model.Threads`.
-/

namespace GT

/-- What the executor calls on a clause block (src/clause_block.hpp:65-86): `train_example` and
`eval_example` up to the counted votes (`get_class_votes`), `train_update`, `is_trainable`. The example is
what `pull_example` finds in the input block's buffer. -/
structure Backend (B E : Type) where
  trainExample : B → E → B
  evalExample  : B → E → B
  trainUpdate  : B → E → Feedback → B
  votes        : B → List Int
  trainable    : B → Bool

/-- The portable dense block as a backend (src/main.cpp:81-98). Every block is trainable unless `set_trainable` is called on it, which is
modelled in `Verif.Model.Trainable`. -/
def denseBackend : Backend DBlock (List Nat) where
  trainExample b x := b.apply (.trainExample x)
  evalExample b x := b.apply (.evalExample x)
  trainUpdate b x fb := b.apply (.trainUpdate x fb)
  votes b := b.votes
  trainable _ := true

/-- The AVX2 dense block as a backend (src/main.cpp:164-181). -/
def avxBackend : Backend VBlock Mem where
  trainExample b x := b.apply (.trainExample x)
  evalExample b x := b.apply (.evalExample x)
  trainUpdate b x fb := b.apply (.trainUpdate x fb)
  votes b := b.votes
  trainable _ := true

/-- Executor state: the feedback block, the clause blocks and `m_index_set`
(src/executor.hpp:238-252). -/
structure Exec (B : Type) where
  fb     : FB
  blocks : List B
  index  : List Nat

/-- `for(auto cb : m_clause_blocks) cb->train_example()` (or `eval_example`): each block computes and then
registers its votes (src/executor.hpp:120-130, 173-183; src/clause_block.hpp:65-77,187-193). -/
def exampleLoop {B : Type} (f : B → B) (votes : B → List Int) : List B → FB → List B × FB
  | [], fb => ([], fb)
  | b :: bs, fb =>
    let b := f b
    let r := exampleLoop f votes bs (fb.register (votes b))
    (b :: r.1, r.2)

/-- The body of the `train_slice` loop for one prepared example and its label
(src/executor.hpp:113-152). -/
def Exec.trainOne {B E : Type} (be : Backend B E) (smp : List Rat → Rat → Nat) (e : Exec B) (x : E)
    (label : Nat) : Exec B :=
  let r := exampleLoop (be.trainExample · x) be.votes e.blocks e.fb.reset
  let fb := r.2.process smp label
  { e with
    fb := fb
    blocks := r.1.map fun b => if be.trainable b then be.trainUpdate b x fb.feedback else b }

/-- The `train_slice` loop over the given example indices (src/executor.hpp:111-153). An index without data
is undefined behaviour in C++; here it is skipped. -/
def Exec.trainIndices {B E : Type} (be : Backend B E) (smp : List Rat → Rat → Nat) (data : List (E × Nat)) :
    List Nat → Exec B → Exec B
  | [], e => e
  | i :: is, e =>
    match data[i]? with
    | some d => Exec.trainIndices be smp data is (e.trainOne be smp d.1 d.2)
    | none => Exec.trainIndices be smp data is e

/-- `train_slice(start, end)` (src/executor.hpp:99-154): a new shuffle of all indices when `start = 0`,
then the examples at positions `start .. end-1`. `shuffle` is the effect of `std::shuffle` with the
executor's generator. -/
def Exec.trainSlice {B E : Type} (be : Backend B E) (smp : List Rat → Rat → Nat)
    (shuffle : List Nat → List Nat) (data : List (E × Nat)) (start stop : Nat) (e : Exec B) : Exec B :=
  let index := if start = 0 then shuffle (List.range data.length) else e.index
  Exec.trainIndices be smp data ((index.take stop).drop start) { e with index := index }

/-- `train_epoch` (src/executor.hpp:89-97). -/
def Exec.trainEpoch {B E : Type} (be : Backend B E) (smp : List Rat → Rat → Nat)
    (shuffle : List Nat → List Nat) (data : List (E × Nat)) (e : Exec B) : Exec B × Rat :=
  let e := Exec.trainSlice be smp shuffle data 0 data.length { e with fb := e.fb.resetCounter }
  (e, e.fb.accuracy)

/-- The body of the `eval_predict` loop for one prepared example (src/executor.hpp:170-191). -/
def Exec.evalOne {B E : Type} (be : Backend B E) (e : Exec B) (x : E) : Exec B × Nat :=
  let r := exampleLoop (be.evalExample · x) be.votes e.blocks e.fb.reset
  ({ e with fb := r.2, blocks := r.1 }, r.2.predict)

/-- The `eval_predict` loop (src/executor.hpp:170-192). -/
def Exec.evalLoop {B E : Type} (be : Backend B E) : List E → Exec B → Exec B × List Nat
  | [], e => (e, [])
  | x :: xs, e =>
    let r := e.evalOne be x
    let rs := Exec.evalLoop be xs r.1
    (rs.1, r.2 :: rs.2)

/-- `eval_predict` (src/executor.hpp:157-195) into an output array of length `outLen`: refuses (returns
false) when the length is not the number of examples. -/
def Exec.evalPredict {B E : Type} (be : Backend B E) (data : List E) (outLen : Nat) (e : Exec B) :
    Exec B × Option (List Nat) :=
  if outLen ≠ data.length then (e, none)
  else
    let r := Exec.evalLoop be data e
    (r.1, some r.2)

end GT

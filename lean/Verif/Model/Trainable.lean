import Verif.Model.Threads

/-!
# Trainable flags of clause blocks (src/executor.hpp, src/clause_block.hpp, src/main.cpp:407-408)

`cb.set_trainable(flag)` is bound for every clause block. The executor looks at the flags twice: its constructor records the blocks that are
trainable then, and training skips the recorded blocks that are not trainable now.
-/

namespace GT

/-- A clause block and its flag `m_is_trainable` (src/clause_block.hpp:28-29, 87; green_tsetlin/py_gtc/clause_block.py:13, 40-44). -/
structure Flagged (B : Type) where
  block : B
  flag  : Bool

/-- A newly made block is trainable (src/clause_block.hpp:87; green_tsetlin/py_gtc/clause_block.py:13). -/
def Flagged.new {B : Type} (b : B) : Flagged B := ⟨b, true⟩

/-- The executor's data (src/executor.hpp:238-252; green_tsetlin/py_gtc/executors.py:22-29). `recorded` is `m_trainable_clause_blocks`, as positions
in `m_clause_blocks`. One block passed twice is not modelled. -/
structure FExec (B : Type) where
  fb       : FB
  blocks   : List (Flagged B)
  recorded : List Nat
  index    : List Nat

/-- The loop in the constructor (src/executor.hpp:71-84; green_tsetlin/py_gtc/executors.py:31-41), without its checks (C45). -/
def recordLoop {B : Type} : List (Flagged B) → Nat → List Nat → List Nat
  | [], _, acc => acc
  | b :: bs, i, acc => recordLoop bs (i + 1) (if b.flag then acc ++ [i] else acc)

/-- The constructor (src/executor.hpp:32-87; green_tsetlin/py_gtc/executors.py:7-41). -/
def FExec.new {B : Type} (fb : FB) (blocks : List (Flagged B)) : FExec B := ⟨fb, blocks, recordLoop blocks 0 [], []⟩

/-- `set_trainable` on the block at a position (src/clause_block.hpp:28; green_tsetlin/py_gtc/clause_block.py:40-41). -/
def FExec.setTrainable {B : Type} (e : FExec B) (i : Nat) (v : Bool) : FExec B :=
  { e with blocks := e.blocks.modify i fun b => { b with flag := v } }

/-- What a call on a block does to a block with its flag (src/clause_block.hpp:65-86): no call of the executor changes the flag. -/
def Flagged.on {B : Type} (f : B → B) (b : Flagged B) : Flagged B := { b with block := f b.block }

/-- The update loop over the recorded blocks (src/executor.hpp:140-149; green_tsetlin/py_gtc/executors.py:90-99). -/
def updateLoop {B : Type} (f : B → B) : List Nat → List (Flagged B) → List (Flagged B)
  | [], bs => bs
  | i :: is, bs =>
    match bs[i]? with
    | some b => if b.flag then updateLoop f is (bs.set i (b.on f)) else updateLoop f is bs
    | none => updateLoop f is bs

/-- One training example (src/executor.hpp:113-152; green_tsetlin/py_gtc/executors.py:65-99). -/
def FExec.trainOne {B E : Type} (be : Backend B E) (smp : List Rat → Rat → Nat) (e : FExec B) (x : E) (label : Nat) : FExec B :=
  let r := exampleLoop (Flagged.on (be.trainExample · x)) (fun b => be.votes b.block) e.blocks e.fb.reset
  let fb := r.2.process smp label
  { e with fb := fb, blocks := updateLoop (be.trainUpdate · x fb.feedback) e.recorded r.1 }

/-- The `train_slice` loop (src/executor.hpp:111-153). -/
def FExec.trainIndices {B E : Type} (be : Backend B E) (smp : List Rat → Rat → Nat) (data : List (E × Nat)) : List Nat → FExec B → FExec B
  | [], e => e
  | i :: is, e =>
    match data[i]? with
    | some d => FExec.trainIndices be smp data is (e.trainOne be smp d.1 d.2)
    | none => FExec.trainIndices be smp data is e

/-- `train_slice` (src/executor.hpp:99-154). -/
def FExec.trainSlice {B E : Type} (be : Backend B E) (smp : List Rat → Rat → Nat) (shuffle : List Nat → List Nat) (data : List (E × Nat))
    (start stop : Nat) (e : FExec B) : FExec B :=
  let index := if start = 0 then shuffle (List.range data.length) else e.index
  FExec.trainIndices be smp data ((index.take stop).drop start) { e with index := index }

/-- `train_epoch` (src/executor.hpp:89-97). -/
def FExec.trainEpoch {B E : Type} (be : Backend B E) (smp : List Rat → Rat → Nat) (shuffle : List Nat → List Nat) (data : List (E × Nat))
    (e : FExec B) : FExec B × Rat :=
  let e := FExec.trainSlice be smp shuffle data 0 data.length { e with fb := e.fb.resetCounter }
  (e, e.fb.accuracy)

/-- One evaluated example (src/executor.hpp:171-191). -/
def FExec.evalOne {B E : Type} (be : Backend B E) (e : FExec B) (x : E) : FExec B × Nat :=
  let r := exampleLoop (Flagged.on (be.evalExample · x)) (fun b => be.votes b.block) e.blocks e.fb.reset
  ({ e with fb := r.2, blocks := r.1 }, r.2.predict)

/-- The `eval_predict` loop (src/executor.hpp:171-192). -/
def FExec.evalLoop {B E : Type} (be : Backend B E) : List E → FExec B → FExec B × List Nat
  | [], e => (e, [])
  | x :: xs, e =>
    let r := e.evalOne be x
    let rs := FExec.evalLoop be xs r.1
    (rs.1, r.2 :: rs.2)

/-- `eval_predict` (src/executor.hpp:157-195). -/
def FExec.evalPredict {B E : Type} (be : Backend B E) (data : List E) (outLen : Nat) (e : FExec B) : FExec B × Option (List Nat) :=
  if outLen ≠ data.length then (e, none)
  else
    let r := FExec.evalLoop be data e
    (r.1, some r.2)

/-- What a program does with the blocks and the executor (src/main.cpp:407, 431-450; green_tsetlin/py_gtc/executors.py): `rebuild` makes a new
executor for the same blocks with the given feedback block. -/
inductive FCall (E : Type)
  | setTrainable (i : Nat) (v : Bool)
  | slice (shuffle : List Nat → List Nat) (data : List (E × Nat)) (start stop : Nat)
  | epoch (shuffle : List Nat → List Nat) (data : List (E × Nat))
  | eval (data : List E) (outLen : Nat)
  | rebuild (fb : FB)

/-- What the call returns (src/executor.hpp:89-195). -/
inductive FRes
  | none
  | accuracy (r : Rat)
  | predictions (out : Option (List Nat))
deriving DecidableEq

/-- One call (src/executor.hpp:32-195; src/clause_block.hpp:28). -/
def FExec.call {B E : Type} (be : Backend B E) (smp : List Rat → Rat → Nat) (e : FExec B) : FCall E → FExec B × FRes
  | .setTrainable i v => (e.setTrainable i v, .none)
  | .slice sh data a b => (FExec.trainSlice be smp sh data a b e, .none)
  | .epoch sh data => let r := FExec.trainEpoch be smp sh data e; (r.1, .accuracy r.2)
  | .eval data n => let r := FExec.evalPredict be data n e; (r.1, .predictions r.2)
  | .rebuild fb => (FExec.new fb e.blocks, .none)

/-- A program: its calls one after the other, with their results (src/executor.hpp:32-195). -/
def FExec.run {B E : Type} (be : Backend B E) (smp : List Rat → Rat → Nat) : List (FCall E) → FExec B → FExec B × List FRes
  | [], e => (e, [])
  | c :: cs, e =>
    let r := e.call be smp c
    let rs := FExec.run be smp cs r.1
    (rs.1, r.2 :: rs.2)

/-- The tasks of the multi-threaded executor (src/executor.hpp:140-149): an update task is pushed for the blocks that are recorded and trainable.
The first flag says whether the block is recorded. -/
def taskBackend {B E : Type} (be : Backend B E) : Backend (Bool × Flagged B) E where
  trainExample b x := (b.1, b.2.on (be.trainExample · x))
  evalExample b x := (b.1, b.2.on (be.evalExample · x))
  trainUpdate b x fb := (b.1, b.2.on (be.trainUpdate · x fb))
  votes b := be.votes b.2.block
  trainable b := b.1 && b.2.flag

/-- The executor with each block marked as recorded or not, as the thread model takes it (src/executor.hpp:238-252). -/
def FExec.marked {B : Type} (e : FExec B) : Exec (Bool × Flagged B) :=
  ⟨e.fb, e.blocks.mapIdx fun i b => (e.recorded.contains i, b), e.index⟩

end GT

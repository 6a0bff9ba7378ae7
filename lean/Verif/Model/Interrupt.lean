import Verif.Model.Trainer

/-!
# `Trainer.train` with interruptions (green_tsetlin/trainer.py)

The loop of `Verif.Model.Trainer` again, statement by statement on the attributes of the trainer and the machine, so that an exception can
strike between any two of them: from the epoch callback, from the metric, from a call into the backend, or `KeyboardInterrupt`. Calls into the
compiled core are single statements, since Python delivers exceptions only between bytecodes. Local variables are lost with the exception.
The data are dense arrays.
-/

namespace GT

/-- A piece of Python code on attributes `σ`. The number says how many more statements with an effect run before an exception strikes
(`none`: no exception). The outcome has the attributes and, if no exception struck, the value and the number that is left
(green_tsetlin/trainer.py:258-440: any statement can be the last one). -/
abbrev Py (σ α : Type) := σ → Option Nat → σ × Option (α × Option Nat)

/-- Code without an effect on attributes (for example green_tsetlin/trainer.py:292-304, which only sets local variables). -/
def Py.pure {σ α : Type} (a : α) : Py σ α := fun s n => (s, some (a, n))

/-- One statement after the other (green_tsetlin/trainer.py:258-440); after an exception nothing more runs: `train` has no handler. -/
def Py.bind {σ α β : Type} (p : Py σ α) (q : α → Py σ β) : Py σ β := fun s n =>
  match (p s n).2 with
  | none => ((p s n).1, none)
  | some (a, n') => q a (p s n).1 n'

/-- A statement with an effect on attributes (for example green_tsetlin/trainer.py:353), or an exception in its place. -/
def Py.stmt {σ α : Type} (f : σ → σ × α) : Py σ α := fun s n =>
  match n with
  | none => ((f s).1, some ((f s).2, none))
  | some 0 => (s, none)
  | some (n + 1) => ((f s).1, some ((f s).2, some n))

/-- The clause blocks of a machine, `_cbs` (green_tsetlin/tsetlin_machine.py:88, 306): `none` before the first construction; constructed but
without arrays; or initialised, with the executor in the state `s`. -/
inductive Blocks (S : Type)
  | none
  | raw
  | live (s : S)
deriving DecidableEq

/-- The attributes of the trainer and of its machine (green_tsetlin/trainer.py:59-106, green_tsetlin/tsetlin_machine.py:88-89); the settings,
which training does not assign, are in `Settings`. -/
structure Attrs (S St X Y : Type) where
  xTrain   : List X
  yTrain   : List Y
  xEval    : List X
  yEval    : List Y
  best     : Option St
  results  : Option (Results ⊕ FoldResults)
  tmState  : Option St
  blocks   : Blocks S

/-- The settings of a trainer (green_tsetlin/trainer.py:59-79), the backend for given data, and scikit-learn's split of given data. -/
structure Settings (S St X Y : Type) where
  nEpochs  : Int
  earlyAcc : Rat
  loadBest : Bool
  kFolds   : Int
  backend  : List X → List Y → List X → List Y → Env S St
  split    : List X → List Y → List (List Nat × List Nat)

variable {S St X Y : Type}

/-- The backend for the data the trainer holds (green_tsetlin/trainer.py:263-275). -/
def Settings.env (c : Settings S St X Y) (a : Attrs S St X Y) : Env S St := c.backend a.xTrain a.yTrain a.xEval a.yEval

/-- A call of the executor or the input block, which changes the backend's state (green_tsetlin/trainer.py:318, 326, 329). -/
def Attrs.call {α : Type} (f : S → S × α) (d : α) (a : Attrs S St X Y) : Attrs S St X Y × α :=
  match a.blocks with
  | .live s => ({ a with blocks := .live (f s).1 }, (f s).2)
  | _ => (a, d)

/-- The statement that makes the call (green_tsetlin/trainer.py:318, 326, 329). -/
def onBlocks {α : Type} (f : S → S × α) (d : α) : Py (Attrs S St X Y) α := .stmt (Attrs.call f d)

/-- The current state of the blocks, `_load_state_from_backend(only_return_copy=True)` (green_tsetlin/tsetlin_machine.py:201-222). -/
def Attrs.current (env : Env S St) (a : Attrs S St X Y) : Option St :=
  match a.blocks with
  | .live s => some (env.snap s)
  | _ => none

/-- `if eval_score > best_eval_score` with `self._best_tm_state = ...` (green_tsetlin/trainer.py:336-341); the numbers are the local
variables `best_eval_score` and `best_eval_epoch`. -/
def keepBest (c : Settings S St X Y) (env : Env S St) (epoch : Nat) (score : Rat) (b : Rat × Int) : Py (Attrs S St X Y) (Rat × Int) :=
  if score > b.1 then
    if c.loadBest then .stmt fun a => ({ a with best := a.current env }, (score, (epoch : Int)))
    else .pure (score, (epoch : Int))
  else .pure b

/-- `for epoch in range(self.n_epochs)` (green_tsetlin/trainer.py:316-351) with the local variables as results under construction. -/
def epochsPy (c : Settings S St X Y) (env : Env S St) : Nat → Nat → Results → Py (Attrs S St X Y) Results
  | _, 0, r => .pure r
  | epoch, k + 1, r =>
    (onBlocks env.train 0).bind fun acc =>
    (onBlocks (fun s => (env.load .eval s, ())) ()).bind fun _ =>
    (onBlocks env.eval 0).bind fun score =>
    (keepBest c env epoch score (r.bestScore, r.bestEpoch)).bind fun b =>
    let r := { r with nEpochs := r.nEpochs + 1, trainLog := r.trainLog ++ [acc], evalLog := r.evalLog ++ [score],
                      bestScore := b.1, bestEpoch := b.2 }
    if score ≥ c.earlyAcc then .pure { r with early := true }
    else if k = 0 then epochsPy c env (epoch + 1) k r
    else (onBlocks (fun s => (env.load .train s, ())) ()).bind fun _ => epochsPy c env (epoch + 1) k r

/-- The state stored in the machine (green_tsetlin/trainer.py:353-356). -/
def storeState (c : Settings S St X Y) (env : Env S St) : Py (Attrs S St X Y) Unit :=
  .stmt fun a => ({ a with tmState := if c.loadBest then a.best else a.current env }, ())

/-- `_train_inner` (green_tsetlin/trainer.py:258-369): blocks are constructed, then allocated and given the machine's state; the loop; the
state; clean-up at the end of `with`; the results. -/
def trainInnerPy (c : Settings S St X Y) : Py (Attrs S St X Y) Unit := fun a =>
  let env := c.env a
  ((Py.stmt fun a => ({ a with blocks := .raw }, ())).bind fun _ =>
   if c.nEpochs < 1 then .pure ()
   else
    (Py.stmt fun a => ({ a with blocks := .live (env.load .train (env.start a.tmState)) }, ())).bind fun _ =>
    (epochsPy c env 0 c.nEpochs.toNat ⟨-1, -1, 0, [], [], false⟩).bind fun r =>
    (storeState c env).bind fun _ =>
    (Py.stmt fun a => ({ a with blocks := .raw }, ())).bind fun _ =>
    Py.stmt fun a => ({ a with results := some (.inl r) }, ())) a

/-- `set_train_data` and `set_eval_data` with the data of a fold, which pass all checks: four assignments (green_tsetlin/trainer.py:162-163,
214-215, 413-414). -/
def setFold (x : List X) (y : List Y) (f : List Nat × List Nat) : Py (Attrs S St X Y) Unit :=
  (Py.stmt fun a => ({ a with xTrain := gather x f.1 }, ())).bind fun _ =>
  (Py.stmt fun a => ({ a with yTrain := gather y f.1 }, ())).bind fun _ =>
  (Py.stmt fun a => ({ a with xEval := gather x f.2 }, ())).bind fun _ =>
  Py.stmt fun a => ({ a with yEval := gather y f.2 }, ())

/-- `self.results["train_log"]` and the like after a fold (green_tsetlin/trainer.py:418-423); without results, subscripting `None` raises
(an exception at once). -/
def collectFold (r : FoldResults) : Py (Attrs S St X Y) FoldResults := fun a n =>
  match a.results with
  | some (.inl q) => (a, some ({ r with
      trainLog := r.trainLog ++ q.trainLog, evalLog := r.evalLog ++ q.evalLog,
      bestScore := if q.bestScore > r.bestScore then q.bestScore else r.bestScore }, n))
  | some (.inr q) => (a, some ({ r with
      trainLog := r.trainLog ++ q.trainLog, evalLog := r.evalLog ++ q.evalLog,
      bestScore := if q.bestScore > r.bestScore then q.bestScore else r.bestScore }, n))
  | none => (a, none)

/-- The loop over the folds (green_tsetlin/trainer.py:403-425). -/
def foldsPy (c : Settings S St X Y) (x : List X) (y : List Y) :
    List (List Nat × List Nat) → FoldResults → Py (Attrs S St X Y) FoldResults
  | [], r => .pure r
  | f :: fs, r =>
    (setFold x y f).bind fun _ =>
    (trainInnerPy c).bind fun _ =>
    (collectFold r).bind fun r => foldsPy c x y fs r

/-- `train` (green_tsetlin/trainer.py:370-440). -/
def trainPy (c : Settings S St X Y) : Py (Attrs S St X Y) Unit := fun a =>
  if c.kFolds > 1 then
    let x := a.xTrain ++ a.xEval
    let y := a.yTrain ++ a.yEval
    ((foldsPy c x y (c.split x y) ⟨-1, c.kFolds, [], []⟩).bind fun r =>
      Py.stmt fun a => ({ a with results := some (.inr r) }, ())) a
  else trainInnerPy c a

/-- What `save_state` does (green_tsetlin/tsetlin_machine.py:257-274): writes a state, raises `ValueError`, or reads the arrays of blocks that
have none. -/
inductive SaveOutcome (St : Type)
  | written (st : St)
  | valueError
  | undefined

/-- `save_state` (green_tsetlin/tsetlin_machine.py:257-274): without a state it is collected from the blocks, and kept in the machine. -/
def saveStatePy (snap : S → St) (a : Attrs S St X Y) : Attrs S St X Y × SaveOutcome St :=
  match a.tmState with
  | some st => (a, .written st)
  | none => match a.blocks with
    | .none => (a, .valueError)
    | .raw => (a, .undefined)
    | .live s => ({ a with tmState := some (snap s) }, .written (snap s))

end GT

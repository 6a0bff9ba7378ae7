import Verif.Model.Interrupt

/-!
# State objects and who refers to them
(green_tsetlin/tsetlin_machine.py:13-63, 201-286, green_tsetlin/trainer.py:258-440)

In the models of training a state is a value. In Python it is an object with two arrays, which machines, trainers and the user's variables refer
to: nothing is copied when a reference is passed on. Here the objects are on a heap and everything else holds references. A state is the list
of its rows, one for each clause with its weights. Array shapes are not checked here, nor file formats.
-/

namespace GT

/-- A reference to a state object (`self._state`, green_tsetlin/tsetlin_machine.py:89). -/
abbrev Ref := Nat

/-- The state objects, in the order in which they were made (green_tsetlin/tsetlin_machine.py:13-28). -/
abbrev StateHeap (R : Type) := List (List R)

/-- The contents of an object (`state.c` and `state.w`, green_tsetlin/tsetlin_machine.py:22-29). -/
def StateHeap.get {R : Type} (h : StateHeap R) (r : Ref) : List R := h.getD r []

/-- A new `DenseState` (green_tsetlin/tsetlin_machine.py:22-41, 211, 252). -/
def StateHeap.alloc {R : Type} (h : StateHeap R) (rows : List R) : StateHeap R × Ref := (h ++ [rows], h.length)

/-- The rows a block writes at an offset (green_tsetlin/tsetlin_machine.py:215-216). -/
def putRows {R : Type} (old : List R) (off : Nat) (rows : List R) : List R := old.take off ++ rows ++ old.drop (off + rows.length)

/-- `for cb in self._cbs`: every block writes its rows into the arrays of the object (green_tsetlin/tsetlin_machine.py:213-217). -/
def writeParts {R : Type} (r : Ref) : List (List R) → Nat → StateHeap R → StateHeap R
  | [], _, h => h
  | p :: ps, off, h => writeParts r ps (off + p.length) (h.modify r fun old => putRows old off p)

/-- `_load_state_from_backend` (green_tsetlin/tsetlin_machine.py:201-222): into the machine's own object `own` if it has one, unless only a
copy is wanted; otherwise into a new one. -/
def collect {R : Type} (zero : R) (n : Nat) (own : Option Ref) (onlyCopy : Bool) (parts : List (List R)) (h : StateHeap R) : StateHeap R × Ref :=
  let state := if onlyCopy then none else own
  let q := match state with
    | none => h.alloc (List.replicate n zero)
    | some r => (h, r)
  (writeParts q.2 parts 0 q.1, q.2)

/-- The backend of a training run: `start` gets the rows `_save_state_in_backend` copies into the blocks (green_tsetlin/trainer.py:263-290,
green_tsetlin/tsetlin_machine.py:225-238); the rest as in `Env`. -/
structure RunOps (S R : Type) where
  start : Option (List R) → S
  load  : DataSet → S → S
  train : S → S × Rat
  eval  : S → S × Rat

/-- The settings of a trainer (green_tsetlin/trainer.py:59-79), as in `Settings`. -/
structure TrainerCfg (S R X Y : Type) where
  nEpochs  : Int
  earlyAcc : Rat
  loadBest : Bool
  kFolds   : Int
  backend  : List X → List Y → List X → List Y → RunOps S R
  split    : List X → List Y → List (List Nat × List Nat)

/-- What the machines of a program have in common: the row of zeros of a new state, and the rows each block writes, for a backend in the state
`s` (green_tsetlin/tsetlin_machine.py:23-25, 213-217). -/
structure Shop (S R : Type) where
  zero  : R
  parts : S → List (List R)

variable {S R X Y P : Type}

/-- Code that does not touch state objects (for example green_tsetlin/trainer.py:318-329, 412-424). -/
def onAttrs {α : Type} (p : Py (Attrs S Ref X Y) α) : Py (StateHeap R × Attrs S Ref X Y) α := fun s n =>
  ((s.1, (p s.2 n).1), (p s.2 n).2)

/-- `self.tm._load_state_from_backend(only_return_copy=True)` (green_tsetlin/trainer.py:335, 356); without arrays in the blocks nothing is said. -/
def freshCopy (k : Shop S R) (n : Nat) (s : StateHeap R × Attrs S Ref X Y) : StateHeap R × Option Ref :=
  match s.2.blocks with
  | .live b =>
    let q := collect k.zero n s.2.tmState true (k.parts b) s.1
    (q.1, some q.2)
  | _ => (s.1, none)

/-- `if eval_score > best_eval_score` (green_tsetlin/trainer.py:331-335). -/
def keepBestRef (k : Shop S R) (n : Nat) (c : TrainerCfg S R X Y) (epoch : Nat) (score : Rat) (b : Rat × Int) :
    Py (StateHeap R × Attrs S Ref X Y) (Rat × Int) :=
  if score > b.1 then
    if c.loadBest then .stmt fun s =>
      let q := freshCopy k n s
      ((q.1, { s.2 with best := q.2 }), (score, (epoch : Int)))
    else .pure (score, (epoch : Int))
  else .pure b

/-- `for epoch in range(self.n_epochs)` (green_tsetlin/trainer.py:312-350). -/
def epochsRef (k : Shop S R) (n : Nat) (c : TrainerCfg S R X Y) (env : RunOps S R) : Nat → Nat → Results → Py (StateHeap R × Attrs S Ref X Y) Results
  | _, 0, r => .pure r
  | epoch, m + 1, r =>
    (onAttrs (onBlocks env.train 0)).bind fun acc =>
    (onAttrs (onBlocks (fun s => (env.load .eval s, ())) ())).bind fun _ =>
    (onAttrs (onBlocks env.eval 0)).bind fun score =>
    (keepBestRef k n c epoch score (r.bestScore, r.bestEpoch)).bind fun b =>
    let r := { r with nEpochs := r.nEpochs + 1, trainLog := r.trainLog ++ [acc], evalLog := r.evalLog ++ [score],
                      bestScore := b.1, bestEpoch := b.2 }
    if score ≥ c.earlyAcc then .pure { r with early := true }
    else if m = 0 then epochsRef k n c env (epoch + 1) m r
    else (onAttrs (onBlocks (fun s => (env.load .train s, ())) ())).bind fun _ => epochsRef k n c env (epoch + 1) m r

/-- `self.tm._state = ...` (green_tsetlin/trainer.py:353-356): the trainer's object itself, or a new one. -/
def storeRef (k : Shop S R) (n : Nat) (c : TrainerCfg S R X Y) : Py (StateHeap R × Attrs S Ref X Y) Unit :=
  .stmt fun s =>
    if c.loadBest then ((s.1, { s.2 with tmState := s.2.best }), ())
    else
      let q := freshCopy k n s
      ((q.1, { s.2 with tmState := q.2 }), ())

/-- `_train_inner` (green_tsetlin/trainer.py:258-367). -/
def trainInnerRef (k : Shop S R) (n : Nat) (c : TrainerCfg S R X Y) : Py (StateHeap R × Attrs S Ref X Y) Unit := fun s =>
  let env := c.backend s.2.xTrain s.2.yTrain s.2.xEval s.2.yEval
  ((onAttrs (Py.stmt fun a => ({ a with blocks := .raw }, ()))).bind fun _ =>
   if c.nEpochs < 1 then .pure ()
   else
    (Py.stmt fun s => ((s.1, { s.2 with blocks := .live (env.load .train (env.start (s.2.tmState.map s.1.get))) }), ())).bind fun _ =>
    (epochsRef k n c env 0 c.nEpochs.toNat ⟨-1, -1, 0, [], [], false⟩).bind fun r =>
    (storeRef k n c).bind fun _ =>
    (onAttrs (Py.stmt fun a => ({ a with blocks := .raw }, ()))).bind fun _ =>
    onAttrs (Py.stmt fun a => ({ a with results := some (.inl r) }, ()))) s

/-- The loop over the folds (green_tsetlin/trainer.py:403-425). -/
def foldsRef (k : Shop S R) (n : Nat) (c : TrainerCfg S R X Y) (x : List X) (y : List Y) :
    List (List Nat × List Nat) → FoldResults → Py (StateHeap R × Attrs S Ref X Y) FoldResults
  | [], r => .pure r
  | f :: fs, r =>
    (onAttrs (setFold x y f)).bind fun _ =>
    (trainInnerRef k n c).bind fun _ =>
    (onAttrs (collectFold r)).bind fun r => foldsRef k n c x y fs r

/-- `train` (green_tsetlin/trainer.py:370-440). -/
def trainRef (k : Shop S R) (n : Nat) (c : TrainerCfg S R X Y) : Py (StateHeap R × Attrs S Ref X Y) Unit := fun s =>
  if c.kFolds > 1 then
    let x := s.2.xTrain ++ s.2.xEval
    let y := s.2.yTrain ++ s.2.yEval
    ((foldsRef k n c x y (c.split x y) ⟨-1, c.kFolds, [], []⟩).bind fun r =>
      onAttrs (Py.stmt fun a => ({ a with results := some (.inr r) }, ()))) s
  else trainInnerRef k n c s

/-! ## Programs -/

/-- A machine: its number of clauses, `_state` and `_cbs` (green_tsetlin/tsetlin_machine.py:81-89). `St` is what stands for a state. -/
structure Mach1 (S St : Type) where
  n      : Nat
  st     : Option St
  blocks : Blocks S

/-- A trainer: its machine, settings and attributes (green_tsetlin/trainer.py:59-106). -/
structure Train1 (S R St X Y : Type) where
  mach    : Nat
  cfg     : TrainerCfg S R X Y
  xTrain  : List X
  yTrain  : List Y
  xEval   : List X
  yEval   : List Y
  best    : Option St
  results : Option (Results ⊕ FoldResults)

/-- What a program has made: variables that hold states, machines, trainers and state files (green_tsetlin/tsetlin_machine.py:13-89,
green_tsetlin/trainer.py:59-106). -/
structure Made (S R St X Y : Type) where
  vars     : List St
  machines : List (Mach1 S St)
  trainers : List (Train1 S R St X Y)
  files    : String → Option (List R)

/-- The calls a program makes. `machine`, `state`, `trainer`: constructors. `stateOf m`: `s = tm._state`. `copyOf v`: `s.copy()`.
`load`, `loadFile`: `load_state`. `rules`: `get_ruleset` or `get_predictor`. `train` with the statement an exception ends it at, if any.
`write v i row`: the user assigns to a row of the arrays of a state. `refresh m`: the private `_load_state_from_backend()`
(green_tsetlin/tsetlin_machine.py:13-63, 201-286, 322-343, green_tsetlin/trainer.py:45-215, 370). -/
inductive UseCall (S R X Y : Type)
  | machine (n : Nat)
  | state (rows : List R)
  | stateOf (m : Nat)
  | copyOf (v : Nat)
  | load (m v : Nat)
  | loadFile (m : Nat) (path : String)
  | save (m : Nat) (path : String)
  | rules (m : Nat)
  | trainer (m : Nat) (cfg : TrainerCfg S R X Y) (xTrain : List X) (yTrain : List Y) (xEval : List X) (yEval : List Y)
  | data (t : Nat) (xTrain : List X) (yTrain : List Y) (xEval : List X) (yEval : List Y)
  | train (t : Nat) (strike : Option Nat)
  | write (v i : Nat) (row : R)
  | refresh (m : Nat)

/-- What the caller sees of a call: it returned (`train` with the trainer's results), the compiled rules, it raised, or it read arrays that do
not exist (green_tsetlin/tsetlin_machine.py:241-286, green_tsetlin/trainer.py:370). -/
inductive Seen (P : Type)
  | done
  | trained (results : Option (Results ⊕ FoldResults))
  | rules (p : P)
  | raised
  | undefined

/-- The attributes `train` works on (green_tsetlin/trainer.py:59-106, green_tsetlin/tsetlin_machine.py:81-89). -/
def Train1.attrs {St : Type} (t : Train1 S R St X Y) (m : Mach1 S St) : Attrs S St X Y :=
  ⟨t.xTrain, t.yTrain, t.xEval, t.yEval, t.best, t.results, m.st, m.blocks⟩

/-- The trainer and the machine with these attributes (green_tsetlin/trainer.py:59-106, green_tsetlin/tsetlin_machine.py:81-89). -/
def Made.withAttrs {St : Type} (w : Made S R St X Y) (i : Nat) (t : Train1 S R St X Y) (m : Mach1 S St) (a : Attrs S St X Y) : Made S R St X Y :=
  { w with
    trainers := w.trainers.set i { t with xTrain := a.xTrain, yTrain := a.yTrain, xEval := a.xEval, yEval := a.yEval,
                                          best := a.best, results := a.results }
    machines := w.machines.set t.mach { m with st := a.tmState, blocks := a.blocks } }

/-- What the caller of `train` sees (green_tsetlin/trainer.py:370-440). -/
def seenTrain {St : Type} (a : Attrs S St X Y) (r : Option (Unit × Option Nat)) : Seen P :=
  match r with
  | some _ => .trained a.results
  | none => .raised

/-- Another state for a machine (green_tsetlin/tsetlin_machine.py:222, 251-254). -/
def Made.setState {St : Type} (w : Made S R St X Y) (i : Nat) (m : Mach1 S St) (st : St) : Made S R St X Y :=
  { w with machines := w.machines.set i { m with st := some st } }

/-- One call. Names of things that do not exist are a `NameError` (green_tsetlin/tsetlin_machine.py:13-63, 201-286, 322-343,
green_tsetlin/trainer.py:45-215, 370). -/
def useCall (k : Shop S R) (compile : List R → P) (s : StateHeap R × Made S R Ref X Y) :
    UseCall S R X Y → (StateHeap R × Made S R Ref X Y) × Seen P
  | .machine n => ((s.1, { s.2 with machines := s.2.machines ++ [⟨n, none, .none⟩] }), .done)
  | .state rows =>
    let q := s.1.alloc rows
    ((q.1, { s.2 with vars := s.2.vars ++ [q.2] }), .done)
  | .stateOf m =>
    match s.2.machines[m]? with
    | some ⟨_, some r, _⟩ => ((s.1, { s.2 with vars := s.2.vars ++ [r] }), .done)
    | _ => (s, .raised)
  | .copyOf v =>
    match s.2.vars[v]? with
    | some r =>
      let q := s.1.alloc (s.1.get r)
      ((q.1, { s.2 with vars := s.2.vars ++ [q.2] }), .done)
    | none => (s, .raised)
  | .load m v =>
    match s.2.machines[m]?, s.2.vars[v]? with
    | some mc, some r => ((s.1, s.2.setState m mc r), .done)
    | _, _ => (s, .raised)
  | .loadFile m path =>
    match s.2.machines[m]?, s.2.files path with
    | some mc, some rows =>
      let q := s.1.alloc rows
      ((q.1, s.2.setState m mc q.2), .done)
    | _, _ => (s, .raised)
  | .save m path =>
    match s.2.machines[m]? with
    | some ⟨_, some r, _⟩ => ((s.1, { s.2 with files := fun p => if p = path then some (s.1.get r) else s.2.files p }), .done)
    | some ⟨n, none, .live b⟩ =>
      let q := collect k.zero n none false (k.parts b) s.1
      ((q.1, { s.2.setState m ⟨n, none, .live b⟩ q.2 with files := fun p => if p = path then some (q.1.get q.2) else s.2.files p }), .done)
    | some ⟨_, none, .raw⟩ => (s, .undefined)
    | _ => (s, .raised)
  | .rules m =>
    match s.2.machines[m]? with
    | some ⟨_, some r, _⟩ => (s, .rules (compile (s.1.get r)))
    | _ => (s, .raised)
  | .trainer m cfg xt yt xe ye =>
    match s.2.machines[m]? with
    | some _ => ((s.1, { s.2 with trainers := s.2.trainers ++ [⟨m, cfg, xt, yt, xe, ye, none, none⟩] }), .done)
    | none => (s, .raised)
  | .data t xt yt xe ye =>
    match s.2.trainers[t]? with
    | some tr => ((s.1, { s.2 with trainers := s.2.trainers.set t { tr with xTrain := xt, yTrain := yt, xEval := xe, yEval := ye } }), .done)
    | none => (s, .raised)
  | .train t strike =>
    match s.2.trainers[t]? with
    | some tr =>
      match s.2.machines[tr.mach]? with
      | some mc =>
        let r := trainRef k mc.n tr.cfg (s.1, tr.attrs mc) strike
        ((r.1.1, s.2.withAttrs t tr mc r.1.2), seenTrain r.1.2 r.2)
      | none => (s, .raised)
    | none => (s, .raised)
  | .write v i row =>
    match s.2.vars[v]? with
    | some r => ((s.1.modify r (·.set i row), s.2), .done)
    | none => (s, .raised)
  | .refresh m =>
    match s.2.machines[m]? with
    | some ⟨n, st, .live b⟩ =>
      let q := collect k.zero n st false (k.parts b) s.1
      ((q.1, s.2.setState m ⟨n, st, .live b⟩ q.2), .done)
    | some ⟨_, _, .raw⟩ => (s, .undefined)
    | _ => (s, .raised)

/-- The calls of a program, one after the other (a caller that catches exceptions can go on after them)
(green_tsetlin/tsetlin_machine.py:65-343, green_tsetlin/trainer.py:44-440). -/
def useAll (k : Shop S R) (compile : List R → P) : StateHeap R × Made S R Ref X Y → List (UseCall S R X Y) → (StateHeap R × Made S R Ref X Y) × List (Seen P)
  | s, [] => (s, [])
  | s, c :: cs =>
    let q := useCall k compile s c
    let r := useAll k compile q.1 cs
    (r.1, q.2 :: r.2)

end GT

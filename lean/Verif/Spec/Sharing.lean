import Verif.Model.Sharing

/-!
# Specification for C87: everything with a state of its own

The same calls for a reader who does not think about references: a state is a value, and every machine, trainer and variable has its own. What
`train()` does with values is `trainPy`, the subject of C84.
-/

namespace GT.Spec
open GT

variable {S R X Y P : Type}

/-- The rows of all blocks, one after the other; zeros where no block has rows. -/
def allRows (k : Shop S R) (n : Nat) (s : S) : List R := (k.parts s).flatten ++ List.replicate (n - (k.parts s).flatten.length) k.zero

/-- The trainer's settings in the terms of C84. -/
def asSettings (k : Shop S R) (n : Nat) (c : TrainerCfg S R X Y) : Settings S (List R) X Y where
  nEpochs  := c.nEpochs
  earlyAcc := c.earlyAcc
  loadBest := c.loadBest
  kFolds   := c.kFolds
  split    := c.split
  backend  := fun xt yt xe ye =>
    let b := c.backend xt yt xe ye
    { start := b.start, load := b.load, train := b.train, eval := b.eval, snap := allRows k n }

/-- Machine `m` gets the state `rows`. -/
def _root_.GT.Made.give (w : Made S R (List R) X Y) (m : Nat) (mc : Mach1 S (List R)) (rows : List R) : Made S R (List R) X Y :=
  { w with machines := w.machines.set m ⟨mc.n, some rows, mc.blocks⟩ }

/-- A call when everything has its own copy. -/
def ownCall (k : Shop S R) (compile : List R → P) (w : Made S R (List R) X Y) : UseCall S R X Y → Made S R (List R) X Y × Seen P
  | .machine n => ({ w with machines := w.machines ++ [⟨n, none, .none⟩] }, .done)
  | .state rows => ({ w with vars := w.vars ++ [rows] }, .done)
  | .stateOf m =>
    match w.machines[m]? with
    | some ⟨_, some v, _⟩ => ({ w with vars := w.vars ++ [v] }, .done)
    | _ => (w, .raised)
  | .copyOf v =>
    match w.vars[v]? with
    | some rows => ({ w with vars := w.vars ++ [rows] }, .done)
    | none => (w, .raised)
  | .load m v =>
    match w.machines[m]?, w.vars[v]? with
    | some mc, some rows => (w.give m mc rows, .done)
    | _, _ => (w, .raised)
  | .loadFile m path =>
    match w.machines[m]?, w.files path with
    | some mc, some rows => (w.give m mc rows, .done)
    | _, _ => (w, .raised)
  | .save m path =>
    match w.machines[m]? with
    | some ⟨_, some rows, _⟩ => ({ w with files := fun p => if p = path then some rows else w.files p }, .done)
    | some ⟨n, none, .live s⟩ =>
      ({ w.give m ⟨n, none, .live s⟩ (allRows k n s) with files := fun p => if p = path then some (allRows k n s) else w.files p }, .done)
    | some ⟨_, none, .raw⟩ => (w, .undefined)
    | _ => (w, .raised)
  | .rules m =>
    match w.machines[m]? with
    | some ⟨_, some rows, _⟩ => (w, .rules (compile rows))
    | _ => (w, .raised)
  | .trainer m cfg xt yt xe ye =>
    match w.machines[m]? with
    | some _ => ({ w with trainers := w.trainers ++ [⟨m, cfg, xt, yt, xe, ye, none, none⟩] }, .done)
    | none => (w, .raised)
  | .data t xt yt xe ye =>
    match w.trainers[t]? with
    | some tr => ({ w with trainers := w.trainers.set t { tr with xTrain := xt, yTrain := yt, xEval := xe, yEval := ye } }, .done)
    | none => (w, .raised)
  | .train t strike =>
    match w.trainers[t]? with
    | some tr =>
      match w.machines[tr.mach]? with
      | some mc =>
        let r := trainPy (asSettings k mc.n tr.cfg) ⟨tr.xTrain, tr.yTrain, tr.xEval, tr.yEval, tr.best, tr.results, mc.st, mc.blocks⟩ strike
        ({ w with
            machines := w.machines.set tr.mach ⟨mc.n, r.1.tmState, r.1.blocks⟩
            trainers := w.trainers.set t ⟨tr.mach, tr.cfg, r.1.xTrain, r.1.yTrain, r.1.xEval, r.1.yEval, r.1.best, r.1.results⟩ },
         if r.2.isSome then .trained r.1.results else .raised)
      | none => (w, .raised)
    | none => (w, .raised)
  | .write v i row =>
    match w.vars[v]? with
    | some rows => ({ w with vars := w.vars.set v (rows.set i row) }, .done)
    | none => (w, .raised)
  | .refresh m =>
    match w.machines[m]? with
    | some ⟨n, st, .live s⟩ => (w.give m ⟨n, st, .live s⟩ (allRows k n s), .done)
    | some ⟨_, _, .raw⟩ => (w, .undefined)
    | _ => (w, .raised)

/-- A whole program when everything has its own copy. -/
def ownAll (k : Shop S R) (compile : List R → P) : Made S R (List R) X Y → List (UseCall S R X Y) → Made S R (List R) X Y × List (Seen P)
  | w, [] => (w, [])
  | w, c :: cs => ((ownAll k compile (ownCall k compile w c).1 cs).1, (ownCall k compile w c).2 :: (ownAll k compile (ownCall k compile w c).1 cs).2)

/-- Calls of the public interface: no assignment to the arrays of a state, no private methods. -/
def publicCall : UseCall S R X Y → Bool
  | .write _ _ _ => false
  | .refresh _ => false
  | _ => true

/-- Nothing made yet. -/
def nothing {St : Type} : Made S R St X Y := ⟨[], [], [], fun _ => none⟩

/-- What the references of a program stand for. -/
def valuesOf (h : StateHeap R) (w : Made S R Ref X Y) : Made S R (List R) X Y where
  vars     := w.vars.map fun r => h.getD r []
  machines := w.machines.map fun m => ⟨m.n, m.st.map fun r => h.getD r [], m.blocks⟩
  trainers := w.trainers.map fun t => ⟨t.mach, t.cfg, t.xTrain, t.yTrain, t.xEval, t.yEval, t.best.map fun r => h.getD r [], t.results⟩
  files    := w.files

/-- Every reference is to an object that exists. -/
def References (h : StateHeap R) (w : Made S R Ref X Y) : Prop :=
  (∀ r ∈ w.vars, r < h.length) ∧ (∀ m ∈ w.machines, ∀ r ∈ m.st, r < h.length) ∧ (∀ t ∈ w.trainers, ∀ r ∈ t.best, r < h.length)

/-- The two machines refer to the same object. -/
def Shares (w : Made S R Ref X Y) (i j : Nat) : Prop :=
  i ≠ j ∧ ∃ m m' r, w.machines[i]? = some m ∧ w.machines[j]? = some m' ∧ m.st = some r ∧ m'.st = some r

end GT.Spec

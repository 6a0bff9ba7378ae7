import Verif.Model.Executor
import Verif.Model.Config

/-!
# The training loop (green_tsetlin/trainer.py)

What the loop calls — the executor with its clause blocks, input block and generators, and the metric — is a
record `Env` of functions on a hidden state `S`; `St` is the type of state snapshots. `execEnv` below is the
instance for the portable backend. Timing, the progress bar and the epoch callback are left out. Metric values
are exact rationals, so that NaN is not modelled.
-/

namespace GT

/-- The two data sets a `Trainer` holds (green_tsetlin/trainer.py:103-106). -/
inductive DataSet
  | train
  | eval
deriving DecidableEq, Repr

/-- What `_train_inner` works with: `start` constructs, allocates and seeds the blocks and, given a state, saves
it in them (green_tsetlin/trainer.py:270-290); `load` is `_flexible_set_data`; `train` is `train_epoch`; `eval` is
`eval_predict` followed by the metric; `snap` is `_load_state_from_backend(only_return_copy=True)`. -/
structure Env (S St : Type) where
  start : Option St → S
  load  : DataSet → S → S
  train : S → S × Rat
  eval  : S → S × Rat
  snap  : S → St

/-- The dictionary of results (green_tsetlin/trainer.py:357-365), without the times. -/
structure Results where
  bestScore : Rat
  bestEpoch : Int
  nEpochs   : Nat
  trainLog  : List Rat
  evalLog   : List Rat
  early     : Bool
deriving DecidableEq, Repr

/-- The attributes of `Trainer` that training uses (green_tsetlin/trainer.py:59-79). -/
structure Trainer (St : Type) where
  nEpochs   : Int
  earlyAcc  : Rat
  loadBest  : Bool
  bestState : Option St
  results   : Option Results

/-- The local variables of the loop (green_tsetlin/trainer.py:299-308) and `self._best_tm_state`. -/
structure LoopVars (S St : Type) where
  s         : S
  nTrained  : Nat
  best      : Rat
  bestEpoch : Int
  trainLog  : List Rat
  evalLog   : List Rat
  early     : Bool
  bestState : Option St

/-- `for epoch in range(self.n_epochs)` (green_tsetlin/trainer.py:316-349); the second number is how many epochs
are left. -/
def epochLoop {S St : Type} (env : Env S St) (loadBest : Bool) (earlyAcc : Rat) :
    Nat → Nat → LoopVars S St → LoopVars S St
  | _, 0, l => l
  | epoch, r + 1, l =>
    let t := env.train l.s
    let e := env.eval (env.load .eval t.1)
    let l := { l with s := e.1, nTrained := l.nTrained + 1, trainLog := l.trainLog ++ [t.2],
                      evalLog := l.evalLog ++ [e.2] }
    let l := if e.2 > l.best then
        { l with best := e.2, bestEpoch := epoch,
                 bestState := if loadBest then some (env.snap l.s) else l.bestState }
      else l
    if e.2 ≥ earlyAcc then { l with early := true }
    else
      let l := if r = 0 then l else { l with s := env.load .train l.s }
      epochLoop env loadBest earlyAcc (epoch + 1) r l

/-- `_train_inner` with data set (green_tsetlin/trainer.py:258-367): the trainer and the machine's `_state`
afterwards. -/
def Trainer.trainInner {S St : Type} (env : Env S St) (t : Trainer St) (tmState : Option St) :
    Trainer St × Option St :=
  if t.nEpochs < 1 then (t, tmState)
  else
    let s := env.load .train (env.start tmState)
    let l := epochLoop env t.loadBest t.earlyAcc 0 t.nEpochs.toNat ⟨s, 0, -1, -1, [], [], false, t.bestState⟩
    ({ t with
       bestState := l.bestState
       results := some ⟨l.best, l.bestEpoch, l.nTrained, l.trainLog, l.evalLog, l.early⟩ },
     if t.loadBest then l.bestState else some (env.snap l.s))

/-- Results of a cross-validation (green_tsetlin/trainer.py:427-431), without the times. -/
structure FoldResults where
  bestScore : Rat
  kFolds    : Int
  trainLog  : List Rat
  evalLog   : List Rat
deriving DecidableEq, Repr

/-- `x[index]` with an index array (green_tsetlin/trainer.py:405-408). -/
def gather {D : Type} (x : List D) (idx : List Nat) : List D := idx.filterMap (x[·]?)

/-- The loop over the folds (green_tsetlin/trainer.py:403-425). `mk` makes the environment for the fold's training
and evaluation samples; the attributes of the trainer and the machine's state are carried from fold to fold. With
`n_epochs < 1` no results exist and subscripting `None` raises TypeError. -/
def foldLoop {S St D : Type} (mk : List D → List D → Env S St) (x : List D) :
    List (List Nat × List Nat) → Trainer St → Option St → FoldResults → Except PyErr (Trainer St × Option St × FoldResults)
  | [], t, tm, r => .ok (t, tm, r)
  | f :: fs, t, tm, r =>
    let q := t.trainInner (mk (gather x f.1) (gather x f.2)) tm
    match q.1.results with
    | none => .error .typeError
    | some fr =>
      foldLoop mk x fs q.1 q.2
        { r with trainLog := r.trainLog ++ fr.trainLog, evalLog := r.evalLog ++ fr.evalLog,
                 bestScore := if fr.bestScore > r.bestScore then fr.bestScore else r.bestScore }

/-- `train` with `k_folds > 1` (green_tsetlin/trainer.py:389-432): train and evaluation data are stacked and split
by `StratifiedKFold`, whose folds are given as index arrays. -/
def Trainer.trainFolds {S St D : Type} (mk : List D → List D → Env S St) (xTrain xEval : List D)
    (split : List (List Nat × List Nat)) (kFolds : Int) (t : Trainer St) (tm : Option St) :
    Except PyErr (Trainer St × Option St × FoldResults) :=
  foldLoop mk (xTrain ++ xEval) split t tm ⟨-1, kFolds, [], []⟩

/-! ### The backends as environments -/

/-- Hidden state: the executor, the data in the input block, and the number of epochs trained (each epoch has its
own shuffle) (green_tsetlin/trainer.py:270-290). -/
structure ExecS (B E : Type) where
  e    : Exec B
  data : List (E × Nat)
  ep   : Nat

/-- The environment of a `Trainer` with a given backend: `init` makes the executor, `metric` is
`fn_eval_score(y_eval, y_hat)`, `snapOf` reads the learned clauses out of the blocks
(green_tsetlin/trainer.py:257-369). -/
def backendEnv {B E St : Type} (be : Backend B E) (snapOf : Exec B → St) (init : Option St → Exec B)
    (smp : List Rat → Rat → Nat) (shuffle : Nat → List Nat → List Nat) (metric : List Nat → List Nat → Rat)
    (trainData evalData : List (E × Nat)) : Env (ExecS B E) St where
  start st := ⟨init st, [], 0⟩
  load d s := { s with data := match d with
    | .train => trainData
    | .eval => evalData }
  train s :=
    let r := Exec.trainEpoch be smp (shuffle s.ep) s.data s.e
    ({ s with e := r.1, ep := s.ep + 1 }, r.2)
  eval s :=
    let r := Exec.evalPredict be (s.data.map (·.1)) (evalData.map (·.2)).length s.e
    ({ s with e := r.1 }, metric (evalData.map (·.2)) (r.2.getD []))
  snap s := snapOf s.e

/-- The environment of a `Trainer` with the portable backend: a snapshot is the list of clauses
(green_tsetlin/trainer.py:257-369, src/aligned_tsetlin_state.hpp:84-97, 130-140). -/
def execEnv (init : Option (List (List Int × List Int × List Int)) → Exec DBlock) (smp : List Rat → Rat → Nat)
    (shuffle : Nat → List Nat → List Nat) (metric : List Nat → List Nat → Rat)
    (trainData evalData : List (List Nat × Nat)) :
    Env (ExecS DBlock (List Nat)) (List (List Int × List Int × List Int)) :=
  backendEnv denseBackend (fun e => (e.blocks.flatMap (·.clauses)).map fun c => (c.pos, c.neg, c.w)) init smp shuffle
    metric trainData evalData

/-- The environment of a `Trainer` with the AVX2 backend: a snapshot is the list of clauses without the padding
(green_tsetlin/trainer.py:257-369, src/aligned_tsetlin_state.hpp:84-97, 130-140). -/
def avxEnv (init : Option (List (List Int × List Int × List Int)) → Exec VBlock) (smp : List Rat → Rat → Nat)
    (shuffle : Nat → List Nat → List Nat) (metric : List Nat → List Nat → Rat)
    (trainData evalData : List (Mem × Nat)) :
    Env (ExecS VBlock Mem) (List (List Int × List Int × List Int)) :=
  backendEnv avxBackend
    (fun e => e.blocks.flatMap fun b => b.clauses.map fun c =>
      ((List.range b.cfg.nLits).map fun i => (c.row i).toInt,
       (List.range b.cfg.nLits).map fun i => (c.row (avxMem b.cfg.nLits + i)).toInt, c.w))
    init smp shuffle metric trainData evalData

/-- `set_clause_state` and `set_clause_weights` for all blocks, on the level of clauses
(green_tsetlin/tsetlin_machine.py:225-238, src/aligned_tsetlin_state.hpp:99-128; the flat arrays are in
`Verif.Model.Layout`): clause `i` of the machine gets row `i` of the state. -/
def putState : List DBlock → List (List Int × List Int × List Int) → List DBlock
  | [], _ => []
  | b :: bs, st =>
    let cs := List.zipWith (fun (c : Clause) t => { c with pos := t.1, neg := t.2.1, w := t.2.2 }) b.clauses
      (st.take b.clauses.length)
    { b with clauses := cs } :: putState bs (st.drop b.clauses.length)

/-- `allocate_clause_blocks` for the portable backend (green_tsetlin/tsetlin_machine.py:411-434): the blocks with
the given numbers of clauses and options, seeded `seed, seed + 1, ...`; `none` when one refuses its seed. -/
def allocBlocks (nLits nClasses : Nat) (fastOf rngOf : Nat → Rng) (junk : Nat → Nat) :
    List (Nat × Cfg) → Nat → Option (List DBlock)
  | [], _ => some []
  | l :: ls, seed =>
    match initTM nLits l.1 nClasses l.2 fastOf rngOf junk seed, allocBlocks nLits nClasses fastOf rngOf junk ls (seed + 1) with
    | some b, some bs => some (b :: bs)
    | _, _ => none

/-- The executor that `_train_inner` starts with (green_tsetlin/trainer.py:270-290): fresh blocks, into which the
machine's state is put if it has one. -/
def startExec (fb : FB) (bs : List DBlock) (st : Option (List (List Int × List Int × List Int))) : Exec DBlock :=
  ⟨fb, match st with
    | some st => putState bs st
    | none => bs, []⟩

end GT

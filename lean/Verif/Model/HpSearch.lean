import Verif.Model.Trainer
import Mathlib.Data.List.Dedup

/-!
# Hyper-parameter search (green_tsetlin/hpsearch.py)

Optuna is a record of functions; what its documentation promises is `Spec.OptunaTrial`. Training is `Verif.Model.Trainer`
with an environment for every machine. The data are assumed to pass the checks of `set_train_data` and `set_eval_data`
(`Verif.Model.Data`).
-/

namespace GT

/-- The argument `s_space`: a float, an int, or a tuple (green_tsetlin/hpsearch.py:48). -/
inductive FloatSpace
  | float (v : Rat)
  | int (v : Int)
  | tuple (vs : List Rat)
deriving DecidableEq, Repr

/-- The other spaces: an int (of which `bool` is a subclass), a float, or a tuple of ints
(green_tsetlin/hpsearch.py:49-52). -/
inductive IntSpace
  | int (v : Int)
  | bool (b : Bool)
  | float (v : Rat)
  | tuple (vs : List Int)
deriving DecidableEq, Repr

/-- `trial.suggest_float(name, low, high, step=step)` and `trial.suggest_int(name, low, high, step=step)` for one trial
(Optuna, used at green_tsetlin/hpsearch.py:170-228). -/
structure OptTrial where
  float : String → Rat → Rat → Rat → Except PyErr Rat
  int   : String → Int → Int → Int → Except PyErr Int

/-- The choice of `s` (green_tsetlin/hpsearch.py:170-179): subscripting an int raises TypeError. -/
def OptTrial.pickS (t : OptTrial) : FloatSpace → Except PyErr Rat
  | .float v => .ok v
  | .int _ => .error .typeError
  | .tuple vs =>
    match vs with
    | low :: high :: rest => t.float "s" low high (match rest with
      | [st] => st
      | _ => 1 / 10)
    | _ => .error .indexError

/-- The choice of the other parameters (green_tsetlin/hpsearch.py:181-223). -/
def OptTrial.pickInt (t : OptTrial) (name : String) : IntSpace → Except PyErr Int
  | .int v => .ok v
  | .bool b => .ok (if b then 1 else 0)
  | .float _ => .error .typeError
  | .tuple vs =>
    match vs with
    | low :: high :: rest => t.int name low high (match rest with
      | [st] => st
      | _ => 1)
    | _ => .error .indexError

/-- An attribute of a Python object: never assigned, `None`, or a value (green_tsetlin/hpsearch.py:106-155). -/
inductive Attr (α : Type)
  | unset
  | none
  | val (a : α)

/-- Examples with their labels, and the number of columns (green_tsetlin/hpsearch.py:125-147). -/
structure HpData (D : Type) where
  rows   : List D
  labels : List Nat
  cols   : Int

/-- `HyperparameterSearch` (green_tsetlin/hpsearch.py:112-147). `__init__` does not assign the data attributes. -/
structure HpSearch (D : Type) where
  sSpace      : FloatSpace
  clauseSpace : IntSpace
  threshSpace : IntSpace
  epochSpace  : IntSpace
  budgetSpace : IntSpace
  boost       : Bool × Bool
  minimize    : Bool
  seed        : Int
  nJobs       : Int
  kFolds      : Int
  trainData   : Attr (HpData D)
  evalData    : Attr (HpData D)

/-- `_check_data` (green_tsetlin/hpsearch.py:149-155) and reading the attributes: one that was never assigned raises
AttributeError. -/
def HpSearch.checkData {D : Type} (h : HpSearch D) : Except PyErr (HpData D × HpData D) :=
  match h.evalData with
  | .unset => .error .attributeError
  | .none => .error .valueError
  | .val e =>
    match h.trainData with
    | .unset => .error .attributeError
    | .none => .error .valueError
    | .val t => .ok (t, e)

/-- The parameters of a trial (green_tsetlin/hpsearch.py:170-228). -/
structure HpParams where
  s         : Rat
  clauses   : Int
  threshold : Int
  budget    : Int
  epochs    : Int
  boost     : Bool
deriving DecidableEq, Repr

/-- The choice of `boost_true_positives` (green_tsetlin/hpsearch.py:225-228); an int is true if it is not zero. -/
def HpSearch.pickBoost {D : Type} (h : HpSearch D) (t : OptTrial) : Except PyErr Bool :=
  if h.boost.1 then (t.int "boost_true_positives" 0 1 1).map fun v => decide (v ≠ 0) else .ok h.boost.2

/-- The sampling in `objective` (green_tsetlin/hpsearch.py:170-228), in program order. -/
def HpSearch.params {D : Type} (h : HpSearch D) (t : OptTrial) : Except PyErr HpParams :=
  match t.pickS h.sSpace with
  | .error e => .error e
  | .ok s =>
  match t.pickInt "n_clauses" h.clauseSpace with
  | .error e => .error e
  | .ok clauses =>
  match t.pickInt "threshold" h.threshSpace with
  | .error e => .error e
  | .ok threshold =>
  match t.pickInt "literal_budget" h.budgetSpace with
  | .error e => .error e
  | .ok budget =>
  match t.pickInt "max_epoch_per_trial" h.epochSpace with
  | .error e => .error e
  | .ok epochs =>
  match h.pickBoost t with
  | .error e => .error e
  | .ok boost => .ok ⟨s, clauses, threshold, budget, epochs, boost⟩

/-- What training a machine means: for a machine, a number of jobs, a seed and the two data sets, the environment of the
trainer (green_tsetlin/hpsearch.py:231-247). -/
abbrev EnvOf (S St D : Type) := TM → Int → Int → List D → List D → Env S St

/-- `Trainer(...)` with the arguments of green_tsetlin/hpsearch.py:238-244; the rest are defaults
(green_tsetlin/trainer.py:45-58). -/
def newTrainer (St : Type) (epochs : Int) : Trainer St := ⟨epochs, 1, true, none, none⟩

/-- `trainer.train()` (green_tsetlin/trainer.py:371-442) of a new trainer, and then `trainer.results["eval_log"]`
(green_tsetlin/hpsearch.py:249-251): subscripting `None` raises TypeError. -/
def hpEvalLog {S St D : Type} (env : EnvOf S St D) (split : Int → Int → List (List Nat × List Nat)) (h : HpSearch D)
    (tm : TM) (epochs : Int) (tr ev : HpData D) : Except PyErr (List Rat) :=
  if h.kFolds > 1 then
    ((newTrainer St epochs).trainFolds (env tm h.nJobs h.seed) tr.rows ev.rows (split h.kFolds h.seed) h.kFolds none).map
      fun r => r.2.2.evalLog
  else
    match ((newTrainer St epochs).trainInner (env tm h.nJobs h.seed tr.rows ev.rows) none).1.results with
    | none => .error .typeError
    | some r => .ok r.evalLog

/-- `TsetlinMachine(...)` in `objective` (green_tsetlin/hpsearch.py:230-236). -/
def hpMachine {D : Type} (p : HpParams) (tr : HpData D) : Except PyErr TM :=
  TM.new tr.cols p.clauses tr.labels.dedup.length (.float p.s) p.threshold (some p.budget) p.boost false

/-- `objective` (green_tsetlin/hpsearch.py:157-255): the score and, when the budget is minimised, the budget. -/
def HpSearch.objective {S St D : Type} (env : EnvOf S St D) (split : Int → Int → List (List Nat × List Nat)) (h : HpSearch D)
    (t : OptTrial) : Except PyErr (Rat × Option Int) :=
  match h.checkData with
  | .error e => .error e
  | .ok (tr, ev) =>
  match h.params t with
  | .error e => .error e
  | .ok p =>
  match hpMachine p tr with
  | .error e => .error e
  | .ok tm =>
  match hpEvalLog env split h tm p.epochs tr ev with
  | .error e => .error e
  | .ok log =>
  match log.getLast? with
  | none => .error .indexError
  | some v => .ok (v, if h.minimize then tm.budgets.head?.getD none else none)

/-- The loop of `optimize` (green_tsetlin/hpsearch.py:282-289): `study.ask()`, `objective`, `study.tell`. The study is the
values it has been told, and `ask` makes the next trial from them. -/
def optimizeLoop {V : Type} (ask : List V → OptTrial) (obj : OptTrial → Except PyErr V) : Nat → List V → Except PyErr (List V)
  | 0, study => .ok study
  | n + 1, study =>
    match obj (ask study) with
    | .error e => .error e
    | .ok v => optimizeLoop ask obj n (study ++ [v])

end GT

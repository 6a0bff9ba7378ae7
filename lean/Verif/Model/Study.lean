import Verif.Model.HpSearch

/-!
# `HyperparameterSearch.optimize` (green_tsetlin/hpsearch.py:258-293)

Optuna's study by its documented effect: `create_study`, `ask`, `tell` and `best_trials`. Trials are of any type `T` (in the code:
`OptTrial`, the object the objective samples from). The sampler may use the whole study. Printing and the progress bar are not
modelled, except that the bar's description reads `study.best_trials[0]`.
-/

namespace GT

/-- A direction of optimisation (green_tsetlin/hpsearch.py:273, 276). -/
inductive StudyDir
  | maximize | minimize
deriving DecidableEq, Repr

/-- The state of a trial of a study: asked for, told valid values, told invalid ones (Optuna, `TrialState`; used at
green_tsetlin/hpsearch.py:284-286). -/
inductive TrialState
  | running
  | complete (values : List Rat)
  | fail
deriving DecidableEq, Repr

/-- A trial of a study (Optuna, `FrozenTrial`; green_tsetlin/hpsearch.py:284). -/
structure StudyTrial (T : Type) where
  trial : T
  state : TrialState
deriving DecidableEq, Repr

/-- A study: its directions and its trials in the order they were asked for (Optuna, `Study`). -/
structure Study (T : Type) where
  dirs   : List StudyDir
  trials : List (StudyTrial T)
deriving DecidableEq, Repr

/-- The studies in storage, by storage and study name (the arguments at green_tsetlin/hpsearch.py:273, 276). -/
abbrev StudyStore (T : Type) := String × String → Option (Study T)

/-- The directions given to `create_study` (green_tsetlin/hpsearch.py:272-276). -/
def studyDirs (minimize : Bool) : List StudyDir := if minimize then [.maximize, .minimize] else [.maximize]

/-- `optuna.create_study(..., load_if_exists=True)` (green_tsetlin/hpsearch.py:273, 276): an existing study is returned as it is,
whatever its directions. Without storage the study is a new one. -/
def createStudy {T : Type} (store : StudyStore T) (key : Option (String × String)) (dirs : List StudyDir) : Study T :=
  match key.bind store with
  | some st => st
  | none => ⟨dirs, []⟩

/-- What is in storage when the study is `st`: nothing changes for a study in memory (green_tsetlin/hpsearch.py:273, 276). -/
def keepStudy {T : Type} (store : StudyStore T) (key : Option (String × String)) (st : Study T) : StudyStore T :=
  match key with
  | none => store
  | some k => fun k' => if k' = k then some st else store k'

/-- `study.ask()` (green_tsetlin/hpsearch.py:284): the new trial is stored as a running one. -/
def Study.ask {T : Type} (sampler : Study T → T) (st : Study T) : T × Study T :=
  (sampler st, { st with trials := st.trials ++ [⟨sampler st, .running⟩] })

/-- `study.tell(trial, value)` (green_tsetlin/hpsearch.py:286) for the trial with number `i`: without a `state` argument the trial
is completed if there are as many values as directions, and fails otherwise. -/
def Study.tell {T : Type} (st : Study T) (i : Nat) (values : List Rat) : Study T :=
  { st with trials := st.trials.modify i fun t =>
      { t with state := if values.length = st.dirs.length then .complete values else .fail } }

/-- A value with the sign for which less is better (Optuna, `_normalize_value`). -/
def studyNorm (d : StudyDir) (v : Rat) : Rat := match d with
  | .maximize => -v
  | .minimize => v

/-- `_dominates` (Optuna, behind `best_trials`, green_tsetlin/hpsearch.py:288, 291): the values differ and none is worse. -/
def studyDominates (dirs : List StudyDir) (a b : List Rat) : Bool :=
  let a' := List.zipWith studyNorm dirs a
  let b' := List.zipWith studyNorm dirs b
  if a' = b' then false else (List.zip a' b').all fun p => decide (p.1 ≤ p.2)

/-- Whether trial `t` has values that no other trial of the study dominates (Optuna, behind `best_trials`). -/
def Study.isBest {T : Type} (st : Study T) (t : StudyTrial T) : Bool :=
  match t.state with
  | .complete v => !(st.trials.any fun u => match u.state with
    | .complete w => studyDominates st.dirs w v
    | _ => false)
  | _ => false

/-- `study.best_trials` (green_tsetlin/hpsearch.py:288, 291): the Pareto front of the completed trials. -/
def Study.best {T : Type} (st : Study T) : List (StudyTrial T) := st.trials.filter st.isBest

/-- The values `objective` returns, as `tell` takes them (green_tsetlin/hpsearch.py:252-255): the score, and the budget if it is
minimised. -/
def objectiveValues (r : Rat × Option Int) : List Rat := r.1 :: (r.2.toList.map fun b => (b : Rat))

/-- The loop of `optimize` (green_tsetlin/hpsearch.py:282-289): the study after it and the exception that ended it, if any. An
exception in the objective leaves the trial running; the bar's description raises IndexError when no trial is best. -/
def optimizeTrials {T : Type} (sampler : Study T → T) (obj : T → Except PyErr (List Rat)) : Nat → Study T → Study T × Option PyErr
  | 0, st => (st, none)
  | n + 1, st =>
    let number := st.trials.length
    let (t, st1) := st.ask sampler
    match obj t with
    | .error e => (st1, some e)
    | .ok values =>
      let st2 := st1.tell number values
      match st2.best with
      | [] => (st2, some .indexError)
      | _ :: _ => optimizeTrials sampler obj n st2

/-- What `optimize` changes: the storage and the attribute `best_trials` (green_tsetlin/hpsearch.py:291). -/
structure SearchWorld (T : Type) where
  store : StudyStore T
  best  : Attr (List (StudyTrial T))

/-- `optimize(n_trials, study_name, storage)` (green_tsetlin/hpsearch.py:258-293). -/
def optimizeRun {T : Type} (sampler : Study T → T) (obj : T → Except PyErr (List Rat)) (minimize : Bool) (n : Int)
    (key : Option (String × String)) (w : SearchWorld T) : SearchWorld T × Option PyErr :=
  let (st, err) := optimizeTrials sampler obj n.toNat (createStudy w.store key (studyDirs minimize))
  match err with
  | some e => (⟨keepStudy w.store key st, w.best⟩, some e)
  | none => (⟨keepStudy w.store key st, .val st.best⟩, none)

/-- `objective` of a search as `optimize` calls it (green_tsetlin/hpsearch.py:285-286). -/
def HpSearch.objectiveList {S St D : Type} (env : EnvOf S St D) (split : Int → Int → List (List Nat × List Nat)) (h : HpSearch D)
    (t : OptTrial) : Except PyErr (List Rat) := (h.objective env split t).map objectiveValues

end GT

import Verif.Model.Study

/-! # What a search reports -/

namespace GT.Spec

/-- `x` is at least as good as `y`. -/
def AsGood : StudyDir → Rat → Rat → Prop
  | .maximize, x, y => y ≤ x
  | .minimize, x, y => x ≤ y

/-- `x` is better than `y`. -/
def Better : StudyDir → Rat → Rat → Prop
  | .maximize, x, y => y < x
  | .minimize, x, y => x < y

/-- `a` beats `b`: as good in every objective and better in one. -/
def Beats (dirs : List StudyDir) (a b : List Rat) : Prop :=
  (∀ (i : Nat) d x y, dirs[i]? = some d → a[i]? = some x → b[i]? = some y → AsGood d x y) ∧
  ∃ (i : Nat) (d : StudyDir) (x y : Rat), dirs[i]? = some d ∧ a[i]? = some x ∧ b[i]? = some y ∧ Better d x y

/-- The trial was completed and no completed trial of the study beats it. -/
def Unbeaten {T : Type} (st : Study T) (t : StudyTrial T) : Prop :=
  ∃ v, t.state = .complete v ∧ ∀ u ∈ st.trials, ∀ w, u.state = .complete w → ¬ Beats st.dirs w v

/-- `bs` are the unbeaten trials of the study, in order. -/
def BestOf {T : Type} (st : Study T) (bs : List (StudyTrial T)) : Prop :=
  ∃ p : StudyTrial T → Bool, (∀ t ∈ st.trials, p t = true ↔ Unbeaten st t) ∧ bs = st.trials.filter p

/-- What Optuna guarantees for a stored study: a completed trial has one value for every objective. -/
def ValidStudy {T : Type} (st : Study T) : Prop :=
  ∀ t ∈ st.trials, ∀ v, t.state = .complete v → v.length = st.dirs.length

/-- The study after telling it the first `i` of the new trials. -/
def studyAfter {T : Type} (st : Study T) (new : List (StudyTrial T)) (i : Nat) : Study T := ⟨st.dirs, st.trials ++ new.take i⟩

/-- New trial `i` was chosen by the sampler from all earlier trials, and was told the values the objective returned for it. -/
def TrialDone {T : Type} (sampler : Study T → T) (obj : T → Except PyErr (List Rat)) (st : Study T) (new : List (StudyTrial T))
    (i : Nat) : Prop :=
  ∃ t values, new[i]? = some t ∧ t.trial = sampler (studyAfter st new i) ∧ obj t.trial = .ok values ∧
    t.state = if values.length = st.dirs.length then .complete values else .fail

/-- `st` is the study `optimize` works on: the stored one of that name, if there is one, and otherwise a new one, in which the
score is maximised and, if asked for, the literal budget minimised. -/
def StudyFound {T : Type} (store : StudyStore T) (key : Option (String × String)) (minimize : Bool) (st : Study T) : Prop :=
  (∃ k, key = some k ∧ store k = some st) ∨
  ((∀ k, key = some k → store k = none) ∧ st.trials = [] ∧
    st.dirs = if minimize then [.maximize, .minimize] else [.maximize])

/-- After the call the study is stored under its name, if it has one, and nothing else is changed in storage. -/
def StudyStored {T : Type} (before after : StudyStore T) (key : Option (String × String)) (st : Study T) : Prop :=
  (∀ k, key = some k → after k = some st) ∧ ∀ k, key ≠ some k → after k = before k

end GT.Spec

import Verif.Model.HpSearch
import Verif.Spec.Trainer
import Mathlib.Data.Finset.Card
import Mathlib.Data.Finset.Dedup

/-! # What a hyper-parameter search should do -/

namespace GT.Spec

/-- `v` is one of `low, low + step, low + 2 * step, ...` up to `high`. -/
def OnGrid (low high step v : Rat) : Prop := low ≤ v ∧ v ≤ high ∧ ∃ k : Nat, v = low + k * step

/-- What Optuna documents: a suggested value lies on the grid asked for. -/
structure OptunaTrial (t : OptTrial) : Prop where
  float : ∀ name low high step v, t.float name low high step = .ok v → OnGrid low high step v
  int : ∀ name low high step v, t.int name low high step = .ok v → OnGrid low high step v

/-- `v` is allowed by the space for `s`: equal to a fixed value, or on the grid; without a step, in the range. -/
def InFloatSpace : FloatSpace → Rat → Prop
  | .float x, v => v = x
  | .int x, v => v = x
  | .tuple [low, high, step], v => OnGrid low high step v
  | .tuple (low :: high :: _), v => low ≤ v ∧ v ≤ high
  | .tuple _, _ => False

/-- The same for the other parameters; without a step, every integer of the range is allowed. -/
def InIntSpace : IntSpace → Int → Prop
  | .int x, v => v = x
  | .bool b, v => v = if b then 1 else 0
  | .float x, v => (v : Rat) = x
  | .tuple [low, high, step], v => OnGrid low high step v
  | .tuple (low :: high :: _), v => low ≤ v ∧ v ≤ high
  | .tuple _, _ => False

/-- The value of a parameter searched over a range is the one Optuna returned, and records for the trial, under that name. -/
def RecordedInt (t : OptTrial) (name : String) : IntSpace → Int → Prop
  | .tuple [low, high, step], v => t.int name low high step = .ok v
  | .tuple (low :: high :: _), v => t.int name low high 1 = .ok v
  | _, _ => True

/-- The same for `s`. -/
def RecordedFloat (t : OptTrial) (name : String) : FloatSpace → Rat → Prop
  | .tuple [low, high, step], v => t.float name low high step = .ok v
  | .tuple (low :: high :: _), v => t.float name low high (1 / 10) = .ok v
  | _, _ => True

/-- The machine of a trial was made with the values Optuna records for it, each under its own name. -/
structure TrialRecord {D : Type} (t : OptTrial) (h : HpSearch D) (tm : TM) (budget epochs : Int) : Prop where
  sensitivity : ∀ s ∈ tm.s, RecordedFloat t "s" h.sSpace s
  clauses : RecordedInt t "n_clauses" h.clauseSpace tm.nClauses
  threshold : RecordedInt t "threshold" h.threshSpace tm.threshold
  budget : RecordedInt t "literal_budget" h.budgetSpace budget
  epochs : RecordedInt t "max_epoch_per_trial" h.epochSpace epochs
  boost : h.boost.1 = true → ∃ v, t.int "boost_true_positives" 0 1 1 = .ok v ∧ (v = 0 ∨ v = 1) ∧ (tm.boost = true ↔ v = 1)

/-- The machine of a trial: its literals and classes are those of the training data, its other parameters are allowed by
the search spaces, and the budget is `budget`. -/
structure TrialMachine {D : Type} (h : HpSearch D) (tr : HpData D) (tm : TM) (budget epochs : Int) : Prop where
  literals : tm.nLiterals = tr.cols
  classes : tm.nClasses = (tr.labels.toFinset.card : Int)
  sensitivity : ∃ s, tm.s = [s] ∧ InFloatSpace h.sSpace s
  clauses : InIntSpace h.clauseSpace tm.nClauses
  threshold : InIntSpace h.threshSpace tm.threshold
  budgets : tm.budgets = [some budget]
  budget : InIntSpace h.budgetSpace budget
  epochs : InIntSpace h.epochSpace epochs
  boost : h.boost.1 = false → tm.boost = h.boost.2
  single : tm.multiLabel = false

end GT.Spec

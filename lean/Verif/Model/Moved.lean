import Verif.Model.StateArrays
import Verif.Model.Inference

/-!
# The predictor of a machine (green_tsetlin/tsetlin_machine.py:341-343)

`Verif.Model.Ruleset` compiles rows that are already lists; here the rows are those of the numpy arrays the machine's state
holds, however they came there (collected from the blocks or read from a file).
-/

namespace GT
namespace Arr

/-- The rows of an array, as iteration and indexing give them (green_tsetlin/ruleset.py:26-33). -/
def NpMat.rowList (a : NpMat) : List (List Int) :=
  (List.range a.rows).map fun i => (List.range a.cols).map fun j => (a.elem i j).getD 0

/-- What `compile_from_dense_state` reads of a state (green_tsetlin/ruleset.py:19-26); a state without arrays
(`DenseState()`) has nothing to read. -/
def St.dense (st : St) : Option DState :=
  match st.w, st.c with
  | some w, some c => some ⟨c.cols / 2, w.cols, c.rowList, w.rowList⟩
  | _, _ => none

/-- The rule set `get_predictor` makes (green_tsetlin/tsetlin_machine.py:341-342); without a state, or with a state without
arrays, it raises an `AttributeError`. -/
def Mach.ruleset (m : Mach) (multiLabel : Bool) : Except String Rules :=
  match m.state with
  | none => .error "AttributeError"
  | some st =>
    match st.dense with
    | none => .error "AttributeError"
    | some d => compileDense multiLabel d

/-- `get_predictor(explanation, exclude_negative_clauses)` (green_tsetlin/tsetlin_machine.py:322-343). -/
def Mach.getPredictor (m : Mach) (multiLabel : Bool) (explanation : String) (exclNeg : Bool) : Except String Predictor :=
  match m.ruleset multiLabel with
  | .error e => .error e
  | .ok rs => Predictor.fromRuleset rs explanation exclNeg

end Arr
end GT

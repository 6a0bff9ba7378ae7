import Verif.Model.Basic

/-!
# Rule sets compiled from a dense state (green_tsetlin/ruleset.py)

Dictionaries are association lists in insertion order.  `weights += w[k]` works in place on the array stored
in the dictionary, which is what updating the entry means here.
-/

namespace GT

/-- `DenseState` (green_tsetlin/tsetlin_machine.py:13-29): `c` has rows of `2*n_literals` states, `w` rows of
`n_classes` weights. -/
structure DState where
  nLits    : Nat
  nClasses : Nat
  c        : List (List Int)
  w        : List (List Int)
deriving DecidableEq, Repr

/-- `RuleSet`'s fields (green_tsetlin/ruleset.py:6-13). -/
structure Rules where
  nLits      : Nat
  nClasses   : Nat
  multiLabel : Bool
  rules      : List (List Nat)
  weights    : List (List Int)
deriving DecidableEq, Repr

/-- `np.nonzero(row >= 0)[0]` (green_tsetlin/ruleset.py:27): the indices of non-negative states, ascending;
`k` is the index of the head. -/
def onLiterals : List Int → Nat → List Nat
  | [], _ => []
  | v :: vs, k => if v ≥ 0 then k :: onLiterals vs (k + 1) else onLiterals vs (k + 1)

/-- `rule_map.get(key, ...)` (green_tsetlin/ruleset.py:32). -/
def ruleGet (m : List (List Nat × List Int)) (key : List Nat) : Option (List Int) :=
  match m with
  | [] => none
  | (k, v) :: m => if k = key then some v else ruleGet m key

/-- Replacing the value of a key, keeping its place (`dict.__setitem__` on an existing key)
(green_tsetlin/ruleset.py:33-34). -/
def ruleSet (m : List (List Nat × List Int)) (key : List Nat) (v : List Int) : List (List Nat × List Int) :=
  match m with
  | [] => []
  | (k, u) :: m => if k = key then (k, v) :: m else (k, u) :: ruleSet m key v

/-- `weights += w[k]` on int16 arrays (green_tsetlin/ruleset.py:33). -/
def addWeights (u v : List Int) : List Int := List.zipWith (fun a b => wrap16 (a + b)) u v

/-- The body of the loop over the clauses (green_tsetlin/ruleset.py:26-38). -/
def compileStep (nClasses : Nat) (m : List (List Nat × List Int)) (row w : List Int) :
    List (List Nat × List Int) :=
  let on := onLiterals row 0
  if on.length < 1 then m
  else
    match ruleGet m on with
    | some u => ruleSet m on (addWeights u w)
    | none =>
      if w.all (· == 0) then m
      else m ++ [(on, addWeights (List.replicate nClasses 0) w)]

/-- The loop `for k, row in enumerate(c)` (green_tsetlin/ruleset.py:26-38). A missing weight row raises an
IndexError, but only when it is used (line 33). -/
def compileLoop (nClasses : Nat) (ws : List (List Int)) :
    List (List Int) → Nat → List (List Nat × List Int) → Except String (List (List Nat × List Int))
  | [], _, m => .ok m
  | row :: rows, k, m =>
    match ws[k]? with
    | some w => compileLoop nClasses ws rows (k + 1) (compileStep nClasses m row w)
    | none =>
      if (onLiterals row 0).length < 1 then compileLoop nClasses ws rows (k + 1) m
      else .error "IndexError"

/-- `RuleSet.compile_from_dense_state` (green_tsetlin/ruleset.py:18-41). -/
def compileDense (multiLabel : Bool) (s : DState) : Except String Rules :=
  match compileLoop s.nClasses s.w s.c 0 [] with
  | .ok m => .ok ⟨s.nLits, s.nClasses, multiLabel, m.map (·.1), m.map (·.2)⟩
  | .error e => .error e

end GT

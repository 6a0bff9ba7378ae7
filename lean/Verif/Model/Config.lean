/-!
# Configuring a machine (green_tsetlin/tsetlin_machine.py)

Python exceptions are values; attributes that a call assigns before raising stay assigned, so the
setters return the new object together with an optional exception.
-/

namespace GT

/-- The Python exceptions the modelled code can raise
(raised for example at green_tsetlin/tsetlin_machine.py:98-148, 190-236). -/
inductive PyErr
  | valueError | typeError | zeroDivisionError | indexError | notImplementedError | keyError
  | attributeError | runtimeError | systemExit | osError
deriving DecidableEq, Repr

/-- The attributes of `TsetlinMachine` that the configuration calls read and write
(green_tsetlin/tsetlin_machine.py:81-127).  `budgetList` is the otherwise unused attribute
`n_literals_budget` assigned at line 165. Floats are exact rationals. -/
structure TM where
  nLiterals  : Int
  nClauses   : Int
  nClasses   : Int
  s          : List Rat
  threshold  : Int
  budgets    : List (Option Int)
  budgetList : Option (List Int)
  boost      : Bool
  multiLabel : Bool
  blockSizes : Option (List Int)
  flags      : Option (List Bool)
deriving DecidableEq, Repr

/-- The `s` argument: a float or a list of floats (green_tsetlin/tsetlin_machine.py:81,104-105). -/
inductive SArg
  | float (s : Rat)
  | list (ss : List Rat)
deriving DecidableEq, Repr

/-- `TsetlinMachine.__init__` (green_tsetlin/tsetlin_machine.py:81-127): a float `s` becomes a
one-element list, `s < 1` and `threshold < 1` raise, multi-label doubles the classes.  The literal budget
is stored unchecked (line 98).  An int `s` (neither float nor iterable) is not modelled. -/
def TM.new (nLiterals nClauses nClasses : Int) (s : SArg) (threshold : Int) (budget : Option Int)
    (boost multiLabel : Bool) : Except PyErr TM :=
  let ss := match s with
    | .float s => [s]
    | .list ss => ss
  if ss.any (fun s => s < 1) then .error .valueError
  else if threshold < 1 then .error .valueError
  else .ok
    { nLiterals := nLiterals, nClauses := nClauses,
      nClasses := if multiLabel then nClasses * 2 else nClasses,
      s := ss, threshold := threshold, budgets := [budget], budgetList := none, boost := boost,
      multiLabel := multiLabel, blockSizes := none, flags := none }

/-- An `int` or `list` argument (green_tsetlin/tsetlin_machine.py:151,172). -/
inductive IntOrList
  | int (n : Int)
  | list (ns : List Int)
deriving DecidableEq, Repr

/-- The check loop of `set_literal_budget` (green_tsetlin/tsetlin_machine.py:167-169): comparing `None`
with 1 raises TypeError. -/
def checkBudgets : List (Option Int) → Option PyErr
  | [] => none
  | none :: _ => some .typeError
  | some b :: bs => if b < 1 then some .valueError else checkBudgets bs

/-- `TsetlinMachine.set_literal_budget` (green_tsetlin/tsetlin_machine.py:151-169): an int replaces
`literal_budgets`, a list is assigned to the attribute `n_literals_budget`; then `literal_budgets` is
checked. -/
def TM.setLiteralBudget (tm : TM) (a : IntOrList) : TM × Option PyErr :=
  let tm := match a with
    | .int b => { tm with budgets := [some b] }
    | .list bs => { tm with budgetList := some bs }
  (tm, checkBudgets tm.budgets)

/-- The final check of `set_num_clause_blocks` (green_tsetlin/tsetlin_machine.py:197-198). -/
def checkSizes (sizes : List Int) : Option PyErr :=
  if sizes.any (fun n => n < 1) then some .valueError else none

/-- `TsetlinMachine.set_num_clause_blocks` (green_tsetlin/tsetlin_machine.py:172-198). `//` and `%` are
Python's floor division and modulo; `range(n_blocks)` is empty for negative `n_blocks`, so that
`_clause_block_sizes[0] += n_add` raises IndexError. -/
def TM.setNumClauseBlocks (tm : TM) (a : IntOrList) : TM × Option PyErr :=
  match a with
  | .int b =>
    if b = 0 then (tm, some .zeroDivisionError)
    else
      let per := Int.fdiv tm.nClauses b
      let add := Int.fmod tm.nClauses b
      match List.replicate b.toNat per with
      | [] => ({ tm with blockSizes := some [] }, some .indexError)
      | n :: ns =>
        let sizes := (n + add) :: ns
        ({ tm with blockSizes := some sizes }, checkSizes sizes)
  | .list sizes =>
    if sizes.sum ≠ tm.nClauses then (tm, some .valueError)
    else ({ tm with blockSizes := some sizes }, checkSizes sizes)

/-- `TsetlinMachine.set_trainable_flags` (green_tsetlin/tsetlin_machine.py:130-148): the flags are stored
and then NotImplementedError is raised. -/
def TM.setTrainableFlags (tm : TM) (fs : List Bool) : TM × Option PyErr :=
  match tm.blockSizes with
  | none => (tm, some .valueError)
  | some sizes =>
    if fs.length ≠ sizes.length then (tm, some .valueError)
    else ({ tm with flags := some fs }, some .notImplementedError)

/-- An `itertools.cycle` iterator: the list and what is left of the current pass
(used at green_tsetlin/tsetlin_machine.py:307). -/
structure Cycle (α : Type) where
  all  : List α
  rest : List α

/-- `next` of `itertools.cycle`: start over when the pass is finished; exhausted only if the list is
empty (used at green_tsetlin/tsetlin_machine.py:307). -/
def Cycle.next {α : Type} (c : Cycle α) : Option (α × Cycle α) :=
  match c.rest with
  | a :: r => some (a, { c with rest := r })
  | [] =>
    match c.all with
    | a :: r => some (a, { c with rest := r })
    | [] => none

/-- What is configured on one backend clause block (green_tsetlin/tsetlin_machine.py:308-316): the
constructor arguments, `set_s`, and `set_literal_budget` if called. There is no trainable flag: the call
is commented out in the code (line 315). -/
structure BlockSetup where
  nLiterals : Int
  nClauses  : Int
  nClasses  : Int
  s         : Rat
  budget    : Option Int
deriving DecidableEq, Repr

/-- The loop of `construct_clause_blocks` (green_tsetlin/tsetlin_machine.py:307-317): `zip` stops at the
shortest of the two cycles, the sizes and the flags. -/
def buildBlocks (tm : TM) (useBudget : Bool) :
    Cycle Rat → Cycle (Option Int) → List Int → List Bool → List BlockSetup
  | cs, cb, n :: ns, _ :: fs =>
    match cs.next, cb.next with
    | some (s, cs), some (b, cb) =>
      { nLiterals := tm.nLiterals, nClauses := n, nClasses := tm.nClasses, s := s,
        budget := if useBudget then b else none } :: buildBlocks tm useBudget cs cb ns fs
    | _, _ => []
  | _, _, _, _ => []

/-- `TsetlinMachine.construct_clause_blocks` (green_tsetlin/tsetlin_machine.py:289-319).
`len(None)` raises TypeError when no block sizes are set. -/
def TM.constructClauseBlocks (tm : TM) : Except PyErr (List BlockSetup) :=
  match tm.blockSizes with
  | none => .error .typeError
  | some sizes =>
    let flags := tm.flags.getD (List.replicate sizes.length true)
    let useBudget := match tm.budgets with
      | some _ :: _ => true
      | _ => false
    .ok (buildBlocks tm useBudget ⟨tm.s, tm.s⟩ ⟨tm.budgets, tm.budgets⟩ sizes flags)

/-- The block layout a `Trainer` chooses when none was set: one block per job
(green_tsetlin/trainer.py:238-239,270-272). -/
def TM.ensureBlocks (tm : TM) (nJobs : Int) : TM × Option PyErr :=
  match tm.blockSizes with
  | some _ => (tm, none)
  | none => tm.setNumClauseBlocks (.int nJobs)

/-- `Trainer.__init__`'s resolution of `n_jobs` (green_tsetlin/trainer.py:82-90). -/
def resolveJobs (nCpus nJobs : Int) : Int :=
  if nJobs < 0 then nCpus + 1 + nJobs else if nJobs = 0 then 1 else nJobs

/-- What the backend sees while clause blocks are allocated (green_tsetlin/tsetlin_machine.py:399-428). -/
inductive AllocEvent
  | init (block : Nat) (seed : Int)
  | body
  | cleanup (block : Nat)
deriving DecidableEq, Repr

/-- The initialisation loop (green_tsetlin/tsetlin_machine.py:421-424), for blocks `i, i+1, ...`. -/
def initEvents : Nat → Nat → Int → List AllocEvent
  | _, 0, _ => []
  | i, n + 1, seed => .init i seed :: initEvents (i + 1) n (seed + 1)

/-- How the body of the `with` statement ends (green_tsetlin/tsetlin_machine.py:423-425). -/
inductive BodyEnd
  | returns
  | raises
deriving DecidableEq, Repr

/-- `allocate_clause_blocks` as a `@contextmanager` (green_tsetlin/tsetlin_machine.py:398-428): blocks
are initialised, the body runs at the `yield`, blocks are cleaned up. An exception in the body is thrown
at the `yield`; since the code has no `try/finally`, the clean-up loop is then skipped. An empty list
raises ValueError before anything happens (lines 416-418). -/
def allocateClauseBlocks (nBlocks : Nat) (seed : Int) (b : BodyEnd) :
    Except PyErr (List AllocEvent) :=
  if nBlocks = 0 then .error .valueError
  else
    let before := initEvents 0 nBlocks seed ++ [.body]
    match b with
    | .raises => .ok before
    | .returns => .ok (before ++ (List.range nBlocks).map .cleanup)

end GT

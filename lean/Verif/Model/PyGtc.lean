import Verif.Model.Executor
import Verif.Model.Config

/-!
# The pure-Python implementation (green_tsetlin/py_gtc)

A clause is represented as in `Verif.Model.Dense`; the two halves of a row are `clauses[k][:n_literals]` and
`clauses[k][n_literals:]`. Arrays of `int8` wrap around. Probabilities, `float32` and `float64` in the code, are exact
rationals. numpy's generators are streams of draws. `TsetlinStateSparse` is in `Verif.Model.PySparse`.
-/

namespace GT

/-- What `initialize` keeps of the literal budget (green_tsetlin/py_gtc/tsetlin_state.py:26-27): none, or 32700, turn it
off. -/
def pyBudget (b : Option Nat) : Option Nat :=
  match b with
  | none => none
  | some v => if v = 32700 then none else some v

/-- The inner loop of `set_clause_output` (green_tsetlin/py_gtc/tsetlin_state.py:51-69): the output and the number of
included literals seen before the loop ends. -/
def pySetLoop (bud : Bool) : List Int → List Int → List Nat → Nat → Nat × Nat
  | p :: ps, q :: qs, x :: xs, n =>
    if p ≥ 0 ∧ x = 0 then (0, n)
    else
      let n := if p ≥ 0 ∧ bud then n + 1 else n
      if q ≥ 0 ∧ x = 1 then (0, n)
      else pySetLoop bud ps qs xs (if q ≥ 0 ∧ bud then n + 1 else n)
  | _, _, _, n => (1, n)

/-- `set_clause_output` for one clause (green_tsetlin/py_gtc/tsetlin_state.py:43-73). -/
def pySetClause (budget : Option Nat) (x : List Nat) (c : Clause) : Clause :=
  let r := pySetLoop budget.isSome c.pos c.neg x 0
  { c with out := r.1, cnt := if budget.isSome then r.2 else c.cnt }

/-- The inner loop of `eval_clause_output` (green_tsetlin/py_gtc/tsetlin_state.py:86-99): the comparisons are `> 0`. -/
def pyEvalLoop : List Int → List Int → List Nat → Bool → Nat × Bool
  | p :: ps, q :: qs, x :: xs, e =>
    let e := if p > 0 then false else e
    if p > 0 ∧ x = 0 then (0, e)
    else
      let e := if q > 0 then false else e
      if q > 0 ∧ x = 1 then (0, e)
      else pyEvalLoop ps qs xs e
  | _, _, _, e => (1, e)

/-- `eval_clause_output` for one clause (green_tsetlin/py_gtc/tsetlin_state.py:81-102). -/
def pyEvalClause (x : List Nat) (c : Clause) : Clause :=
  let r := pyEvalLoop c.pos c.neg x true
  { c with out := if r.2 then 0 else r.1 }

/-- `T1aFeedback` (green_tsetlin/py_gtc/tsetlin_state.py:141-175); `use_boost_true_positive` is always `False`. -/
def pyT1a (s : Rat) : List Int → List Int → List Nat → Rng → List Int × List Int × Rng
  | p :: ps, q :: qs, x :: xs, g =>
    let g1 := g.next.2
    if x = 1 then
      let p' := if g.next.1 ≤ (s - 1) / s ∧ p < 127 then wrap8 (p + 1) else p
      let q' := if g1.next.1 ≤ 1 / s ∧ q > -127 then wrap8 (q - 1) else q
      let r := pyT1a s ps qs xs g1.next.2
      (p' :: r.1, q' :: r.2.1, r.2.2)
    else
      let p' := if g.next.1 ≤ 1 / s ∧ p > -127 then wrap8 (p - 1) else p
      let q' := if g1.next.1 ≤ (s - 1) / s ∧ q < 127 then wrap8 (q + 1) else q
      let r := pyT1a s ps qs xs g1.next.2
      (p' :: r.1, q' :: r.2.1, r.2.2)
  | ps, qs, _, g => (ps, qs, g)

/-- `T1bFeedback` (green_tsetlin/py_gtc/tsetlin_state.py:178-193). -/
def pyT1b (s : Rat) : List Int → List Int → Rng → List Int × List Int × Rng
  | p :: ps, q :: qs, g =>
    let g1 := g.next.2
    let p' := if g.next.1 ≤ 1 / s ∧ p > -127 then wrap8 (p - 1) else p
    let q' := if g1.next.1 ≤ 1 / s ∧ q > -127 then wrap8 (q - 1) else q
    let r := pyT1b s ps qs g1.next.2
    (p' :: r.1, q' :: r.2.1, r.2.2)
  | ps, qs, g => (ps, qs, g)

/-- `T2Feedback` (green_tsetlin/py_gtc/tsetlin_state.py:197-207). -/
def pyT2 : List Int → List Int → List Nat → List Int × List Int
  | p :: ps, q :: qs, x :: xs =>
    let r := pyT2 ps qs xs
    if x = 0 then ((if p < 0 then wrap8 (p + 1) else p) :: r.1, q :: r.2)
    else (p :: r.1, (if q < 0 then wrap8 (q + 1) else q) :: r.2)
  | ps, qs, _ => (ps, qs)

/-- `update_clause` (green_tsetlin/py_gtc/tsetlin_state.py:121-137); the weights are `int8`. -/
def pyUpdateClause (s : Rat) (x : List Nat) (j : Nat) (target : Int) (c : Clause) (g : Rng) : Clause × Rng :=
  let w := c.w.getD j 0
  let sign : Int := if w ≥ 0 then 1 else -1
  if target * sign > 0 then
    if c.out = 1 then
      let r := pyT1a s c.pos c.neg x g
      ({ c with w := c.w.set j (wrap8 (w + sign)), pos := r.1, neg := r.2.1 }, r.2.2)
    else
      let r := pyT1b s c.pos c.neg g
      ({ c with pos := r.1, neg := r.2.1 }, r.2.2)
  else if target * sign < 0 ∧ c.out = 1 then
    let r := pyT2 c.pos c.neg x
    ({ c with w := c.w.set j (wrap8 (w - sign)), pos := r.1, neg := r.2 }, g)
  else (c, g)

/-- `train_update` for one clause (green_tsetlin/py_gtc/tsetlin_state.py:106-118); all draws come from one generator. -/
def pyTrainClause (budget : Option Nat) (s : Rat) (x : List Nat) (fb : Feedback) (c : Clause) (g : Rng) : Clause × Rng :=
  let c := match budget with
    | some b => if c.cnt > b then { c with out := 0 } else c
    | none => c
  let a := if g.next.1 < fb.posProb then pyUpdateClause s x fb.posClass 1 c g.next.2 else (c, g.next.2)
  if a.2.next.1 < fb.negProb then pyUpdateClause s x fb.negClass (-1) a.1 a.2.next.2 else (a.1, a.2.next.2)

/-- `train_update`, the loop over the clauses (green_tsetlin/py_gtc/tsetlin_state.py:106). -/
def pyTrainClauses (budget : Option Nat) (s : Rat) (x : List Nat) (fb : Feedback) : List Clause → Rng → List Clause × Rng
  | [], g => ([], g)
  | c :: cs, g =>
    let r := pyTrainClause budget s x fb c g
    let rs := pyTrainClauses budget s x fb cs r.2
    (r.1 :: rs.1, rs.2)

/-- `vote_counter` (green_tsetlin/py_gtc/tsetlin_state.py:211-214): `np.dot` of `uint8` outputs with `int8` weights
computes in `int16`. -/
def pyVotes (nClasses : Nat) (cs : List Clause) : List Int :=
  (List.range nClasses).map fun k => wrap16 ((cs.map fun c => (c.out : Int) * c.w.getD k 0).sum)

/-- `ClauseBlock` with its `TsetlinState` (green_tsetlin/py_gtc/clause_block.py:9-112). -/
structure PyBlock where
  nClasses : Nat
  budget   : Option Nat
  s        : Rat
  clauses  : List Clause
  votes    : List Int
  rng      : Rng

/-- `train_example`, `eval_example` and `train_update` (green_tsetlin/py_gtc/clause_block.py:77-102) up to
`register_votes`. -/
def PyBlock.apply (b : PyBlock) : BlockOp → PyBlock
  | .trainExample x =>
    let cs := b.clauses.map (pySetClause b.budget x)
    { b with clauses := cs, votes := pyVotes b.nClasses cs }
  | .evalExample x =>
    let cs := b.clauses.map (pyEvalClause x)
    { b with clauses := cs, votes := pyVotes b.nClasses cs }
  | .trainUpdate x fb =>
    let r := pyTrainClauses b.budget b.s x fb b.clauses b.rng
    { b with clauses := r.1, rng := r.2 }

/-- `register_votes` (green_tsetlin/py_gtc/feedback_block.py:22-23): an assignment. -/
def pyRegister (fb : FB) (v : List Int) : FB := { fb with votes := v }

/-- `reset` (green_tsetlin/py_gtc/feedback_block.py:18-19). -/
def pyReset (fb : FB) : FB := { fb with votes := List.replicate fb.votes.length 0 }

/-- `predict` (green_tsetlin/py_gtc/feedback_block.py:65-76). -/
def pyPredict (fb : FB) : Nat := argmaxLoop (fb.votes.take fb.nClasses) 0 0 (fb.votes.headD 0)

/-- The running maximum in `process` (green_tsetlin/py_gtc/feedback_block.py:33-38). -/
def pyArgmax : List Int → Nat → Nat → Rat → Nat
  | [], _, bk, _ => bk
  | v :: vs, k, bk, bv => if (v : Rat) > bv then pyArgmax vs (k + 1) k v else pyArgmax vs (k + 1) bk bv

/-- `process` (green_tsetlin/py_gtc/feedback_block.py:26-62): the running maximum starts at `-threshold`. -/
def pyProcess (smp : List Rat → Rat → Nat) (fb : FB) (label : Nat) : FB :=
  let vs := fb.votes.take fb.nClasses
  let predicted := pyArgmax vs 0 0 (-fb.threshold)
  let ws := (vs.map (negWeight fb.threshold)).set label 0
  let u := fb.rng.next
  let neg := smp ws u.1
  { fb with
    posClass := label
    negClass := neg
    total := fb.total + 1
    correct := if predicted = label then fb.correct + 1 else fb.correct
    updProb := ws
    negProb := ws.getD neg 0
    posProb := (fb.threshold - clampT fb.threshold (fb.votes.getD label 0)) / (2 * fb.threshold) + 1 / 10 ^ 16
    rng := u.2 }

/-- The loop `for cb in self.m_clause_blocks` with `set_votes` (green_tsetlin/py_gtc/executors.py:70-76, 113-114,
green_tsetlin/py_gtc/clause_block.py:110-112). -/
def pyExampleLoop (op : BlockOp) : List PyBlock → FB → List PyBlock × FB
  | [], fb => ([], fb)
  | b :: bs, fb =>
    let b := b.apply op
    let r := pyExampleLoop op bs (pyRegister fb b.votes)
    (b :: r.1, r.2)

/-- The executors' state (green_tsetlin/py_gtc/executors.py:22-29). -/
structure PyExec where
  fb     : FB
  blocks : List PyBlock

/-- The body of `train_slice` of `SingleThreadExecutor` (green_tsetlin/py_gtc/executors.py:62-97). -/
def PyExec.trainOne (smp : List Rat → Rat → Nat) (e : PyExec) (x : List Nat) (label : Nat) : PyExec :=
  let r := pyExampleLoop (.trainExample x) e.blocks (pyReset e.fb)
  let fb := pyProcess smp r.2 label
  ⟨fb, r.1.map fun b => b.apply (.trainUpdate x fb.feedback)⟩

/-- The body of `eval_predict` (green_tsetlin/py_gtc/executors.py:108-116). -/
def PyExec.evalOne (e : PyExec) (x : List Nat) : PyExec × Nat :=
  let r := pyExampleLoop (.evalExample x) e.blocks (pyReset e.fb)
  (⟨r.2, r.1⟩, pyPredict r.2)

/-- `train_epoch` of `MultiThreadExecutor` (green_tsetlin/py_gtc/executors.py:166-205): `train_slice` is commented out. -/
def PyExec.trainEpochMulti (e : PyExec) (_data : List (List Nat × Nat)) : PyExec × Rat :=
  let e : PyExec := { e with fb := e.fb.resetCounter }
  (e, e.fb.accuracy)

/-- `set_data` of `DenseInputBlock` (green_tsetlin/py_gtc/dense_input_block.py:20-45) with `m` labels per example (one for
a one-dimensional array) and then `prepare_example(index)` (lines 48-53): both the labels and the examples are subscripted
with `index * m`. -/
def pyPrepare {E L : Type} (data : List E) (labels : List L) (m index : Nat) : Except PyErr (E × L) :=
  match labels[index * m]? with
  | none => .error .indexError
  | some l =>
    match data[index * m]? with
    | none => .error .indexError
    | some x => .ok (x, l)

end GT

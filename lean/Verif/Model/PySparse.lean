import Verif.Model.PyGtc

/-!
# The pure-Python sparse clause block (green_tsetlin/py_gtc/tsetlin_state.py:227-491, green_tsetlin/py_gtc/clause_block.py:117-135)

Rows `k` and `k + n_clauses` of `clauses` and `clause_indexes` are the two halves of clause `k`, entries `c` and
`c + n_classes` of `active_literals` the two lists of class `c`. An example is the list of the literals that are 1, an integer array
(lines 66-110 of dense_input_block.py), so that `list == lit` compares element by element. States are Python integers. A Python exception is a value; what it
leaves of the block is not modelled. Probabilities are exact rationals, numpy's generator is a stream of draws.
-/

namespace GT

/-- A row: `clause_indexes[k]` and `clauses[k]`, two lists (green_tsetlin/py_gtc/tsetlin_state.py:249-250). -/
structure PRow where
  idx : List Nat
  st  : List Int
deriving DecidableEq, Repr

/-- A clause: its two rows, its weights and `literal_counts[k]` (green_tsetlin/py_gtc/tsetlin_state.py:249-256). -/
structure PSClause where
  pos : PRow
  neg : PRow
  w   : List Int
  cnt : Nat
deriving DecidableEq, Repr

/-- `ClauseBlockSparse` with its `TsetlinStateSparse` (green_tsetlin/py_gtc/clause_block.py:117-135,
green_tsetlin/py_gtc/tsetlin_state.py:228-243). `outs` is `clause_outputs`, an attribute that the first example creates. -/
structure PSBlock where
  nClasses : Nat
  budget   : Option Nat
  s        : Rat
  clauses  : List PSClause
  al       : List (List Nat × List Nat)
  outs     : Option (List Nat)
  votes    : List Int
  rng      : Rng

/-- A Python subscript of a list (green_tsetlin/py_gtc/tsetlin_state.py:294-322; numbers here are never negative). -/
def pyAt {α : Type} (l : List α) (i : Nat) : Except PyErr α :=
  match l[i]? with
  | some a => .ok a
  | none => .error .indexError

/-- `clauses[j]` and `clause_indexes[j]`, `j` counting the rows of both halves (green_tsetlin/py_gtc/tsetlin_state.py:249-250). -/
def rowAt (cs : List PSClause) (j : Nat) : Except PyErr PRow := pyAt (cs.map (·.pos) ++ cs.map (·.neg)) j

/-- `for i, ta in enumerate(clause_indexes[j]): if clauses[j][i] > 0 and bad(ta)`
(green_tsetlin/py_gtc/tsetlin_state.py:298-304, 317-323): whether the body ran once. -/
def pysScan (bad : Nat → Bool) (st : List Int) : List Nat → Nat → Except PyErr Bool
  | [], _ => .ok false
  | ta :: idx, i =>
    match pyAt st i, pysScan bad st idx (i + 1) with
    | .ok v, .ok r => .ok ((decide (v > 0) && bad ta) || r)
    | .error e, _ => .error e
    | _, .error e => .error e

/-- Both loops over the rows of clause `k` and the output they leave (green_tsetlin/py_gtc/tsetlin_state.py:298-304, 317-323). -/
def pysConj (cs : List PSClause) (x : List Nat) (k : Nat) : Except PyErr Nat := do
  let p ← rowAt cs k
  let a ← pysScan (fun ta => !x.contains ta) p.st p.idx 0
  let q ← rowAt cs (k + cs.length)
  let b ← pysScan (fun ta => x.contains ta) q.st q.idx 0
  return if a || b then 0 else 1

/-- The condition of `continue` (green_tsetlin/py_gtc/tsetlin_state.py:294-295), with `n_classes` where the other half would need
`n_clauses`; `and` reads the second row only when the first is empty. -/
def pysSkip (nClasses : Nat) (cs : List PSClause) (k : Nat) : Except PyErr Bool := do
  let p ← rowAt cs k
  if p.st.length = 0 then
    let q ← rowAt cs (k + nClasses)
    return q.st.length == 0
  else return false

/-- `set_clause_output` for clause `k` (green_tsetlin/py_gtc/tsetlin_state.py:294-304). -/
def pysTrainOut (nClasses : Nat) (cs : List PSClause) (x : List Nat) (k : Nat) : Except PyErr Nat := do
  if ← pysSkip nClasses cs k then return 1
  pysConj cs x k

/-- A loop over `k .. k + n - 1` that fills an array (green_tsetlin/py_gtc/tsetlin_state.py:292, 315). -/
def fillLoop (f : Nat → Except PyErr Nat) : Nat → Nat → Except PyErr (List Nat)
  | 0, _ => .ok []
  | n + 1, k =>
    match f k, fillLoop f n (k + 1) with
    | .ok a, .ok r => .ok (a :: r)
    | .error e, _ => .error e
    | _, .error e => .error e

/-- `set_clause_output` (green_tsetlin/py_gtc/tsetlin_state.py:287-307). -/
def pysTrainOuts (nClasses : Nat) (cs : List PSClause) (x : List Nat) : Except PyErr (List Nat) :=
  fillLoop (pysTrainOut nClasses cs x) cs.length 0

/-- `eval_clause_output` (green_tsetlin/py_gtc/tsetlin_state.py:311-325): an array of ones, of which the loop sets the first `n_classes`
entries. For a row past the end the loop fails before or at line 321. -/
def pysEvalOuts (nClasses : Nat) (cs : List PSClause) (x : List Nat) : Except PyErr (List Nat) :=
  match fillLoop (pysConj cs x) nClasses 0 with
  | .ok os => .ok (os ++ List.replicate (cs.length - nClasses) 1)
  | .error e => .error e

/-- `vote_counter` (green_tsetlin/py_gtc/tsetlin_state.py:328-331): `np.dot` of `int32` outputs with `int8` weights computes in
`int32`. -/
def pysVotes (nClasses : Nat) (outs : List Nat) (cs : List PSClause) : List Int :=
  (List.range nClasses).map fun j => wrap32 (((outs.zip cs).map fun c => (c.1 : Int) * c.2.w.getD j 0).sum)

/-- `np.where(clause_indexes == lit)[0]` (green_tsetlin/py_gtc/tsetlin_state.py:397). -/
def whereIs (idx : List Nat) (lit : Nat) : List Nat :=
  (List.range idx.length).filter fun i => idx[i]? == some lit

/-- `lit_index = int(np.where(...)[0]); clauses[k][lit_index] += d` (green_tsetlin/py_gtc/tsetlin_state.py:397-398, 406-407): `int()` wants
exactly one element. -/
def PRow.bump (r : PRow) (lit : Nat) (d : Int) : Except PyErr PRow :=
  match whereIs r.idx lit with
  | [i] =>
    match pyAt r.st i with
    | .ok v => .ok { r with st := r.st.set i (v + d) }
    | .error e => .error e
  | _ => .error .typeError

/-- `update_al` (green_tsetlin/py_gtc/tsetlin_state.py:468-478), `dynamic_AL` being `True` and `al_size` 7. -/
def updateAl (al : List Nat) (lit : Nat) : List Nat :=
  if al.length < 7 then
    if lit ∈ al then al else al ++ [lit]
  else
    if lit ∈ al then al else al.drop 1 ++ [lit]

/-- `T1aFeedback`, one literal of the example and one half (green_tsetlin/py_gtc/tsetlin_state.py:395-401, 404-410). -/
def pysTouch (prob : Rat) (d : Int) (lit : Nat) (r : PRow) (al : List Nat) (g : Rng) : Except PyErr (PRow × List Nat × Rng) :=
  if lit ∈ r.idx then
    if g.next.1 ≤ prob then
      match r.bump lit d with
      | .ok r => .ok (r, al, g.next.2)
      | .error e => .error e
    else .ok (r, al, g.next.2)
  else .ok (r, updateAl al lit, g)

/-- `T1aFeedback`, loop over the literals of the example (green_tsetlin/py_gtc/tsetlin_state.py:394-410). -/
def pysT1aLits (s : Rat) : List Nat → PSClause → List Nat × List Nat → Rng → Except PyErr (PSClause × (List Nat × List Nat) × Rng)
  | [], c, a, g => .ok (c, a, g)
  | l :: ls, c, a, g =>
    match pysTouch ((s - 1) / s) 1 l c.pos a.1 g with
    | .error e => .error e
    | .ok p =>
      match pysTouch (1 / s) (-1) l c.neg a.2 p.2.2 with
      | .error e => .error e
      | .ok q => pysT1aLits s ls { c with pos := p.1, neg := q.1 } (p.2.1, q.2.1) q.2.2

/-- `for i, ta in enumerate(idx): if sel(ta): if rng.random() <= prob: clauses[i] += d`
(green_tsetlin/py_gtc/tsetlin_state.py:413-423, 431-437). -/
def pysDecay (sel : Nat → Bool) (prob : Rat) (d : Int) : List Nat → Nat → List Int → Rng → Except PyErr (List Int × Rng)
  | [], _, st, g => .ok (st, g)
  | ta :: idx, i, st, g =>
    if sel ta then
      if g.next.1 ≤ prob then
        match pyAt st i with
        | .ok v => pysDecay sel prob d idx (i + 1) (st.set i (v + d)) g.next.2
        | .error e => .error e
      else pysDecay sel prob d idx (i + 1) st g.next.2
    else pysDecay sel prob d idx (i + 1) st g

/-- The same for both rows of a clause (green_tsetlin/py_gtc/tsetlin_state.py:413-423, 431-437). -/
def pysDecayBoth (sel : Nat → Bool) (pp : Rat) (dp : Int) (pn : Rat) (dn : Int) (c : PSClause) (g : Rng) :
    Except PyErr (PSClause × Rng) :=
  match pysDecay sel pp dp c.pos.idx 0 c.pos.st g with
  | .error e => .error e
  | .ok p =>
    match pysDecay sel pn dn c.neg.idx 0 c.neg.st p.2 with
    | .error e => .error e
    | .ok q => .ok ({ c with pos := { c.pos with st := p.1 }, neg := { c.neg with st := q.1 } }, q.2)

/-- `T1aFeedback` (green_tsetlin/py_gtc/tsetlin_state.py:384-423). -/
def pysT1a (s : Rat) (x : List Nat) (c : PSClause) (a : List Nat × List Nat) (g : Rng) :
    Except PyErr (PSClause × (List Nat × List Nat) × Rng) :=
  match pysT1aLits s x c a g with
  | .error e => .error e
  | .ok r =>
    match pysDecayBoth (fun ta => !x.contains ta) (1 / s) (-1) ((s - 1) / s) 1 r.1 r.2.2 with
    | .error e => .error e
    | .ok t => .ok (t.1, r.2.1, t.2)

/-- `T1bFeedback` (green_tsetlin/py_gtc/tsetlin_state.py:426-437). -/
def pysT1b (s : Rat) (c : PSClause) (g : Rng) : Except PyErr (PSClause × Rng) :=
  pysDecayBoth (fun _ => true) (1 / s) (-1) (1 / s) (-1) c g

/-- `T2Feedback`, loop over a row (green_tsetlin/py_gtc/tsetlin_state.py:442-451). -/
def pysRaise (sel : Nat → Bool) : List Nat → Nat → List Int → Except PyErr (List Int)
  | [], _, st => .ok st
  | ta :: idx, i, st =>
    if sel ta then
      match pyAt st i with
      | .ok v => pysRaise sel idx (i + 1) (if v ≤ 0 then st.set i (v + 1) else st)
      | .error e => .error e
    else pysRaise sel idx (i + 1) st

/-- `T2Feedback`, loop over the active literals (green_tsetlin/py_gtc/tsetlin_state.py:455-464). -/
def pysAdopt (sel : Nat → Bool) : List Nat → PRow → PRow
  | [], r => r
  | l :: al, r => pysAdopt sel al (if l ∉ r.idx ∧ sel l then ⟨r.idx ++ [l], r.st ++ [0]⟩ else r)

/-- `T2Feedback` (green_tsetlin/py_gtc/tsetlin_state.py:440-464). -/
def pysT2 (x : List Nat) (c : PSClause) (a : List Nat × List Nat) : Except PyErr PSClause :=
  match pysRaise (fun ta => !x.contains ta) c.pos.idx 0 c.pos.st with
  | .error e => .error e
  | .ok p =>
    match pysRaise (fun ta => x.contains ta) c.neg.idx 0 c.neg.st with
    | .error e => .error e
    | .ok q =>
      .ok { c with
        pos := pysAdopt (fun l => !x.contains l) a.1 { c.pos with st := p }
        neg := pysAdopt (fun l => x.contains l) a.2 { c.neg with st := q } }

/-- `update_clause` (green_tsetlin/py_gtc/tsetlin_state.py:365-381) with the active literals of all classes; the weights are
`int8`. -/
def pysUpdateClause (s : Rat) (x : List Nat) (j : Nat) (target : Int) (out : Nat) (c : PSClause) (al : List (List Nat × List Nat))
    (g : Rng) : Except PyErr (PSClause × List (List Nat × List Nat) × Rng) := do
  let w ← pyAt c.w j
  let sign : Int := if w ≥ 0 then 1 else -1
  if target * sign > 0 then
    if out = 1 then
      let a ← pyAt al j
      let r ← pysT1a s x { c with w := c.w.set j (wrap8 (w + sign)) } a g
      return (r.1, al.set j r.2.1, r.2.2)
    else
      let r ← pysT1b s c g
      return (r.1, al, r.2)
  else if target * sign < 0 ∧ out = 1 then
    let a ← pyAt al j
    let r ← pysT2 x { c with w := c.w.set j (wrap8 (w - sign)) } a
    return (r, al, g)
  else return (c, al, g)

/-- The loop that drops literals (green_tsetlin/py_gtc/tsetlin_state.py:348-354, 356-362) over a copy of the states; `t` is 20.
`remove` deletes the first equal state, `pop(i)` the literal at `i`. -/
def pysPruneLoop : List Int → Nat → PRow → Except PyErr PRow
  | [], _, r => .ok r
  | v :: vs, i, r =>
    if v < -20 then
      if v ∉ r.st then .error .valueError
      else if r.idx.length ≤ i then .error .indexError
      else pysPruneLoop vs i ⟨r.idx.eraseIdx i, r.st.erase v⟩
    else pysPruneLoop vs (i + 1) r

/-- Both rows of a clause (green_tsetlin/py_gtc/tsetlin_state.py:348-362). -/
def pysPrune (c : PSClause) : Except PyErr PSClause :=
  match pysPruneLoop c.pos.st 0 c.pos, pysPruneLoop c.neg.st 0 c.neg with
  | .ok p, .ok q => .ok { c with pos := p, neg := q }
  | .error e, _ => .error e
  | _, .error e => .error e

/-- `if rng.random() < p: update_clause(...)` (green_tsetlin/py_gtc/tsetlin_state.py:342-346). -/
def pysMaybe (s : Rat) (x : List Nat) (j : Nat) (target : Int) (p : Rat) (out : Nat) (c : PSClause) (al : List (List Nat × List Nat))
    (g : Rng) : Except PyErr (PSClause × List (List Nat × List Nat) × Rng) :=
  if g.next.1 < p then pysUpdateClause s x j target out c al g.next.2 else .ok (c, al, g.next.2)

/-- `if literal_budget is not None: if literal_counts[k] > literal_budget: clause_outputs[k] = 0`
(green_tsetlin/py_gtc/tsetlin_state.py:338-340). -/
def pysLimit (budget : Option Nat) (cnt out : Nat) : Nat :=
  match budget with
  | some b => if cnt > b then 0 else out
  | none => out

/-- `train_update`, body for one clause (green_tsetlin/py_gtc/tsetlin_state.py:337-362). -/
def pysTrainClause (budget : Option Nat) (s : Rat) (x : List Nat) (fb : Feedback) (out : Nat) (c : PSClause)
    (al : List (List Nat × List Nat)) (g : Rng) : Except PyErr (Nat × PSClause × List (List Nat × List Nat) × Rng) := do
  let r ← pysMaybe s x fb.posClass 1 fb.posProb (pysLimit budget c.cnt out) c al g
  let r' ← pysMaybe s x fb.negClass (-1) fb.negProb (pysLimit budget c.cnt out) r.1 r.2.1 r.2.2
  let c' ← pysPrune r'.1
  return (pysLimit budget c.cnt out, c', r'.2.1, r'.2.2)

/-- `train_update` (green_tsetlin/py_gtc/tsetlin_state.py:333-362): the loop over the clauses. -/
def pysTrainClauses (budget : Option Nat) (s : Rat) (x : List Nat) (fb : Feedback) :
    List Nat → List PSClause → List (List Nat × List Nat) → Rng →
    Except PyErr (List Nat × List PSClause × List (List Nat × List Nat) × Rng)
  | outs, [], al, g => .ok (outs, [], al, g)
  | [], _ :: _, _, _ => .error .indexError
  | o :: outs, c :: cs, al, g => do
    let r ← pysTrainClause budget s x fb o c al g
    let t ← pysTrainClauses budget s x fb outs cs r.2.2.1 r.2.2.2
    return (r.1 :: t.1, r.2.1 :: t.2.1, t.2.2.1, t.2.2.2)

/-- `train_example`, `eval_example` and `train_update` (green_tsetlin/py_gtc/clause_block.py:77-102) up to `register_votes`. -/
def PSBlock.apply (b : PSBlock) : BlockOp → Except PyErr PSBlock
  | .trainExample x =>
    match pysTrainOuts b.nClasses b.clauses x with
    | .ok os => .ok { b with outs := some os, votes := pysVotes b.nClasses os b.clauses }
    | .error e => .error e
  | .evalExample x =>
    match pysEvalOuts b.nClasses b.clauses x with
    | .ok os => .ok { b with outs := some os, votes := pysVotes b.nClasses os b.clauses }
    | .error e => .error e
  | .trainUpdate x fb =>
    match b.outs with
    | none => .error .attributeError
    | some os =>
      match pysTrainClauses b.budget b.s x fb os b.clauses b.al b.rng with
      | .ok r => .ok { b with outs := some r.1, clauses := r.2.1, al := r.2.2.1, rng := r.2.2.2 }
      | .error e => .error e

/-- A history of calls (green_tsetlin/py_gtc/executors.py:54-118 makes these calls). -/
def PSBlock.run (b : PSBlock) : List BlockOp → Except PyErr PSBlock
  | [] => .ok b
  | op :: ops =>
    match b.apply op with
    | .ok b => b.run ops
    | .error e => .error e

/-- `initialize` (green_tsetlin/py_gtc/tsetlin_state.py:245-259) and `set_s`: no literals, weights drawn from -1 and 1, 32700 or no
budget turn the budget off. `up k j` is the draw for a weight, `g` the generator after these draws. -/
def pysInit (nClauses nClasses : Nat) (budget : Option Nat) (s : Rat) (up : Nat → Nat → Bool) (g : Rng) : PSBlock where
  nClasses := nClasses
  budget := pyBudget budget
  s := s
  clauses := (List.range nClauses).map fun k =>
    ⟨⟨[], []⟩, ⟨[], []⟩, (List.range nClasses).map fun j => if up k j then 1 else -1, 0⟩
  al := List.replicate nClasses ([], [])
  outs := none
  votes := List.replicate nClasses 0
  rng := g

end GT

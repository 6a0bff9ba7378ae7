import Verif.Model.Flat
import Verif.Model.SparseState

/-!
# The sparse clause block on its vectors (src/func_sparse.hpp, src/sparse_tsetlin_state.hpp)

The same functions as in `Verif.Model.Sparse`, statement by statement on the containers of the code: the tracked literals and their
states are two separate vectors of vectors with `2 * num_clauses` rows each, and every access and every `int` index computation is
checked. `none` stands for an access outside a container or a pointer, an `int` overflow (both undefined behaviour), and for
`std::out_of_range` thrown by `at`. The scans of the example (`literals->at(lit_k)` for `lit_k < literals->size()`) cannot leave it;
they are the recursions over the example of `Verif.Model.Sparse`. Counters of type `uint32_t` and `size_t` do not overflow here.
-/

namespace GT

/-- `SparseTsetlinState` (src/sparse_tsetlin_state.hpp:20-60). `literal_counts` is allocated only with a budget
(src/func_sparse.hpp:66-67): without one it is `nullptr`, here the empty list. -/
structure FlatS where
  nClauses : Nat
  nClasses : Nat
  cfg      : SCfg
  rows     : List (List Nat)
  states   : List (List Int)
  al       : List (List Nat)
  alIdx    : List Nat
  counts   : List Nat
  outputs  : List Nat
  votes    : List Int
  weights  : List Int
  fast     : Rng

/-! ## Outputs -/

/-- The loop over the positive row in training (src/func_sparse.hpp:160-201), `rem` entries from `k` on; `pos_clause_states[ta_k]` is
not checked by the code. `some false` is the jump to `endclause`. -/
def posTrainC (x : List Nat) (row : List Nat) (st : List Int) : Nat → Nat → Option Bool
  | 0, _ => some true
  | rem + 1, k => do
    let v ← rd st k
    if v < 0 then posTrainC x row st rem (k + 1)
    else
      let t ← rd row k
      match scanTrain x t with
      | some true => posTrainC x row st rem (k + 1)
      | some false => some false
      | none =>
        let back ← row.getLast?
        if t = back then some false else posTrainC x row st rem (k + 1)

/-- The loop over the positive row in evaluation (src/func_sparse.hpp:294-330). -/
def posEvalC (x : List Nat) (row : List Nat) (st : List Int) : Nat → Nat → Option Bool
  | 0, _ => some true
  | rem + 1, k => do
    let v ← rd st k
    if v < 0 then posEvalC x row st rem (k + 1)
    else
      let t ← rd row k
      match scanEval x t with
      | some true => posEvalC x row st rem (k + 1)
      | some false => some false
      | none =>
        let back ← row.getLast?
        if t = back then some false else posEvalC x row st rem (k + 1)

/-- The loop over the negated row (src/func_sparse.hpp:202-235, 331-361). -/
def negLoopC (x : List Nat) (row : List Nat) (st : List Int) : Nat → Nat → Option Bool
  | 0, _ => some true
  | rem + 1, k => do
    let v ← rd st k
    if v < 0 then negLoopC x row st rem (k + 1)
    else
      let t ← rd row k
      if scanNeg x t then some false else negLoopC x row st rem (k + 1)

/-- Counting the included literals of one row (src/func_sparse.hpp:240-246, 247-253). -/
def countOnC (st : List Int) : Nat → Nat → Option Nat
  | 0, _ => some 0
  | rem + 1, k => do
    let v ← rd st k
    let n ← countOnC st rem (k + 1)
    return if v ≥ 0 then n + 1 else n

/-- Both rows in training (src/func_sparse.hpp:160-235): the output is still 1 at the end. -/
def trainOkC (x : List Nat) (pos neg : List Nat) (pst nst : List Int) : Option Bool := do
  if ← posTrainC x pos pst pos.length 0 then negLoopC x neg nst neg.length 0 else return false

/-- Both rows in evaluation (src/func_sparse.hpp:294-361). -/
def evalOkC (x : List Nat) (pos neg : List Nat) (pst nst : List Int) : Option Bool := do
  if ← posEvalC x pos pst pos.length 0 then negLoopC x neg nst neg.length 0 else return false

/-- `state.clause_outputs[clause_k] = 0` on the way to `endclause` (src/func_sparse.hpp:174, 198, 217). -/
def putOutC (outs : List Nat) (k : Nat) (ok : Bool) : Option (List Nat) := if ok then some outs else wr outs k 0

/-- The literal count, only with a budget (src/func_sparse.hpp:150-151, 238-257); of two empty rows it is 0. -/
def putCountC (cfg : SCfg) (counts : List Nat) (k : Nat) (pos neg : List Nat) (pst nst : List Int) : Option (List Nat) :=
  if cfg.budget.isSome then do
    let a ← countOnC pst pos.length 0
    let b ← countOnC nst neg.length 0
    wr counts k (a + b)
  else some counts

/-- `SetClauseOutputSparseTM::operator()` for one clause (src/func_sparse.hpp:134-259). -/
def FlatS.setOutBody (x : List Nat) (k : Nat) (m : FlatS) : Option FlatS := do
  let kn ← i32 (k + m.nClauses)
  let pos ← rd m.rows k
  let neg ← rd m.rows kn
  let pst ← rd m.states k
  let nst ← rd m.states kn
  let outs ← wr m.outputs k 1
  if pos.length = 0 ∧ neg.length = 0 then
    return { m with outputs := outs, counts := ← putCountC m.cfg m.counts k pos neg pst nst }
  else
    let ok ← trainOkC x pos neg pst nst
    let outs ← putOutC outs k ok
    return { m with outputs := outs, counts := ← putCountC m.cfg m.counts k pos neg pst nst }

/-- `SetClauseOutputSparseTM::operator()` (src/func_sparse.hpp:127-265). -/
def FlatS.setOut (m : FlatS) (x : List Nat) : Option FlatS := forLoop (FlatS.setOutBody x) m.nClauses 0 m

/-- `EvalClauseOutputSparseTM::operator()` for one clause (src/func_sparse.hpp:273-366). -/
def FlatS.evalBody (x : List Nat) (k : Nat) (m : FlatS) : Option FlatS := do
  let kn ← i32 (k + m.nClauses)
  let pos ← rd m.rows k
  let neg ← rd m.rows kn
  let pst ← rd m.states k
  let nst ← rd m.states kn
  let outs ← wr m.outputs k 1
  if pos.length = 0 ∨ neg.length = 0 then
    return { m with outputs := ← wr outs k 0 }
  else
    let ok ← evalOkC x pos neg pst nst
    return { m with outputs := ← putOutC outs k ok }

/-- `EvalClauseOutputSparseTM::operator()` (src/func_sparse.hpp:267-367). -/
def FlatS.evalOut (m : FlatS) (x : List Nat) : Option FlatS := forLoop (FlatS.evalBody x) m.nClauses 0 m

/-- `CountVotesSparseTM::operator()` for one clause (src/func_sparse.hpp:378-386); the index computation and the 16-bit sum are those
of the dense block (`voteBody`). -/
def FlatS.countBody (k : Nat) (m : FlatS) : Option FlatS := do
  if (← rd m.outputs k) = 1 then
    let votes ← forLoop (voteBody m.nClasses m.weights k) m.nClasses 0 m.votes
    return { m with votes := votes }
  else return m

/-- `CountVotesSparseTM::operator()` (src/func_sparse.hpp:374-388). -/
def FlatS.countVotes (m : FlatS) : Option FlatS := do
  let votes ← forLoop zeroBody m.nClasses 0 m.votes
  forLoop FlatS.countBody m.nClauses 0 { m with votes := votes }

/-! ## Feedback -/

/-- `UpdateAL` (src/func_sparse.hpp:812-861): the active literals of class `cls` and the replace indices of all classes. -/
def updateALC (cfg : SCfg) (al : List Nat) (idx : List Nat) (lit cls : Nat) : Option (List Nat × List Nat) :=
  if al.length < cfg.alSize then
    if lit ∈ al then some (al, idx) else some (al ++ [lit], idx)
  else if cfg.dynamicAL then
    if lit ∈ al then some (al, idx)
    else do
      let i ← rd idx cls
      let al ← wr al i lit
      let idx ← wr idx cls (i + 1)
      let j ← rd idx cls
      if j = cfg.alSize then return (al, ← wr idx cls 0) else return (al, idx)
  else some (al, idx)

/-- `if (literal_state_pos == 1) update_al(...)` (src/func_sparse.hpp:586-589). -/
def missingC (cfg : SCfg) (al : List Nat) (idx : List Nat) (lit cls : Nat) (found : Bool) : Option (List Nat × List Nat) :=
  if found then some (al, idx) else updateALC cfg al idx lit cls

/-- The search of a row for a literal and the update `f` of its state (src/func_sparse.hpp:563-584, 592-603), `rem` entries from `k` on:
the states, the generator and whether it was found. -/
def updFirstC (f : Int → Rng → Int × Rng) (lit : Nat) (row : List Nat) :
    Nat → Nat → List Int → Rng → Option (List Int × Rng × Bool)
  | 0, _, st, g => some (st, g, false)
  | rem + 1, k, st, g => do
    if (← rd row k) = lit then
      let v ← rd st k
      return (← wr st k (f v g).1, (f v g).2, true)
    else updFirstC f lit row rem (k + 1) st g

/-- The update `f` of the state of every entry whose literal satisfies `p` (src/func_sparse.hpp:612-627, 630-654, 671-689, 703-736);
the state is also read where the code draws first and then leaves it alone (src/func_sparse.hpp:673-677). -/
def updAllC (p : Nat → Bool) (f : Int → Rng → Int × Rng) (row : List Nat) :
    Nat → Nat → List Int → Rng → Option (List Int × Rng)
  | 0, _, st, g => some (st, g)
  | rem + 1, k, st, g => do
    let t ← rd row k
    if p t then
      let v ← rd st k
      updAllC p f row rem (k + 1) (← wr st k (f v g).1) (f v g).2
    else updAllC p f row rem (k + 1) st g

/-- The loop over the literals in `Type1aFeedbackSparseTM` (src/func_sparse.hpp:556-609). -/
def t1aLitsC (cfg : SCfg) (cls : Nat) (pos neg : List Nat) : List Nat → List Int → List Int → List Nat → List Nat → Rng →
    Option (List Int × List Int × List Nat × List Nat × Rng)
  | [], pst, nst, al, idx, g => some (pst, nst, al, idx, g)
  | l :: ls, pst, nst, al, idx, g => do
    let (pst, g, found) ← updFirstC (stepUp cfg) l pos pos.length 0 pst g
    let (al, idx) ← missingC cfg al idx l cls found
    let (nst, g, _) ← updFirstC (stepDown cfg) l neg neg.length 0 nst g
    t1aLitsC cfg cls pos neg ls pst nst al idx g

/-- `Type1aFeedbackSparseTM` (src/func_sparse.hpp:539-657): the rows stay, the states, active literals and replace indices change. -/
def t1aC (cfg : SCfg) (x : List Nat) (cls : Nat) (pos neg : List Nat) (pst nst : List Int) (al idx : List Nat) (g : Rng) :
    Option (List Int × List Int × List Nat × List Nat × Rng) := do
  let (pst, nst, al, idx, g) ← t1aLitsC cfg cls pos neg x pst nst al idx g
  let (pst, g) ← updAllC (fun l => !decide (l ∈ x)) (stepDown cfg) pos pos.length 0 pst g
  let (nst, g) ← updAllC (fun l => !decide (l ∈ x)) (stepUp cfg) neg neg.length 0 nst g
  return (pst, nst, al, idx, g)

/-- `Type1bFeedbackSparseTM` (src/func_sparse.hpp:660-691). -/
def t1bC (cfg : SCfg) (pos neg : List Nat) (pst nst : List Int) (g : Rng) : Option (List Int × List Int × Rng) := do
  let (pst, g) ← updAllC (fun _ => true) (stepForget cfg) pos pos.length 0 pst g
  let (nst, g) ← updAllC (fun _ => true) (stepForget cfg) neg neg.length 0 nst g
  return (pst, nst, g)

/-- The two `push_back`s for an active literal (src/func_sparse.hpp:747-759, 765-777). -/
def trackC (cfg : SCfg) (lit : Nat) (row : List Nat) (st : List Int) : List Nat × List Int :=
  if lit ∈ row then (row, st)
  else if row.length < cfg.clauseSize then (row ++ [lit], st ++ [wrap8 (cfg.lowerTA + 5)]) else (row, st)

/-- The loop over the active literals in `Type2FeedbackSparseTM` (src/func_sparse.hpp:740-780). -/
def t2ActiveC (cfg : SCfg) (x : List Nat) : List Nat → List Nat × List Int → List Nat × List Int →
    (List Nat × List Int) × (List Nat × List Int)
  | [], pos, neg => (pos, neg)
  | a :: as, pos, neg =>
    if a ∈ x then t2ActiveC cfg x as pos (trackC cfg a neg.1 neg.2)
    else t2ActiveC cfg x as (trackC cfg a pos.1 pos.2) neg

/-- `Type2FeedbackSparseTM` (src/func_sparse.hpp:694-810). -/
def t2C (cfg : SCfg) (x : List Nat) (pos neg : List Nat) (pst nst : List Int) (al : List Nat) (g : Rng) :
    Option ((List Nat × List Int) × (List Nat × List Int)) := do
  let (pst, _) ← updAllC (fun l => !decide (l ∈ x)) stepReject pos pos.length 0 pst g
  let (nst, _) ← updAllC (fun l => decide (l ∈ x)) stepReject neg neg.length 0 nst g
  return t2ActiveC cfg x al (pos, pst) (neg, nst)

/-- `prune_clause` (src/func_sparse.hpp:482-497); `fuel` is at least the number of rounds left. -/
def pruneC (lower : Int) : Nat → Nat → List Nat → List Int → Option (List Nat × List Int)
  | 0, _, row, st => some (row, st)
  | fuel + 1, k, row, st =>
    if k < row.length then do
      let v ← rd st k
      if v < lower then pruneC lower fuel (k + 1) (row.eraseIdx k) (st.eraseIdx k)
      else pruneC lower fuel (k + 1) row st
    else some (row, st)

/-- `std::swap(v->at(j), v->at(j + 1))` (src/func_sparse.hpp:511-512, 525-526). -/
def swapC {α : Type} (l : List α) (j : Nat) : Option (List α) := do
  let a ← rd l j
  let b ← rd l (j + 1 : Nat)
  let l ← wr l j b
  wr l (j + 1 : Nat) a

/-- The inner loop of the sort (src/func_sparse.hpp:521-529), `rem` comparisons from `j` on. -/
def bubblePassC : Nat → Nat → List Nat → List Int → Bool → Option (List Nat × List Int × Bool)
  | 0, _, row, st, sw => some (row, st, sw)
  | rem + 1, j, row, st, sw => do
    let a ← rd row j
    let b ← rd row (j + 1 : Nat)
    if a > b then
      let row ← swapC row j
      let st ← swapC st j
      bubblePassC rem (j + 1) row st true
    else bubblePassC rem (j + 1) row st sw

/-- The outer loop of the sort (src/func_sparse.hpp:518-532) with `size - i` rounds left. -/
def bubbleLoopC : Nat → List Nat → List Int → Bool → Option (List Nat × List Int)
  | 0, row, st, _ => some (row, st)
  | r + 1, row, st, sw => do
    let (row, st, sw) ← bubblePassC r 0 row st sw
    if sw = false then return (row, st) else bubbleLoopC r row st sw

/-- `sort_clauses_and_states` (src/func_sparse.hpp:499-535). -/
def sortC (row : List Nat) (st : List Int) : Option (List Nat × List Int) :=
  if row.length = 1 then some (row, st)
  else if row.length = 2 then do
    let a ← rd row 0
    let b ← rd row 1
    if a > b then return (← swapC row 0, ← swapC st 0) else return (row, st)
  else bubbleLoopC row.length row st false

/-- The rows of one clause and its active literals as changed through the pointers of `TrainUpdateSparseTM`
(src/func_sparse.hpp:401-413): the rows `k` and `kn` are different objects, so the callee works on copies that are written back. -/
def FlatS.store (m : FlatS) (k : Nat) (kn : Int) (pos neg : List Nat × List Int) : Option FlatS := do
  let rows ← wr m.rows k pos.1
  let rows ← wr rows kn neg.1
  let states ← wr m.states k pos.2
  let states ← wr states kn neg.2
  return { m with rows := rows, states := states }

/-- `ClauseUpdateSparseTM::operator()` (src/func_sparse.hpp:442-480); `wi` is the position of `*clause_weight`, `out` is
`clause_output`. -/
def FlatS.clauseUpdate (m : FlatS) (x : List Nat) (k : Nat) (kn wi : Int) (cls : Nat) (target : Int) (out : Nat) : Option FlatS := do
  let w ← rd m.weights wi
  let sign : Int := if w ≥ 0 then 1 else -1
  let pos ← rd m.rows k
  let neg ← rd m.rows kn
  let pst ← rd m.states k
  let nst ← rd m.states kn
  let al ← rd m.al cls
  if target * sign > 0 then
    if out = 1 then
      let ws ← wr m.weights wi (wrap16 (w + sign))
      let (pst, nst, al, idx, g) ← t1aC m.cfg x cls pos neg pst nst al m.alIdx m.fast
      let p ← pruneC m.cfg.lowerTA pos.length 0 pos pst
      let n ← pruneC m.cfg.lowerTA neg.length 0 neg nst
      let m' ← m.store k kn p n
      return { m' with weights := ws, al := ← wr m.al cls al, alIdx := idx, fast := g }
    else if out = 0 then
      let (pst, nst, g) ← t1bC m.cfg pos neg pst nst m.fast
      let p ← pruneC m.cfg.lowerTA pos.length 0 pos pst
      let n ← pruneC m.cfg.lowerTA neg.length 0 neg nst
      let m' ← m.store k kn p n
      return { m' with fast := g }
    else return m
  else if target * sign < 0 ∧ out = 1 then
    let ws ← wr m.weights wi (wrap16 (w - sign))
    let (p, n) ← t2C m.cfg x pos neg pst nst al m.fast
    let p ← sortC p.1 p.2
    let n ← sortC n.1 n.2
    let m' ← m.store k kn p n
    return { m' with weights := ws }
  else return m

/-- The budget check (src/func_sparse.hpp:417-423). -/
def FlatS.gate (m : FlatS) (k : Nat) : Option FlatS :=
  match m.cfg.budget with
  | some b => do
    if (← rd m.counts k) > b then
      let outs ← wr m.outputs k 0
      return { m with outputs := outs }
    else return m
  | none => some m

/-- `if (state.fast_rng.next_u() < prob) clause_update(...)` (src/func_sparse.hpp:425-429, 431-436). -/
def FlatS.maybeUpdate (m : FlatS) (x : List Nat) (k : Nat) (kn wrow : Int) (cls : Nat) (target : Int) (prob : Rat) : Option FlatS :=
  if m.fast.next.1 < prob then do
    let out ← rd m.outputs k
    { m with fast := m.fast.next.2 }.clauseUpdate x k kn (wrow + cls) cls target out
  else some { m with fast := m.fast.next.2 }

/-- `TrainUpdateSparseTM::operator()` for one clause (src/func_sparse.hpp:397-437): the addresses of the rows and of the active literals
of both classes are taken before anything is drawn. -/
def FlatS.trainBody (x : List Nat) (fb : Feedback) (k : Nat) (m : FlatS) : Option FlatS := do
  let kn ← i32 (k + m.nClauses)
  let _ ← rd m.rows k
  let _ ← rd m.rows kn
  let _ ← rd m.states k
  let _ ← rd m.states kn
  let _ ← rd m.al fb.posClass
  let _ ← rd m.al fb.negClass
  let wrow ← i32 (k * m.nClasses)
  let m ← m.gate k
  let m ← m.maybeUpdate x k kn wrow fb.posClass 1 fb.posProb
  m.maybeUpdate x k kn wrow fb.negClass (-1) fb.negProb

/-- `TrainUpdateSparseTM::operator()` (src/func_sparse.hpp:391-440). -/
def FlatS.trainUpdate (m : FlatS) (x : List Nat) (fb : Feedback) : Option FlatS :=
  forLoop (FlatS.trainBody x fb) m.nClauses 0 m

/-- Effect of one call (src/clause_block.hpp:65-86, 425-447). -/
def FlatS.apply (m : FlatS) : BlockOp → Option FlatS
  | .trainExample x => do (← m.setOut x).countVotes
  | .evalExample x => do (← m.evalOut x).countVotes
  | .trainUpdate x fb => m.trainUpdate x fb

/-- A history of calls (src/executor.hpp:99-195 makes these calls). -/
def FlatS.run (m : FlatS) : List BlockOp → Option FlatS
  | [] => some m
  | op :: ops => do (← m.apply op).run ops

/-! ## Life cycle -/

/-- `v.resize(n)` of a vector of vectors (src/func_sparse.hpp:42-43, 51): elements that are there stay, new ones are empty. -/
def resizeC {α : Type} (l : List (List α)) (n : Nat) : List (List α) := l.take n ++ List.replicate (n - l.length) []

/-- `InitializeSparseTM::operator()` (src/func_sparse.hpp:22-92) on a block in any state `m`: `some none` is a refusal. New arrays hold
arbitrary values before they are written; `literal_counts` stays so. -/
def FlatS.initialize (m : FlatS) (fastOf : Nat → Rng) (junk : Nat → Int) (junkC : Nat → Nat) (seed : Nat) : Option (Option FlatS) :=
  if seed = 0 then some none
  else if m.cfg.budget = some 0 then some none
  else do
    let two ← i32 (2 * m.nClauses)
    let wm ← i32 (m.nClauses * m.nClasses)
    let (ws, f) ← forLoop initWeightBody wm.toNat 0 ((List.range wm.toNat).map junk, fastOf seed)
    return some { m with
      rows := resizeC m.rows two.toNat
      states := resizeC m.states two.toNat
      al := resizeC m.al m.nClasses
      alIdx := List.replicate m.nClasses 0
      counts := if m.cfg.budget.isSome then (List.range m.nClauses).map junkC else m.counts
      outputs := List.replicate m.nClauses 0
      votes := List.replicate m.nClasses 0
      weights := ws
      fast := f }

/-- A block after its constructor (src/clause_block.hpp:250-260, src/sparse_tsetlin_state.hpp:20-60): nothing is allocated. -/
def FlatS.constructed (nClauses nClasses : Nat) (cfg : SCfg) (g : Rng) : FlatS where
  nClauses := nClauses
  nClasses := nClasses
  cfg := cfg
  rows := []
  states := []
  al := []
  alIdx := []
  counts := []
  outputs := []
  votes := []
  weights := []
  fast := g

/-- `CleanupSparseTM::operator()` (src/func_sparse.hpp:94-124): `clause_outputs` is not freed and `active_literals` is not cleared. -/
def FlatS.cleanup (m : FlatS) : FlatS :=
  { m with rows := [], states := [], votes := [], weights := [], alIdx := [],
           counts := if m.cfg.budget.isSome then [] else m.counts }

/-! ## Taking the clauses out and putting them back -/

/-- `get_clause_state_sparse_npy`, inner loop (src/clause_block.hpp:299-303): the states and literals of one row. -/
def csrPushC (row : List Nat) (st : List Int) : Nat → Nat → List Int → List Nat → Option (List Int × List Nat)
  | 0, _, d, i => some (d, i)
  | rem + 1, k, d, i => do csrPushC row st rem (k + 1) (d ++ [← rd st k]) (i ++ [← rd row k])

/-- `get_clause_state_sparse_npy`, outer loop (src/clause_block.hpp:296-306), `rem` rows from `i` on; `offset` is an `int`. -/
def FlatS.getCsrLoop (m : FlatS) : Nat → Nat → Int → CsrArr → Option (Int × CsrArr)
  | 0, _, off, a => some (off, a)
  | rem + 1, i, off, a => do
    let row ← rd m.rows i
    let st ← rd m.states i
    let (d, ix) ← csrPushC row st row.length 0 a.data a.indices
    let off' ← i32 (off + row.length)
    m.getCsrLoop rem (i + 1) off' ⟨d, ix, a.indptr ++ [off.toNat]⟩

/-- `get_clause_state_sparse_npy` (src/clause_block.hpp:286-319). -/
def FlatS.getCsr (m : FlatS) : Option CsrArr := do
  let n ← i32 (m.nClauses * 2)
  let (off, a) ← m.getCsrLoop n.toNat 0 0 ⟨[], [], []⟩
  return { a with indptr := a.indptr ++ [off.toNat] }

/-- `set_clause_state_sparse_npy` (src/clause_block.hpp:322-357): the reads of the arrays are those of `csrRows`; the rows replace the
vectors whatever their number is. -/
def FlatS.setCsr (m : FlatS) (a : CsrArr) : Option FlatS :=
  if a.indptr = [] then none
  else do
    let rows ← csrRows a a.indptr
    return { m with rows := rows.map (·.map (·.1)), states := rows.map (·.map (·.2)) }

end GT

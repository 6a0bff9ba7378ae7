import Verif.Model.Basic

/-!
# The portable dense clause block (src/func_tm.hpp)

A clause is the pair of its two half rows of literal states (`clause_row[0..n)` and
`clause_row[n..2n)`), its class weights, its output flag and its literal count.
Simplification: the C++ code keeps these in five flat arrays indexed by `clause_k * stride`;
here they are grouped per clause.  The flat layout itself is modelled in `Verif.Model.Layout`.
-/

namespace GT

/-- One clause of a dense block: rows `clauses[clause_k*2n ..]`, `clause_weights[clause_k*n_classes ..]`,
`clause_outputs[clause_k]`, `literal_counts[clause_k]` (src/aligned_tsetlin_state.hpp:33-40). -/
structure Clause where
  pos : List Int
  neg : List Int
  w   : List Int
  out : Nat
  cnt : Nat
deriving DecidableEq, Repr

/-- Template flags and hyper-parameters of a dense block: `do_literal_budget` together with
`literal_budget` (`none` = `do_literal_budget == false`), `boost_true_positive`, and
`s_inv`, `s_min1_inv` (src/aligned_tsetlin_state.hpp:22-24,40; src/main.cpp:81-98). -/
structure Cfg where
  budget   : Option Nat
  boost    : Bool
  sInv     : Rat
  sMin1Inv : Rat
deriving DecidableEq

/-- `AlignedTsetlinState::set_s` (src/aligned_tsetlin_state.hpp:62-66), the part used by the
portable backend: `s_inv = 1/s`, `s_min1_inv = (s-1)/s` in exact arithmetic. -/
def Cfg.setS (c : Cfg) (s : Rat) : Cfg := { c with sInv := 1 / s, sMin1Inv := (s - 1) / s }

/-- `SetClauseOutputTM::operator()` inner loop (src/func_tm.hpp:116-144): output and the two literal
counters; `break` on the first violated literal. `bud` is the template flag `do_literal_budget`. -/
def setOutLoop (bud : Bool) : List Int → List Int → List Nat → Nat → Nat → Nat × Nat × Nat
  | p :: ps, q :: qs, x :: xs, pc, nc =>
    if p ≥ 0 ∧ x = 0 then (0, pc, nc)
    else
      let pc := if p ≥ 0 ∧ bud then pc + 1 else pc
      if q ≥ 0 ∧ x = 1 then (0, pc, nc)
      else
        let nc := if q ≥ 0 ∧ bud then nc + 1 else nc
        setOutLoop bud ps qs xs pc nc
  | _, _, _, pc, nc => (1, pc, nc)

/-- `SetClauseOutputTM::operator()`, body for one clause (src/func_tm.hpp:106-149): sets the output,
and the literal count when a budget is in use. -/
def setOutClause (cfg : Cfg) (x : List Nat) (c : Clause) : Clause :=
  let r := setOutLoop cfg.budget.isSome c.pos c.neg x 0 0
  { c with out := r.1, cnt := if cfg.budget.isSome then r.2.1 + r.2.2 else c.cnt }

/-- `EvalClauseOutputTM::operator()` inner loop (src/func_tm.hpp:168-191): output and
`is_empty_clause`. -/
def evalOutLoop : List Int → List Int → List Nat → Bool → Nat × Bool
  | p :: ps, q :: qs, x :: xs, e =>
    let e := if p ≥ 0 then false else e
    if p ≥ 0 ∧ x = 0 then (0, e)
    else
      let e := if q ≥ 0 then false else e
      if q ≥ 0 ∧ x = 1 then (0, e)
      else evalOutLoop ps qs xs e
  | _, _, _, e => (1, e)

/-- `EvalClauseOutputTM::operator()`, body for one clause (src/func_tm.hpp:160-195). -/
def evalOutClause (x : List Nat) (c : Clause) : Clause :=
  let r := evalOutLoop c.pos c.neg x true
  { c with out := if r.2 then 0 else r.1 }

/-- `if(row[k] < upper_state) row[k] += 1` with `upper_state = 127` (src/func_tm.hpp:305,317-318). -/
def incState (v : Int) : Int := if v < 127 then wrap8 (v + 1) else v

/-- `if(row[k] > lower_state) row[k] -= 1` with `lower_state = -127` (src/func_tm.hpp:304,333-334). -/
def decState (v : Int) : Int := if v > -127 then wrap8 (v - 1) else v

/-- `Type1aFeedbackTM::operator()` (src/func_tm.hpp:293-355). Draw order as in the code: for a literal
equal to 1 first the positive side (no draw when boosting), then the negated side; otherwise first the
positive, then the negated side. -/
def t1a (cfg : Cfg) : List Int → List Int → List Nat → Rng → List Int × List Int × Rng
  | p :: ps, q :: qs, x :: xs, g =>
    if x = 1 then
      let a : Int × Rng :=
        if cfg.boost then (incState p, g)
        else (if g.next.1 ≤ cfg.sMin1Inv then incState p else p, g.next.2)
      let q' := if a.2.next.1 ≤ cfg.sInv then decState q else q
      let r := t1a cfg ps qs xs a.2.next.2
      (a.1 :: r.1, q' :: r.2.1, r.2.2)
    else
      let p' := if g.next.1 ≤ cfg.sInv then decState p else p
      let g := g.next.2
      let q' := if g.next.1 ≤ cfg.sMin1Inv then incState q else q
      let r := t1a cfg ps qs xs g.next.2
      (p' :: r.1, q' :: r.2.1, r.2.2)
  | ps, qs, _, g => (ps, qs, g)

/-- `Type1bFeedbackTM::operator()` (src/func_tm.hpp:357-389). -/
def t1b (cfg : Cfg) : List Int → List Int → Rng → List Int × List Int × Rng
  | p :: ps, q :: qs, g =>
    let p' := if g.next.1 ≤ cfg.sInv then decState p else p
    let g := g.next.2
    let q' := if g.next.1 ≤ cfg.sInv then decState q else q
    let r := t1b cfg ps qs g.next.2
    (p' :: r.1, q' :: r.2.1, r.2.2)
  | ps, qs, g => (ps, qs, g)

/-- `Type2FeedbackTM::operator()` (src/func_tm.hpp:392-415). -/
def t2 : List Int → List Int → List Nat → List Int × List Int
  | p :: ps, q :: qs, x :: xs =>
    let r := t2 ps qs xs
    if x = 0 then ((if p < 0 then wrap8 (p + 1) else p) :: r.1, q :: r.2)
    else (p :: r.1, (if q < 0 then wrap8 (q + 1) else q) :: r.2)
  | ps, qs, _ => (ps, qs)

/-- `ClauseUpdateTM::operator()` (src/func_tm.hpp:260-291) for the weight of class `j`
(`clause_weights + j`). An index `j` outside the weight row is undefined behaviour in C++; here it
reads 0 and writes nothing. -/
def clauseUpdate (cfg : Cfg) (x : List Nat) (j : Nat) (target : Int) (c : Clause) (g : Rng) :
    Clause × Rng :=
  let w := c.w.getD j 0
  let sign : Int := if w ≥ 0 then 1 else -1
  if target * sign > 0 then
    if c.out = 1 then
      let r := t1a cfg c.pos c.neg x g
      ({ c with w := c.w.set j (wrap16 (w + sign)), pos := r.1, neg := r.2.1 }, r.2.2)
    else
      let r := t1b cfg c.pos c.neg g
      ({ c with pos := r.1, neg := r.2.1 }, r.2.2)
  else if target * sign < 0 ∧ c.out = 1 then
    let r := t2 c.pos c.neg x
    ({ c with w := c.w.set j (wrap16 (w - sign)), pos := r.1, neg := r.2 }, g)
  else (c, g)

/-- What `FeedbackBlock` hands to `train_update`: the two classes and their update probabilities
(src/executor.hpp:135-148). -/
structure Feedback where
  posClass : Nat
  posProb  : Rat
  negClass : Nat
  negProb  : Rat
deriving DecidableEq

/-- The budget check at the start of a clause's update (src/func_tm.hpp:239-243). -/
def budgetGate (cfg : Cfg) (c : Clause) : Clause :=
  match cfg.budget with
  | some b => if c.cnt > b then { c with out := 0 } else c
  | none => c

/-- `TrainUpdateTM::operator()`, body for one clause (src/func_tm.hpp:234-256). The first generator
is `fast_rng` (is the clause updated at all?), the second is `rng` (literal draws). -/
def trainClause (cfg : Cfg) (x : List Nat) (fb : Feedback) (c : Clause) (fast rng : Rng) :
    Clause × Rng × Rng :=
  let c := budgetGate cfg c
  let a : Clause × Rng :=
    if fast.next.1 < fb.posProb then clauseUpdate cfg x fb.posClass 1 c rng else (c, rng)
  let fast := fast.next.2
  let b : Clause × Rng :=
    if fast.next.1 < fb.negProb then clauseUpdate cfg x fb.negClass (-1) a.1 a.2 else a
  (b.1, fast.next.2, b.2)

/-- `TrainUpdateTM::operator()`, loop over the clauses of the block (src/func_tm.hpp:227-258). -/
def trainClauses (cfg : Cfg) (x : List Nat) (fb : Feedback) :
    List Clause → Rng → Rng → List Clause × Rng × Rng
  | [], fast, rng => ([], fast, rng)
  | c :: cs, fast, rng =>
    let r := trainClause cfg x fb c fast rng
    let rs := trainClauses cfg x fb cs r.2.1 r.2.2
    (r.1 :: rs.1, rs.2.1, rs.2.2)

/-- Adding one weight row to the vote accumulators, class by class, with the 16-bit store
(src/func_tm.hpp:217-221). -/
def addVotes (v w : List Int) : List Int := List.zipWith (fun a b => wrap16 (a + b)) v w

/-- `CountVotesTM::operator()` (src/func_tm.hpp:206-225): votes start at zero, every clause with
output 1 adds its weights. -/
def countVotes (nClasses : Nat) (cs : List Clause) : List Int :=
  cs.foldl (fun v c => if c.out = 1 then addVotes v c.w else v) (List.replicate nClasses 0)

/-- A dense clause block `ClauseBlockT<VanillaTsetlinState, ...>` (src/clause_block.hpp:93-234,
src/main.cpp:81-98): configuration, clauses, `class_votes`, and its two generators. -/
structure DBlock where
  nLits    : Nat
  nClasses : Nat
  cfg      : Cfg
  clauses  : List Clause
  votes    : List Int
  fast     : Rng
  rng      : Rng

/-- `ClauseBlockT::train_set_clause_output` (src/clause_block.hpp:195-200): SetClauseOutputTM over
all clauses. -/
def DBlock.trainSetOutput (b : DBlock) (x : List Nat) : DBlock :=
  { b with clauses := b.clauses.map (setOutClause b.cfg x) }

/-- `ClauseBlockT::eval_set_clause_output` (src/clause_block.hpp:202-206). -/
def DBlock.evalSetOutput (b : DBlock) (x : List Nat) : DBlock :=
  { b with clauses := b.clauses.map (evalOutClause x) }

/-- The counting half of `ClauseBlockT::set_votes` (src/clause_block.hpp:187-193); registering the
votes with the feedback block is modelled in `Verif.Model.Executor`. -/
def DBlock.countVotes (b : DBlock) : DBlock :=
  { b with votes := GT.countVotes b.nClasses b.clauses }

/-- `ClauseBlockT::train_update` (src/clause_block.hpp:208-212). -/
def DBlock.trainUpdate (b : DBlock) (x : List Nat) (fb : Feedback) : DBlock :=
  let r := trainClauses b.cfg x fb b.clauses b.fast b.rng
  { b with clauses := r.1, fast := r.2.1, rng := r.2.2 }

/-- The calls an executor makes on a dense block, in any order (src/clause_block.hpp:65-86,
src/executor.hpp:99-195). -/
inductive BlockOp
  | trainExample (x : List Nat)
  | evalExample (x : List Nat)
  | trainUpdate (x : List Nat) (fb : Feedback)

/-- Effect of one call (src/clause_block.hpp:65-86): `train_example` and `eval_example` set outputs and
count votes, `train_update` gives feedback. -/
def DBlock.apply (b : DBlock) : BlockOp → DBlock
  | .trainExample x => (b.trainSetOutput x).countVotes
  | .evalExample x => (b.evalSetOutput x).countVotes
  | .trainUpdate x fb => b.trainUpdate x fb

/-- A history of calls on one block (src/executor.hpp:99-195 makes these calls). -/
def DBlock.run (b : DBlock) (ops : List BlockOp) : DBlock := ops.foldl DBlock.apply b

/-- One training step of one example: outputs and votes, then feedback on the same example
(src/executor.hpp:118-148 seen from one block). -/
def DBlock.trainStep (b : DBlock) (x : List Nat) (fb : Feedback) : DBlock :=
  (b.apply (.trainExample x)).apply (.trainUpdate x fb)

/-- `init_clauses` of `InitializeTM` for one half row (src/func_tm.hpp:50-59): each state is a draw of
`uniform_int_distribution<int8_t>(-1, 0)`. -/
def initHalf : Nat → Rng → List Int × Rng
  | 0, g => ([], g)
  | n + 1, g =>
    let r := initHalf n g.next.2
    ((if g.next.1 < 1 / 2 then -1 else 0) :: r.1, r.2)

/-- `init_clause_weights` of `InitializeTM` for one clause (src/func_tm.hpp:61-73): `+1` if
`next_u() > 0.5`, else `-1`. -/
def initWeights : Nat → Rng → List Int × Rng
  | 0, g => ([], g)
  | n + 1, g =>
    let r := initWeights n g.next.2
    ((if g.next.1 > 1 / 2 then 1 else -1) :: r.1, r.2)

/-- Rows of all clauses, in memory order (src/func_tm.hpp:54-58). -/
def initRows (nLits : Nat) : Nat → Rng → List (List Int × List Int) × Rng
  | 0, g => ([], g)
  | k + 1, g =>
    let p := initHalf nLits g
    let q := initHalf nLits p.2
    let r := initRows nLits k q.2
    ((p.1, q.1) :: r.1, r.2)

/-- Weights of all clauses, in memory order (src/func_tm.hpp:64-72). -/
def initAllWeights (nClasses : Nat) : Nat → Rng → List (List Int) × Rng
  | 0, g => ([], g)
  | k + 1, g =>
    let p := initWeights nClasses g
    let r := initAllWeights nClasses k p.2
    (p.1 :: r.1, r.2)

/-- `InitializeTM::operator()` (src/func_tm.hpp:13-46): refuses seed 0, otherwise allocates and
initialises the block. `fastOf`/`rngOf` give the generator for a seed. Outputs start at 0; the
literal counts are uninitialised memory in C++ (`new uint32_t[]`), here the arbitrary values `junk`. -/
def initTM (nLits nClauses nClasses : Nat) (cfg : Cfg) (fastOf rngOf : Nat → Rng) (junk : Nat → Nat)
    (seed : Nat) : Option DBlock :=
  if seed = 0 then none
  else
    let rows := initRows nLits nClauses (rngOf seed)
    let ws := initAllWeights nClasses nClauses (fastOf seed)
    some
      { nLits := nLits, nClasses := nClasses, cfg := cfg,
        clauses := (rows.1.zip ws.1).mapIdx fun i rw => ⟨rw.1.1, rw.1.2, rw.2, 0, junk i⟩,
        votes := List.replicate nClasses 0, fast := ws.2, rng := rows.2 }

end GT

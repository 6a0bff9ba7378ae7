import Verif.Model.Dense

/-!
# The sparse clause block (src/func_sparse.hpp)

A half of a clause is the list of the literals it tracks together with their states.  Simplification: the C++ code
keeps the literals and the states in two vectors (`clauses[i]`, `clause_states[i]`) that are always erased from,
swapped and appended to together; here they are one list of pairs.  The positive half of clause `k` is row `k`, the
negated half row `k + num_clauses`; here they are grouped per clause (the flat rows are in `Verif.Model.SparseState`).
An example is the list of the literals that are 1.
-/

namespace GT

/-- `clauses[i]` and `clause_states[i]` (src/sparse_tsetlin_state.hpp:10-12,46-47). -/
abbrev Half := List (Nat × Int)

/-- One clause: its two rows, `clause_weights`, `clause_outputs`, `literal_counts`
(src/sparse_tsetlin_state.hpp:37-53). -/
structure SClause where
  pos : Half
  neg : Half
  w   : List Int
  out : Nat
  cnt : Nat
deriving DecidableEq, Repr

/-- Template flags and parameters of a sparse block (src/sparse_tsetlin_state.hpp:20-38, src/main.cpp:134-151). -/
structure SCfg where
  budget     : Option Nat
  boost      : Bool
  dynamicAL  : Bool
  sInv       : Rat
  sMin1Inv   : Rat
  clauseSize : Nat
  alSize     : Nat
  lowerTA    : Int
deriving DecidableEq

/-! ## Outputs -/

/-- The scan of the example for one included positive literal in training (src/func_sparse.hpp:170-193):
`some true` found, `some false` a greater literal came first, `none` the example ended. -/
def scanTrain : List Nat → Nat → Option Bool
  | [], _ => none
  | l :: ls, t => if l > t then some false else if l < t then scanTrain ls t else some true

/-- The loop over the positive half in training (src/func_sparse.hpp:160-201); `last` is `pos_clause.back()`,
`false` is the jump to `endclause` with output 0. -/
def posTrain (last : Nat) (x : List Nat) : Half → Bool
  | [] => true
  | e :: h =>
    if e.2 < 0 then posTrain last x h
    else
      match scanTrain x e.1 with
      | some true => posTrain last x h
      | some false => false
      | none => if e.1 = last then false else posTrain last x h

/-- The scan of the example for one included negated literal (src/func_sparse.hpp:212-233, 340-359): found? -/
def scanNeg : List Nat → Nat → Bool
  | [], _ => false
  | l :: ls, t => if t = l then true else if l < t then scanNeg ls t else false

/-- The loop over the negated half (src/func_sparse.hpp:202-235, 331-361); `false` is the jump with output 0. -/
def negLoop (x : List Nat) : Half → Bool
  | [] => true
  | e :: h => if e.2 < 0 then negLoop x h else if scanNeg x e.1 then false else negLoop x h

/-- Number of literals with a non-negative state (src/func_sparse.hpp:238-257). -/
def countOn : Half → Nat
  | [] => 0
  | e :: h => if e.2 ≥ 0 then countOn h + 1 else countOn h

/-- `pos_clause.back()`; only read inside the loop, where the row is not empty (src/func_sparse.hpp:134-236). -/
def backLit (h : Half) : Nat := (h.getLast?.map (·.1)).getD 0

/-- `SetClauseOutputSparseTM`, body for one clause (src/func_sparse.hpp:134-259). -/
def sSetClause (cfg : SCfg) (x : List Nat) (c : SClause) : SClause :=
  if c.pos.length = 0 ∧ c.neg.length = 0 then
    { c with out := 1, cnt := if cfg.budget.isSome then 0 else c.cnt }
  else
    { c with
      out := if posTrain (backLit c.pos) x c.pos && negLoop x c.neg then 1 else 0
      cnt := if cfg.budget.isSome then countOn c.pos + countOn c.neg else c.cnt }

/-- The scan of the example for one included positive literal in evaluation (src/func_sparse.hpp:302-322). -/
def scanEval : List Nat → Nat → Option Bool
  | [], _ => none
  | l :: ls, t => if t = l then some true else if l < t then scanEval ls t else some false

/-- The loop over the positive half in evaluation (src/func_sparse.hpp:294-330). -/
def posEval (last : Nat) (x : List Nat) : Half → Bool
  | [] => true
  | e :: h =>
    if e.2 < 0 then posEval last x h
    else
      match scanEval x e.1 with
      | some true => posEval last x h
      | some false => false
      | none => if e.1 = last then false else posEval last x h

/-- `EvalClauseOutputSparseTM`, body for one clause (src/func_sparse.hpp:273-366). -/
def sEvalClause (x : List Nat) (c : SClause) : SClause :=
  if c.pos.length = 0 ∨ c.neg.length = 0 then { c with out := 0 }
  else { c with out := if posEval (backLit c.pos) x c.pos && negLoop x c.neg then 1 else 0 }

/-- `CountVotesSparseTM` (src/func_sparse.hpp:370-389). -/
def sCountVotes (nClasses : Nat) (cs : List SClause) : List Int :=
  cs.foldl (fun v c => if c.out = 1 then addVotes v c.w else v) (List.replicate nClasses 0)

/-! ## Active literals -/

/-- `UpdateAL` (src/func_sparse.hpp:812-861): the active-literal list of one class and its replace index.
`at(index)` throws when the index is past the end; here such a write does nothing (it never happens, see C38). -/
def updateAL (cfg : SCfg) (al : List Nat × Nat) (lit : Nat) : List Nat × Nat :=
  if al.1.length < cfg.alSize then
    if lit ∈ al.1 then al else (al.1 ++ [lit], al.2)
  else if cfg.dynamicAL then
    if lit ∈ al.1 then al
    else (al.1.set al.2 lit, if al.2 + 1 = cfg.alSize then 0 else al.2 + 1)
  else al

/-! ## Feedback -/

/-- The update of the first entry of a half for literal `lit` (`break` after it), with `f` the update of a state:
the half, the generator and whether there was an entry (src/func_sparse.hpp:540-810). -/
def updFirst (f : Int → Rng → Int × Rng) (lit : Nat) : Half → Rng → Half × Rng × Bool
  | [], g => ([], g, false)
  | e :: h, g =>
    if e.1 = lit then ((e.1, (f e.2 g).1) :: h, (f e.2 g).2, true)
    else
      let r := updFirst f lit h g
      (e :: r.1, r.2.1, r.2.2)

/-- The update `f` of every entry whose literal satisfies `p`, in order (src/func_sparse.hpp:540-810). -/
def updAll (p : Nat → Bool) (f : Int → Rng → Int × Rng) : Half → Rng → Half × Rng
  | [], g => ([], g)
  | e :: h, g =>
    if p e.1 then
      let r := updAll p f h (f e.2 g).2
      ((e.1, (f e.2 g).1) :: r.1, r.2)
    else
      let r := updAll p f h g
      (e :: r.1, r.2)

/-- `if(state < upper) { boost ? ++ : if(next_u() <= s_min1_inv) ++ }` (src/func_sparse.hpp:567-580, 640-651):
a draw is made only below 127 and without boosting. -/
def stepUp (cfg : SCfg) (v : Int) (g : Rng) : Int × Rng :=
  if v < 127 then
    if cfg.boost then (wrap8 (v + 1), g)
    else (if g.next.1 ≤ cfg.sMin1Inv then wrap8 (v + 1) else v, g.next.2)
  else (v, g)

/-- `if(state > lower && next_u() <= s_inv) --` (src/func_sparse.hpp:596-599, 623-624): a draw is made only above
-127. -/
def stepDown (cfg : SCfg) (v : Int) (g : Rng) : Int × Rng :=
  if v > -127 then (if g.next.1 ≤ cfg.sInv then wrap8 (v - 1) else v, g.next.2) else (v, g)

/-- `if(next_u() <= s_inv) if(state > lower) --` (src/func_sparse.hpp:674-678): always a draw. -/
def stepForget (cfg : SCfg) (v : Int) (g : Rng) : Int × Rng :=
  (if g.next.1 ≤ cfg.sInv ∧ v > -127 then wrap8 (v - 1) else v, g.next.2)

/-- The loop over the literals of the example in `Type1aFeedbackSparseTM` (src/func_sparse.hpp:556-609). -/
def t1aLits (cfg : SCfg) : List Nat → Half → Half → List Nat × Nat → Rng →
    Half × Half × (List Nat × Nat) × Rng
  | [], pos, neg, al, g => (pos, neg, al, g)
  | l :: ls, pos, neg, al, g =>
    let p := updFirst (stepUp cfg) l pos g
    let al := if p.2.2 then al else updateAL cfg al l
    let n := updFirst (stepDown cfg) l neg p.2.1
    t1aLits cfg ls p.1 n.1 al n.2.1

/-- `Type1aFeedbackSparseTM` (src/func_sparse.hpp:539-657). -/
def sT1a (cfg : SCfg) (x : List Nat) (pos neg : Half) (al : List Nat × Nat) (g : Rng) :
    Half × Half × (List Nat × Nat) × Rng :=
  let r := t1aLits cfg x pos neg al g
  let p := updAll (fun l => !decide (l ∈ x)) (stepDown cfg) r.1 r.2.2.2
  let n := updAll (fun l => !decide (l ∈ x)) (stepUp cfg) r.2.1 p.2
  (p.1, n.1, r.2.2.1, n.2)

/-- `Type1bFeedbackSparseTM` (src/func_sparse.hpp:660-691). -/
def sT1b (cfg : SCfg) (pos neg : Half) (g : Rng) : Half × Half × Rng :=
  let p := updAll (fun _ => true) (stepForget cfg) pos g
  let n := updAll (fun _ => true) (stepForget cfg) neg p.2
  (p.1, n.1, n.2)

/-- `if(state < 0) state += 1` (src/func_sparse.hpp:715-716, 730-731). -/
def stepReject (v : Int) (g : Rng) : Int × Rng := (if v < 0 then wrap8 (v + 1) else v, g)

/-- Appending a literal to a half that does not track it yet, if there is room (src/func_sparse.hpp:747-759,
765-777). The new state `lower_ta_threshold + 5` is narrowed to a byte. -/
def track (cfg : SCfg) (lit : Nat) (h : Half) : Half :=
  if lit ∈ h.map (·.1) then h
  else if h.length < cfg.clauseSize then h ++ [(lit, wrap8 (cfg.lowerTA + 5))] else h

/-- The loop over the active literals in `Type2FeedbackSparseTM` (src/func_sparse.hpp:740-780): the new halves. -/
def t2Active (cfg : SCfg) (x : List Nat) : List Nat → Half → Half → Half × Half
  | [], pos, neg => (pos, neg)
  | a :: as, pos, neg =>
    if a ∈ x then t2Active cfg x as pos (track cfg a neg)
    else t2Active cfg x as (track cfg a pos) neg

/-- `Type2FeedbackSparseTM` (src/func_sparse.hpp:694-810); it draws no random numbers. -/
def sT2 (cfg : SCfg) (x : List Nat) (pos neg : Half) (al : List Nat) (g : Rng) : Half × Half :=
  let p := (updAll (fun l => !decide (l ∈ x)) stepReject pos g).1
  let n := (updAll (fun l => decide (l ∈ x)) stepReject neg g).1
  t2Active cfg x al p n

/-- `prune_clause` (src/func_sparse.hpp:482-497): the entry that moves into the place of an erased one is
skipped, as the loop counter still advances. -/
def prune (lower : Int) : Half → Half
  | [] => []
  | e :: h =>
    if e.2 < lower then
      match h with
      | [] => []
      | e' :: h' => e' :: prune lower h'
    else e :: prune lower h

/-- One pass of the bubble sort over the first `m` neighbouring pairs (src/func_sparse.hpp:521-529); the flag is
`swapped`. -/
def bubblePass : Nat → Half → Bool → Half × Bool
  | m + 1, a :: b :: h, sw =>
    if a.1 > b.1 then
      let r := bubblePass m (a :: h) true
      (b :: r.1, r.2)
    else
      let r := bubblePass m (b :: h) sw
      (a :: r.1, r.2)
  | _, h, sw => (h, sw)

/-- The passes (src/func_sparse.hpp:518-532), `r = size - i` of them left: pass `i` makes `size - i - 1`
comparisons; `swapped` is never reset. -/
def bubbleLoop : Nat → Half → Bool → Half
  | 0, h, _ => h
  | r + 1, h, sw =>
    let p := bubblePass r h sw
    if p.2 = false then p.1 else bubbleLoop r p.1 p.2

/-- `sort_clauses_and_states` (src/func_sparse.hpp:499-535). -/
def sortHalf (h : Half) : Half :=
  match h with
  | [a] => [a]
  | [a, b] => if a.1 > b.1 then [b, a] else [a, b]
  | h => bubbleLoop h.length h false

/-- `ClauseUpdateSparseTM` (src/func_sparse.hpp:442-480) for the weight of class `j`, whose active literals and
replace index are `al`. -/
def sClauseUpdate (cfg : SCfg) (x : List Nat) (j : Nat) (target : Int) (c : SClause) (al : List Nat × Nat)
    (g : Rng) : SClause × (List Nat × Nat) × Rng :=
  let w := c.w.getD j 0
  let sign : Int := if w ≥ 0 then 1 else -1
  if target * sign > 0 then
    if c.out = 1 then
      let r := sT1a cfg x c.pos c.neg al g
      ({ c with w := c.w.set j (wrap16 (w + sign)), pos := prune cfg.lowerTA r.1,
                neg := prune cfg.lowerTA r.2.1 }, r.2.2.1, r.2.2.2)
    else if c.out = 0 then
      let r := sT1b cfg c.pos c.neg g
      ({ c with pos := prune cfg.lowerTA r.1, neg := prune cfg.lowerTA r.2.1 }, al, r.2.2)
    else (c, al, g)
  else if target * sign < 0 ∧ c.out = 1 then
    let r := sT2 cfg x c.pos c.neg al.1 g
    ({ c with w := c.w.set j (wrap16 (w - sign)), pos := sortHalf r.1, neg := sortHalf r.2 }, al, g)
  else (c, al, g)

/-- The budget check of `TrainUpdateSparseTM` (src/func_sparse.hpp:417-423). -/
def sBudgetGate (cfg : SCfg) (c : SClause) : SClause :=
  match cfg.budget with
  | some b => if c.cnt > b then { c with out := 0 } else c
  | none => c

/-- The active literals of all classes with their replace indices (`active_literals`, `al_replace_index`)
(src/sparse_tsetlin_state.hpp:32,49). -/
abbrev AL := List (List Nat × Nat)

/-- An update of one clause with the active literals of class `j`, written back. A class outside the list is
undefined behaviour in C++; here it reads an empty list and writes nothing (src/func_sparse.hpp:425-436). -/
def sUpdateWith (cfg : SCfg) (x : List Nat) (j : Nat) (target : Int) (c : SClause) (al : AL) (g : Rng) :
    SClause × AL × Rng :=
  let r := sClauseUpdate cfg x j target c (al.getD j ([], 0)) g
  (r.1, al.set j r.2.1, r.2.2)

/-- `TrainUpdateSparseTM`, body for one clause (src/func_sparse.hpp:397-437); one generator decides the updates and
the literal steps. -/
def sTrainClause (cfg : SCfg) (x : List Nat) (fb : Feedback) (c : SClause) (al : AL) (g : Rng) :
    SClause × AL × Rng :=
  let c := sBudgetGate cfg c
  let a : SClause × AL × Rng :=
    if g.next.1 < fb.posProb then sUpdateWith cfg x fb.posClass 1 c al g.next.2 else (c, al, g.next.2)
  let g := a.2.2
  if g.next.1 < fb.negProb then sUpdateWith cfg x fb.negClass (-1) a.1 a.2.1 g.next.2
  else (a.1, a.2.1, g.next.2)

/-- `TrainUpdateSparseTM` (src/func_sparse.hpp:391-440). -/
def sTrainClauses (cfg : SCfg) (x : List Nat) (fb : Feedback) :
    List SClause → AL → Rng → List SClause × AL × Rng
  | [], al, g => ([], al, g)
  | c :: cs, al, g =>
    let r := sTrainClause cfg x fb c al g
    let rs := sTrainClauses cfg x fb cs r.2.1 r.2.2
    (r.1 :: rs.1, rs.2.1, rs.2.2)

/-- A sparse clause block (src/clause_block.hpp:237-477). -/
structure SBlock where
  nLits    : Nat
  nClasses : Nat
  cfg      : SCfg
  clauses  : List SClause
  al       : AL
  votes    : List Int
  fast     : Rng

/-- Effect of one call on the block (src/clause_block.hpp:65-86, 425-447). -/
def SBlock.apply (b : SBlock) : BlockOp → SBlock
  | .trainExample x =>
    let cs := b.clauses.map (sSetClause b.cfg x)
    { b with clauses := cs, votes := sCountVotes b.nClasses cs }
  | .evalExample x =>
    let cs := b.clauses.map (sEvalClause x)
    { b with clauses := cs, votes := sCountVotes b.nClasses cs }
  | .trainUpdate x fb =>
    let r := sTrainClauses b.cfg x fb b.clauses b.al b.fast
    { b with clauses := r.1, al := r.2.1, fast := r.2.2 }

/-- One training step on an example (src/executor.hpp:118-148 seen from one block). -/
def SBlock.trainStep (b : SBlock) (x : List Nat) (fb : Feedback) : SBlock :=
  (b.apply (.trainExample x)).apply (.trainUpdate x fb)

/-- `InitializeSparseTM` (src/func_sparse.hpp:22-92): refuses seed 0 and, with a budget, a budget of 0; all rows
and active-literal lists start empty, weights are drawn. The literal counts are uninitialised memory (`junk`). -/
def initSparse (nLits nClauses nClasses : Nat) (cfg : SCfg) (fastOf : Nat → Rng) (junk : Nat → Nat) (seed : Nat) :
    Option SBlock :=
  if seed = 0 then none
  else if cfg.budget = some 0 then none
  else
    let ws := initAllWeights nClasses nClauses (fastOf seed)
    some
      { nLits := nLits, nClasses := nClasses, cfg := cfg,
        clauses := ws.1.mapIdx fun i w => ⟨[], [], w, 0, junk i⟩,
        al := List.replicate nClasses ([], 0), votes := List.replicate nClasses 0, fast := ws.2 }

end GT

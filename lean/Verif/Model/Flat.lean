import Verif.Model.Dense

/-!
# The portable dense clause block on its flat arrays (src/func_tm.hpp)

The same functions as in `Verif.Model.Dense`, but statement by statement on the arrays of
src/aligned_tsetlin_state.hpp with the index computations of the code. Every array access is checked: an access outside
the array, and `int` arithmetic that overflows, give `none` (undefined behaviour in C++). Random draws, `s_inv` and 8- and
16-bit stores are as in `Verif.Model.Dense`.
-/

namespace GT

/-- The result of `int` arithmetic; overflow is undefined (for example src/func_tm.hpp:22). -/
def i32 (z : Int) : Option Int := if -2147483648 ≤ z ∧ z < 2147483648 then some z else none

/-- `a[i]` (for example src/func_tm.hpp:123). -/
def rd {α : Type} (a : List α) (i : Int) : Option α := if 0 ≤ i then a[i.toNat]? else none

/-- `a[i] = v` (for example src/func_tm.hpp:111). -/
def wr {α : Type} (a : List α) (i : Int) (v : α) : Option (List α) :=
  if 0 ≤ i ∧ i.toNat < a.length then some (a.set i.toNat v) else none

/-- `for(int k = k0; k < k0 + rem; ++k) body` (for example src/func_tm.hpp:106). -/
def forLoop {σ : Type} (body : Nat → σ → Option σ) : Nat → Nat → σ → Option σ
  | 0, _, s => some s
  | rem + 1, k, s => do
    let s ← body k s
    forLoop body rem (k + 1) s

/-- `AlignedTsetlinState` as the portable backend uses it (src/aligned_tsetlin_state.hpp:16-60). The arrays of negative size and
`num_literals < 0` are left out. -/
structure FlatTM where
  nLits    : Nat
  nClauses : Nat
  nClasses : Nat
  cfg      : Cfg
  clauses  : List Int
  outputs  : List Nat
  weights  : List Int
  votes    : List Int
  counts   : List Nat
  fast     : Rng
  rng      : Rng

/-- `&state.clauses[clause_k * (state.num_literals*2)]` (src/func_tm.hpp:113): the offset of a row. -/
def rowPtr (nLits k : Nat) : Option Int := do
  let w ← i32 (nLits * 2)
  i32 (k * w)

/-- `&state.clauses[(clause_k * (state.num_literals*2)) + state.num_literals]` (src/func_tm.hpp:114). -/
def negPtr (nLits k : Nat) : Option Int := do
  let p ← rowPtr nLits k
  i32 (p + nLits)

/-- `if(*pl >= 0) { if(literals[literal_k] == v)` (src/func_tm.hpp:119-121): the example is read only for an included literal. -/
def violated (p : Int) (x : List Nat) (k v : Nat) : Option Bool :=
  if p ≥ 0 then do return (← rd x k) == v else some false

/-- `SetClauseOutputTM::operator()`, inner loop (src/func_tm.hpp:116-144), with the two pointers, the output array and the
two counters; `break` ends it. -/
def flatSetLoop (bud : Bool) (cl : List Int) (x : List Nat) (ck : Nat) :
    Nat → Nat → Int → Int → List Nat × Nat × Nat → Option (List Nat × Nat × Nat)
  | 0, _, _, _, s => some s
  | rem + 1, k, pp, pn, (outs, pc, nc) => do
    let p ← rd cl pp
    if ← violated p x k 0 then
      return (← wr outs ck 0, pc, nc)
    let pc := if p ≥ 0 ∧ bud then pc + 1 else pc
    let q ← rd cl pn
    if ← violated q x k 1 then
      return (← wr outs ck 0, pc, nc)
    let nc := if q ≥ 0 ∧ bud then nc + 1 else nc
    flatSetLoop bud cl x ck rem (k + 1) (pp + 1) (pn + 1) (outs, pc, nc)

/-- `SetClauseOutputTM::operator()` for one clause (src/func_tm.hpp:108-148). -/
def FlatTM.setOutBody (x : List Nat) (k : Nat) (m : FlatTM) : Option FlatTM := do
  let outs ← wr m.outputs k 1
  let pp ← rowPtr m.nLits k
  let pn ← negPtr m.nLits k
  let (outs, pc, nc) ← flatSetLoop m.cfg.budget.isSome m.clauses x k m.nLits 0 pp pn (outs, 0, 0)
  if m.cfg.budget.isSome then
    let counts ← wr m.counts k (pc + nc)
    return { m with outputs := outs, counts := counts }
  else
    return { m with outputs := outs }

/-- `SetClauseOutputTM::operator()` (src/func_tm.hpp:104-150). -/
def FlatTM.setOut (m : FlatTM) (x : List Nat) : Option FlatTM := forLoop (FlatTM.setOutBody x) m.nClauses 0 m

/-- `EvalClauseOutputTM::operator()`, inner loop (src/func_tm.hpp:168-191). -/
def flatEvalLoop (cl : List Int) (x : List Nat) (ck : Nat) :
    Nat → Nat → Int → Int → List Nat × Bool → Option (List Nat × Bool)
  | 0, _, _, _, s => some s
  | rem + 1, k, pp, pn, (outs, e) => do
    let p ← rd cl pp
    let e := if p ≥ 0 then false else e
    if ← violated p x k 0 then
      return (← wr outs ck 0, e)
    let q ← rd cl pn
    let e := if q ≥ 0 then false else e
    if ← violated q x k 1 then
      return (← wr outs ck 0, e)
    flatEvalLoop cl x ck rem (k + 1) (pp + 1) (pn + 1) (outs, e)

/-- `EvalClauseOutputTM::operator()` for one clause (src/func_tm.hpp:160-195). -/
def FlatTM.evalBody (x : List Nat) (k : Nat) (m : FlatTM) : Option FlatTM := do
  let outs ← wr m.outputs k 1
  let pp ← rowPtr m.nLits k
  let pn ← negPtr m.nLits k
  let (outs, e) ← flatEvalLoop m.clauses x k m.nLits 0 pp pn (outs, true)
  if e then
    return { m with outputs := ← wr outs k 0 }
  else
    return { m with outputs := outs }

/-- `EvalClauseOutputTM::operator()` (src/func_tm.hpp:157-196). -/
def FlatTM.evalOut (m : FlatTM) (x : List Nat) : Option FlatTM := forLoop (FlatTM.evalBody x) m.nClauses 0 m

/-- `CountVotesTM::operator()` for one class of one clause (src/func_tm.hpp:219-220): the sum is stored in 16 bits. -/
def voteBody (nClasses : Nat) (ws : List Int) (ck : Nat) (c : Nat) (votes : List Int) : Option (List Int) := do
  let o ← i32 (ck * nClasses)
  let i ← i32 (o + c)
  let w ← rd ws i
  let v ← rd votes c
  wr votes c (wrap16 (v + w))

/-- `CountVotesTM::operator()` for one clause (src/func_tm.hpp:215-222). -/
def FlatTM.countBody (k : Nat) (m : FlatTM) : Option FlatTM := do
  if (← rd m.outputs k) = 1 then
    let votes ← forLoop (voteBody m.nClasses m.weights k) m.nClasses 0 m.votes
    return { m with votes := votes }
  else return m

/-- `memset(state.class_votes, 0, ...)` (src/func_tm.hpp:212). -/
def zeroBody (k : Nat) (votes : List Int) : Option (List Int) := wr votes k 0

/-- `CountVotesTM::operator()` (src/func_tm.hpp:210-224). -/
def FlatTM.countVotes (m : FlatTM) : Option FlatTM := do
  let votes ← forLoop zeroBody m.nClasses 0 m.votes
  forLoop FlatTM.countBody m.nClauses 0 { m with votes := votes }

/-- `if(row[k] < upper_state) row[k] += 1` (src/func_tm.hpp:317-318). -/
def flatInc (cl : List Int) (i : Int) : Option (List Int) := do
  let v ← rd cl i
  if v < 127 then wr cl i (wrap8 (v + 1)) else return cl

/-- `if(row[k] > lower_state) row[k] -= 1` (src/func_tm.hpp:333-334). -/
def flatDec (cl : List Int) (i : Int) : Option (List Int) := do
  let v ← rd cl i
  if v > -127 then wr cl i (wrap8 (v - 1)) else return cl

/-- `if(row[k] < 0) row[k] += 1` (src/func_tm.hpp:403-404). -/
def flatRise (cl : List Int) (i : Int) : Option (List Int) := do
  let v ← rd cl i
  if v < 0 then wr cl i (wrap8 (v + 1)) else return cl

/-- `Type1aFeedbackTM::operator()` for one literal (src/func_tm.hpp:311-353); `row` is `clause_row`. -/
def flatT1aBody (cfg : Cfg) (n : Nat) (row : Int) (x : List Nat) (k : Nat) (s : List Int × Rng) : Option (List Int × Rng) := do
  let (cl, g) := s
  if (← rd x k) = 1 then
    let (cl, g) ←
      if cfg.boost then (do return (← flatInc cl (row + k), g))
      else if g.next.1 ≤ cfg.sMin1Inv then (do return (← flatInc cl (row + k), g.next.2))
      else some (cl, g.next.2)
    if g.next.1 ≤ cfg.sInv then return (← flatDec cl (row + n + k), g.next.2) else return (cl, g.next.2)
  else
    let cl ← if g.next.1 ≤ cfg.sInv then flatDec cl (row + k) else some cl
    let g := g.next.2
    if g.next.1 ≤ cfg.sMin1Inv then return (← flatInc cl (row + n + k), g.next.2) else return (cl, g.next.2)

/-- `Type1aFeedbackTM::operator()` (src/func_tm.hpp:297-355). -/
def flatT1a (cfg : Cfg) (n : Nat) (cl : List Int) (row : Int) (x : List Nat) (g : Rng) : Option (List Int × Rng) :=
  forLoop (flatT1aBody cfg n row x) n 0 (cl, g)

/-- `Type1bFeedbackTM::operator()` for one literal (src/func_tm.hpp:370-386). -/
def flatT1bBody (cfg : Cfg) (n : Nat) (row : Int) (k : Nat) (s : List Int × Rng) : Option (List Int × Rng) := do
  let (cl, g) := s
  let cl ← if g.next.1 ≤ cfg.sInv then flatDec cl (row + k) else some cl
  let g := g.next.2
  if g.next.1 ≤ cfg.sInv then return (← flatDec cl (row + n + k), g.next.2) else return (cl, g.next.2)

/-- `Type1bFeedbackTM::operator()` (src/func_tm.hpp:361-388). -/
def flatT1b (cfg : Cfg) (n : Nat) (cl : List Int) (row : Int) (g : Rng) : Option (List Int × Rng) :=
  forLoop (flatT1bBody cfg n row) n 0 (cl, g)

/-- `Type2FeedbackTM::operator()` for one literal (src/func_tm.hpp:401-412). -/
def flatT2Body (n : Nat) (row : Int) (x : List Nat) (k : Nat) (cl : List Int) : Option (List Int) := do
  if (← rd x k) = 0 then flatRise cl (row + k) else flatRise cl (row + n + k)

/-- `Type2FeedbackTM::operator()` (src/func_tm.hpp:397-414). -/
def flatT2 (n : Nat) (cl : List Int) (row : Int) (x : List Nat) : Option (List Int) :=
  forLoop (flatT2Body n row x) n 0 cl

/-- `ClauseUpdateTM::operator()` (src/func_tm.hpp:264-289): `row` is `clause_row`, `wi` is `clause_weight`. -/
def FlatTM.clauseUpdate (m : FlatTM) (x : List Nat) (row wi : Int) (target : Int) (out : Nat) : Option FlatTM := do
  let w ← rd m.weights wi
  let sign : Int := if w ≥ 0 then 1 else -1
  if target * sign > 0 then
    if out = 1 then
      let ws ← wr m.weights wi (wrap16 (w + sign))
      let (cl, g) ← flatT1a m.cfg m.nLits m.clauses row x m.rng
      return { m with weights := ws, clauses := cl, rng := g }
    else
      let (cl, g) ← flatT1b m.cfg m.nLits m.clauses row m.rng
      return { m with clauses := cl, rng := g }
  else if target * sign < 0 ∧ out = 1 then
    let ws ← wr m.weights wi (wrap16 (w - sign))
    let cl ← flatT2 m.nLits m.clauses row x
    return { m with weights := ws, clauses := cl }
  else return m

/-- The budget check (src/func_tm.hpp:239-243). -/
def FlatTM.gate (m : FlatTM) (k : Nat) : Option FlatTM :=
  match m.cfg.budget with
  | some b => do
    if (← rd m.counts k) > b then
      let outs ← wr m.outputs k 0
      return { m with outputs := outs }
    else return m
  | none => some m

/-- `if(state.fast_rng.next_u() < prob) clause_update(...)` (src/func_tm.hpp:245-249, 251-255). The pointer `clause_weights + class`
is computed whatever the class is; the access is checked. -/
def FlatTM.maybeUpdate (m : FlatTM) (x : List Nat) (k : Nat) (row wrow : Int) (cls : Nat) (target : Int) (prob : Rat) : Option FlatTM :=
  if m.fast.next.1 < prob then do
    let out ← rd m.outputs k
    let m' ← m.clauseUpdate x row (wrow + cls) target out
    return { m' with fast := m.fast.next.2 }
  else some { m with fast := m.fast.next.2 }

/-- `TrainUpdateTM::operator()` for one clause (src/func_tm.hpp:233-256). -/
def FlatTM.trainBody (x : List Nat) (fb : Feedback) (k : Nat) (m : FlatTM) : Option FlatTM := do
  let nf ← i32 (m.nLits * 2)
  let row ← i32 (k * nf)
  let wrow ← i32 (k * m.nClasses)
  let m ← m.gate k
  let m ← m.maybeUpdate x k row wrow fb.posClass 1 fb.posProb
  m.maybeUpdate x k row wrow fb.negClass (-1) fb.negProb

/-- `TrainUpdateTM::operator()` (src/func_tm.hpp:231-258). -/
def FlatTM.trainUpdate (m : FlatTM) (x : List Nat) (fb : Feedback) : Option FlatTM :=
  forLoop (FlatTM.trainBody x fb) m.nClauses 0 m

/-- `init_clauses` for one literal (src/func_tm.hpp:54-57). -/
def initLitBody (k : Nat) (s : List Int × Rng) : Option (List Int × Rng) := do
  return (← wr s.1 k (if s.2.next.1 < 1 / 2 then -1 else 0), s.2.next.2)

/-- `init_clause_weights` for one weight (src/func_tm.hpp:64-71). -/
def initWeightBody (k : Nat) (s : List Int × Rng) : Option (List Int × Rng) := do
  return (← wr s.1 k (if s.2.next.1 > 1 / 2 then 1 else -1), s.2.next.2)

/-- `InitializeTM::operator()` (src/func_tm.hpp:17-46): `some none` is the refused seed 0. The new arrays hold arbitrary values
(`junk`, `junkC`) before they are written; `literal_counts` stays so. -/
def flatInit (nLits nClauses nClasses : Nat) (cfg : Cfg) (fastOf rngOf : Nat → Rng) (junk : Nat → Int) (junkC : Nat → Nat)
    (seed : Nat) : Option (Option FlatTM) :=
  if seed = 0 then some none
  else do
    let a ← i32 (nClauses * nLits)
    let mem ← i32 (a * 2)
    let wm ← i32 (nClauses * nClasses)
    let two ← i32 (nLits * 2)
    let total ← i32 (nClauses * two)
    let (cl, g) ← forLoop initLitBody total.toNat 0 ((List.range mem.toNat).map junk, rngOf seed)
    let (ws, f) ← forLoop initWeightBody wm.toNat 0 ((List.range wm.toNat).map junk, fastOf seed)
    return some { nLits := nLits, nClauses := nClauses, nClasses := nClasses, cfg := cfg, clauses := cl,
                  outputs := List.replicate nClauses 0, weights := ws, votes := List.replicate nClasses 0,
                  counts := (List.range nClauses).map junkC, fast := f, rng := g }

/-- Effect of one call (src/clause_block.hpp:65-86). -/
def FlatTM.apply (m : FlatTM) : BlockOp → Option FlatTM
  | .trainExample x => do (← m.setOut x).countVotes
  | .evalExample x => do (← m.evalOut x).countVotes
  | .trainUpdate x fb => m.trainUpdate x fb

/-- A history of calls (src/executor.hpp:99-195 makes these calls). -/
def FlatTM.run (m : FlatTM) : List BlockOp → Option FlatTM
  | [] => some m
  | op :: ops => do (← m.apply op).run ops

end GT

import Verif.Model.Flat
import Verif.Model.Conv

/-!
# The portable convolutional clause block on its flat arrays (src/func_conv_tm.hpp)

The functions of `Verif.Model.Conv` statement by statement on the arrays of src/aligned_tsetlin_state.hpp with the index
computations of the code, checked as in `Verif.Model.Flat`: an access outside an array or outside the example, and `int`
arithmetic that overflows, give `none`.
-/

namespace GT

/-- `AlignedTsetlinState` as the portable convolutional backend uses it (src/aligned_tsetlin_state.hpp:16-60): the dense
arrays, `num_patches_per_example`, `active_patches` and `literal_counts_per_patch`. `active_patches_storage` is emptied before
each use (src/func_conv_tm.hpp:70) and is a local of the clause loop here. -/
structure FlatConv where
  tm       : FlatTM
  nPatches : Nat
  active   : List Nat
  perPatch : List Nat

/-- `if(*pl >= 0) { if(curr_literal[literal_k] == v)` (src/func_conv_tm.hpp:86-88, 99-101), `i` being the index in the example
(lines 80-81). -/
def violatedAt (p : Int) (x : List Nat) (i : Int) (v : Nat) : Option Bool :=
  if p ≥ 0 then do return (← rd x i) == v else some false

/-- `SetClauseOutputConvTM`, literal loop (src/func_conv_tm.hpp:83-111): `patch_output` and `literal_count`; `off` is
`literal_path_offset`, `break` ends it. -/
def flatPatchLoop (bud : Bool) (cl : List Int) (x : List Nat) (off : Int) :
    Nat → Nat → Int → Int → Nat → Option (Bool × Nat)
  | 0, _, _, _, cnt => some (true, cnt)
  | rem + 1, k, pp, pn, cnt => do
    let p ← rd cl pp
    if ← violatedAt p x (off + k) 0 then
      return (false, cnt)
    let cnt := if p ≥ 0 ∧ bud then cnt + 1 else cnt
    let q ← rd cl pn
    if ← violatedAt q x (off + k) 1 then
      return (false, cnt)
    let cnt := if q ≥ 0 ∧ bud then cnt + 1 else cnt
    flatPatchLoop bud cl x off rem (k + 1) (pp + 1) (pn + 1) cnt

/-- `SetClauseOutputConvTM`, body of the patch loop (src/func_conv_tm.hpp:74-118), with `active_patches_storage`. -/
def FlatConv.setPatch (x : List Nat) (k j : Nat) (s : FlatConv × List Nat) : Option (FlatConv × List Nat) := do
  let pp ← rowPtr s.1.tm.nLits k
  let pn ← negPtr s.1.tm.nLits k
  let off ← i32 (j * s.1.tm.nLits)
  let r ← flatPatchLoop s.1.tm.cfg.budget.isSome s.1.tm.clauses x off s.1.tm.nLits 0 pp pn 0
  if r.1 then
    let outs ← wr s.1.tm.outputs k 1
    let pc ← wr s.1.perPatch j r.2
    return ({ s.1 with tm := { s.1.tm with outputs := outs }, perPatch := pc }, s.2 ++ [j])
  else return s

/-- `SetClauseOutputConvTM`, choice of the patch (src/func_conv_tm.hpp:121-129). -/
def FlatConv.choose (k : Nat) (m : FlatConv) (storage : List Nat) : Option FlatConv :=
  if storage.length = 0 then some m
  else do
    let r := m.tm.rng.pick storage.length
    let a ← rd storage r.1
    let active ← wr m.active k a
    if m.tm.cfg.budget.isSome then
      let c ← rd m.perPatch r.1
      let counts ← wr m.tm.counts k c
      return { m with active := active, tm := { m.tm with rng := r.2, counts := counts } }
    else
      return { m with active := active, tm := { m.tm with rng := r.2 } }

/-- `SetClauseOutputConvTM`, body for one clause (src/func_conv_tm.hpp:69-129). -/
def FlatConv.setBody (x : List Nat) (k : Nat) (m : FlatConv) : Option FlatConv := do
  let outs ← wr m.tm.outputs k 0
  let s ← forLoop (FlatConv.setPatch x k) m.nPatches 0 ({ m with tm := { m.tm with outputs := outs } }, [])
  s.1.choose k s.2

/-- `SetClauseOutputConvTM::operator()` (src/func_conv_tm.hpp:65-131). -/
def FlatConv.setOut (m : FlatConv) (x : List Nat) : Option FlatConv := forLoop (FlatConv.setBody x) m.tm.nClauses 0 m

/-- `EvalClauseOutputConvTM`, literal loop (src/func_conv_tm.hpp:155-178): `patch_output` and `is_empty_clause`. -/
def flatEvalPatchLoop (cl : List Int) (x : List Nat) (off : Int) : Nat → Nat → Int → Int → Bool → Option (Bool × Bool)
  | 0, _, _, _, e => some (true, e)
  | rem + 1, k, pp, pn, e => do
    let p ← rd cl pp
    let e := if p ≥ 0 then false else e
    if ← violatedAt p x (off + k) 0 then
      return (false, e)
    let q ← rd cl pn
    let e := if q ≥ 0 then false else e
    if ← violatedAt q x (off + k) 1 then
      return (false, e)
    flatEvalPatchLoop cl x off rem (k + 1) (pp + 1) (pn + 1) e

/-- `EvalClauseOutputConvTM`, patch loop (src/func_conv_tm.hpp:145-188): `rem` patches from patch `j`; `goto end_of_clause`
ends it. -/
def flatEvalPatches (m : FlatTM) (x : List Nat) (k : Nat) : Nat → Nat → List Nat → Option (List Nat)
  | 0, _, outs => some outs
  | rem + 1, j, outs => do
    let pp ← rowPtr m.nLits k
    let pn ← negPtr m.nLits k
    let off ← i32 (j * m.nLits)
    let r ← flatEvalPatchLoop m.clauses x off m.nLits 0 pp pn true
    if r.2 = false ∧ r.1 = true then wr outs k 1
    else flatEvalPatches m x k rem (j + 1) outs

/-- `EvalClauseOutputConvTM`, body for one clause (src/func_conv_tm.hpp:143-190). -/
def FlatConv.evalBody (x : List Nat) (k : Nat) (m : FlatConv) : Option FlatConv := do
  let outs ← wr m.tm.outputs k 0
  let outs ← flatEvalPatches m.tm x k m.nPatches 0 outs
  return { m with tm := { m.tm with outputs := outs } }

/-- `EvalClauseOutputConvTM::operator()` (src/func_conv_tm.hpp:139-192). -/
def FlatConv.evalOut (m : FlatConv) (x : List Nat) : Option FlatConv := forLoop (FlatConv.evalBody x) m.tm.nClauses 0 m

/-- `TrainUpdateConvTM`, body for one clause (src/func_conv_tm.hpp:209-230). `active_patches[clause_k] * num_literals` is
`uint32_t`; the pointer `patch_literals` is computed for every clause, reads through it are checked in the update. -/
def FlatConv.trainBody (x : List Nat) (fb : Feedback) (k : Nat) (m : FlatConv) : Option FlatConv := do
  let nf ← i32 (m.tm.nLits * 2)
  let row ← i32 (k * nf)
  let wrow ← i32 (k * m.tm.nClasses)
  let a ← rd m.active k
  let lits := x.drop ((a * m.tm.nLits) % 4294967296)
  let tm ← m.tm.gate k
  let tm ← tm.maybeUpdate lits k row wrow fb.posClass 1 fb.posProb
  let tm ← tm.maybeUpdate lits k row wrow fb.negClass (-1) fb.negProb
  return { m with tm := tm }

/-- `TrainUpdateConvTM::operator()` (src/func_conv_tm.hpp:202-232). -/
def FlatConv.trainUpdate (m : FlatConv) (x : List Nat) (fb : Feedback) : Option FlatConv :=
  forLoop (FlatConv.trainBody x fb) m.tm.nClauses 0 m

/-- `CountVotesTM::operator()` (src/func_tm.hpp:210-224, used by src/main.cpp:122). -/
def FlatConv.countVotes (m : FlatConv) : Option FlatConv := do
  let tm ← m.tm.countVotes
  return { m with tm := tm }

/-- `InitializeConvTM::operator()` (src/func_conv_tm.hpp:18-33): `some none` is the refusal of seed 0 and of an example without
patches. The two new arrays hold arbitrary values. -/
def flatConvInit (nLits nClauses nClasses : Nat) (nPatches : Int) (cfg : Cfg) (fastOf rngOf : Nat → Rng) (junk : Nat → Int)
    (junkC junkPatch junkCounts : Nat → Nat) (seed : Nat) : Option (Option FlatConv) := do
  match ← flatInit nLits nClauses nClasses cfg fastOf rngOf junk junkC seed with
  | none => return none
  | some tm =>
    if nPatches > 0 then
      return some { tm := tm, nPatches := nPatches.toNat, active := (List.range nClauses).map junkPatch,
                    perPatch := (List.range nPatches.toNat).map junkCounts }
    else return none

/-- Effect of one call (src/clause_block.hpp:65-86). -/
def FlatConv.apply (m : FlatConv) : BlockOp → Option FlatConv
  | .trainExample x => do (← m.setOut x).countVotes
  | .evalExample x => do (← m.evalOut x).countVotes
  | .trainUpdate x fb => m.trainUpdate x fb

/-- A history of calls (src/executor.hpp:99-195 makes these calls). -/
def FlatConv.run (m : FlatConv) : List BlockOp → Option FlatConv
  | [] => some m
  | op :: ops => do (← m.apply op).run ops

end GT

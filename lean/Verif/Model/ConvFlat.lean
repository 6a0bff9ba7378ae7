import Verif.Model.AvxFlat
import Verif.Model.ConvExec

/-!
# The AVX2 convolutional block on its example buffer (src/func_conv_avx2.hpp)

The functions of `Verif.Model.Conv` and `Verif.Model.ConvExec` again, with every load of literals made from the example buffer at the address
the code computes. A load outside the buffer or at an address that is not a multiple of 32 (`ldv`), and `int` arithmetic that overflows,
give `none`. The loads and stores of the clause rows are those of the dense block (`Verif.Model.AvxFlat`) and are not checked again.
-/

namespace GT

/-- `&curr_literal[chunk_i * 32]` where `curr_literal` is `&literals[base]` (src/func_conv_avx2.hpp:85, 89, 125). -/
def ldLits (lits : List Byte) (base i : Int) : Option (Vec avxL) := do ldv lits (base + (← posOff i))

/-- The unmasked chunks of a patch in `SetClauseOutputConvAVX2` (src/func_conv_avx2.hpp:87-120). -/
def ckSetLoop (bud : Bool) (mem : Nat) (row : Mem) (lits : List Byte) (base : Int) : Nat → Nat → Nat → Option (Bool × Nat)
  | 0, _, cnt => some (true, cnt)
  | r + 1, i, cnt => do
    let zeros := set1 avxL 0#8
    let literals ← ldLits lits base i
    let notActive := cmpgt zeros (load avxL row (i * 32))
    let cnt := if bud then cnt + popcountMask (vnot notActive) else cnt
    if anyBit (cmpeq (vor notActive literals) zeros) then return (false, cnt)
    let negLiterals := cmpeq zeros literals
    let notActive := cmpgt zeros (load avxL row (mem + i * 32))
    let cnt := if bud then cnt + popcountMask (vnot notActive) else cnt
    if anyBit (cmpeq (vor notActive negLiterals) zeros) then return (false, cnt)
    ckSetLoop bud mem row lits base r (i + 1) cnt

/-- The masked last chunk of a patch in `SetClauseOutputConvAVX2` (src/func_conv_avx2.hpp:123-161); `nc` is `n_chunks`. -/
def ckSetLast (cfg : VCfg) (row : Mem) (lits : List Byte) (base nc : Int) (cnt : Nat) : Option (Bool × Nat) := do
  let mem := avxMem cfg.nLits
  let zeros := set1 avxL 0#8
  let mask := avxMask cfg.nLits
  let literals ← ldLits lits base nc
  let active := vand (vnot (cmpgt zeros (load avxL row (nc.toNat * 32)))) mask
  let cnt := if cfg.budget.isSome then cnt + popcountMask active else cnt
  if anyBit (cmpeq (vor (vnot active) literals) zeros) then return (false, cnt)
  let negLiterals := cmpeq zeros literals
  let active := vand (vnot (cmpgt zeros (load avxL row (mem + nc.toNat * 32)))) mask
  let cnt := if cfg.budget.isSome then cnt + popcountMask active else cnt
  if anyBit (cmpeq (vor (vnot active) negLiterals) zeros) then return (false, cnt)
  return (true, cnt)

/-- One patch of `SetClauseOutputConvAVX2` (src/func_conv_avx2.hpp:79-163). -/
def ckSetPatch (cfg : VCfg) (row : Mem) (lits : List Byte) (k : Nat) : Option (Bool × Nat) := do
  let nc : Int := (avxMem cfg.nLits : Int) / 32 - 1
  let base ← i32 (k * cfg.nLits)
  let (ok, cnt) ← ckSetLoop cfg.budget.isSome (avxMem cfg.nLits) row lits base nc.toNat 0 0
  if ok then ckSetLast cfg row lits base nc cnt else return (false, cnt)

/-- The patch loop of a clause (src/func_conv_avx2.hpp:79-173): `r` patches from patch `k`. -/
def ckScan (test : Nat → Option (Bool × Nat)) : Nat → Nat → Scan → Option Scan
  | _, 0, s => some s
  | k, r + 1, s => do
    let t ← test k
    ckScan test (k + 1) r (s.step (fun _ => t) k)

/-- `SetClauseOutputConvAVX2`, body for one clause (src/func_conv_avx2.hpp:72-184). -/
def ckSetClause (cfg : VCfg) (nPatches : Nat) (lits : List Byte) (c : VConvClause) (counts : Nat → Nat) (rng : Rng) :
    Option (VConvClause × (Nat → Nat) × Rng) := do
  let s ← ckScan (ckSetPatch cfg c.base.row lits) 0 nPatches ⟨0, [], counts⟩
  let r := convSelect cfg.budget.isSome s c.patch c.base.cnt rng
  return (⟨{ c.base with out := s.out, cnt := r.2.1 }, r.1⟩, s.counts, r.2.2)

/-- `SetClauseOutputConvAVX2::operator()` (src/func_conv_avx2.hpp:64-185). -/
def ckSetClauses (cfg : VCfg) (nPatches : Nat) (lits : List Byte) :
    List VConvClause → (Nat → Nat) → Rng → Option (List VConvClause × (Nat → Nat) × Rng)
  | [], counts, rng => some ([], counts, rng)
  | c :: cs, counts, rng => do
    let r ← ckSetClause cfg nPatches lits c counts rng
    let rs ← ckSetClauses cfg nPatches lits cs r.2.1 r.2.2
    return (r.1 :: rs.1, rs.2.1, rs.2.2)

/-- The unmasked chunks of a patch in `EvalClauseOutputConvAVX2` (src/func_conv_avx2.hpp:214-243). -/
def ckEvalLoop (mem : Nat) (row : Mem) (lits : List Byte) (base : Int) : Nat → Nat → Bool → Option (Bool × Bool)
  | 0, _, act => some (true, act)
  | r + 1, i, act => do
    let zeros := set1 avxL 0#8
    let literals ← ldLits lits base i
    let notActive := cmpgt zeros (load avxL row (i * 32))
    let act := act || anyMask (vnot notActive)
    if anyBit (cmpeq (vor notActive literals) zeros) then return (false, act)
    let negLiterals := cmpeq zeros literals
    let notActive := cmpgt zeros (load avxL row (mem + i * 32))
    let act := act || anyMask (vnot notActive)
    if anyBit (cmpeq (vor notActive negLiterals) zeros) then return (false, act)
    ckEvalLoop mem row lits base r (i + 1) act

/-- The masked last chunk of a patch in `EvalClauseOutputConvAVX2`, and the test for an empty clause (src/func_conv_avx2.hpp:245-280). -/
def ckEvalLast (cfg : VCfg) (row : Mem) (lits : List Byte) (base nc : Int) (act : Bool) : Option Bool := do
  let mem := avxMem cfg.nLits
  let zeros := set1 avxL 0#8
  let mask := avxMask cfg.nLits
  let literals ← ldLits lits base nc
  let notActive := cmpgt zeros (load avxL row (nc.toNat * 32))
  let act := act || anyMask (vand (vnot notActive) mask)
  if anyBit (vand (cmpeq (vor notActive literals) zeros) mask) then return false
  let negLiterals := cmpeq zeros literals
  let notActive := cmpgt zeros (load avxL row (mem + nc.toNat * 32))
  let act := act || anyMask (vand (vnot notActive) mask)
  if anyBit (vand (cmpeq (vor notActive negLiterals) zeros) mask) then return false
  return act

/-- One patch of `EvalClauseOutputConvAVX2` (src/func_conv_avx2.hpp:206-280). -/
def ckEvalPatch (cfg : VCfg) (row : Mem) (lits : List Byte) (k : Nat) : Option Bool := do
  let nc : Int := (avxMem cfg.nLits : Int) / 32 - 1
  let base ← i32 (k * cfg.nLits)
  let (ok, act) ← ckEvalLoop (avxMem cfg.nLits) row lits base nc.toNat 0 false
  if ok then ckEvalLast cfg row lits base nc act else return false

/-- The patch loop at evaluation, left at the first patch that holds (src/func_conv_avx2.hpp:206-289). -/
def ckAny (test : Nat → Option Bool) : Nat → Nat → Option Nat
  | _, 0 => some 0
  | k, r + 1 => do if ← test k then return 1 else ckAny test (k + 1) r

/-- `EvalClauseOutputConvAVX2`, body for one clause (src/func_conv_avx2.hpp:201-291). -/
def ckEvalClause (cfg : VCfg) (nPatches : Nat) (lits : List Byte) (c : VConvClause) : Option VConvClause := do
  let o ← ckAny (ckEvalPatch cfg c.base.row lits) 0 nPatches
  return { c with base := { c.base with out := o } }

/-- `EvalClauseOutputConvAVX2::operator()` (src/func_conv_avx2.hpp:193-292). -/
def ckEvalClauses (cfg : VCfg) (nPatches : Nat) (lits : List Byte) : List VConvClause → Option (List VConvClause)
  | [] => some []
  | c :: cs => do
    let c ← ckEvalClause cfg nPatches lits c
    return c :: (← ckEvalClauses cfg nPatches lits cs)

/-- A loop of feedback over chunks that loads a chunk of literals first (src/func_avx2.hpp:477-530, 589-616). Nothing writes to the
example buffer, so the bytes loaded are those that `f` reads. -/
def ckChunks (lits : List Byte) (base : Int) (f : Nat → Mem → VRng → Mem × VRng) : Nat → Nat → Mem → VRng → Option (Mem × VRng)
  | _, 0, row, g => some (row, g)
  | i, r + 1, row, g => do
    let _ ← ldLits lits base i
    let s := f i row g
    ckChunks lits base f (i + 1) r s.1 s.2

/-- `ClauseUpdateAVX2::operator()` (src/func_avx2.hpp:428-461) with `literals` pointing at `base`. -/
def ckClauseUpdate (cfg : VCfg) (x : List Byte) (base : Nat) (j : Nat) (target : Int) (c : VClause) (g : VRng) :
    Option (VClause × VRng) := do
  let lits := shiftMem (fun a => x.getD a 0#8) base
  let w := c.w.getD j 0
  let sign : Int := if w ≥ 0 then 1 else -1
  if target * sign > 0 then
    if c.out = 1 then
      let r ← ckChunks x base (avxT1aChunk cfg (avxMem cfg.nLits) lits) 0 (avxMem cfg.nLits / 32) c.row g
      return ({ c with w := c.w.set j (wrap16 (w + sign)), row := r.1 }, r.2)
    else
      let r := avxT1b cfg c.row g
      return ({ c with row := r.1 }, r.2)
  else if target * sign < 0 ∧ c.out = 1 then
    let r ← ckChunks x base (fun i row g => (avxT2Chunk (avxMem cfg.nLits) lits i row, g)) 0 (avxMem cfg.nLits / 32) c.row g
    return ({ c with w := c.w.set j (wrap16 (w - sign)), row := r.1 }, r.2)
  else return (c, g)

/-- `TrainUpdateConvAVX2`, body for one clause (src/func_conv_avx2.hpp:305-329). The index of the patch is computed in `uint32_t`; a pointer that
is not used is not checked. -/
def ckTrainClause (cfg : VCfg) (x : List Byte) (fb : Feedback) (c : VConvClause) (fast : Rng) (g : VRng) :
    Option (VConvClause × Rng × VRng) := do
  let base := (c.patch * cfg.nLits) % 4294967296
  let d := avxBudgetGate cfg c.base
  let a ← if fast.next.1 < fb.posProb then ckClauseUpdate cfg x base fb.posClass 1 d g else some (d, g)
  let fast := fast.next.2
  let b ← if fast.next.1 < fb.negProb then ckClauseUpdate cfg x base fb.negClass (-1) a.1 a.2 else some a
  return ({ c with base := b.1 }, fast.next.2, b.2)

/-- `TrainUpdateConvAVX2::operator()` (src/func_conv_avx2.hpp:300-330). -/
def ckTrainClauses (cfg : VCfg) (x : List Byte) (fb : Feedback) :
    List VConvClause → Rng → VRng → Option (List VConvClause × Rng × VRng)
  | [], fast, g => some ([], fast, g)
  | c :: cs, fast, g => do
    let r ← ckTrainClause cfg x fb c fast g
    let rs ← ckTrainClauses cfg x fb cs r.2.1 r.2.2
    return (r.1 :: rs.1, rs.2.1, rs.2.2)

/-- Effect of one call with the example buffer `x` of the input block (src/clause_block.hpp:65-86,187-212). -/
def VConvBlock.applyOn (b : VConvBlock) : FlatAvxOp → Option VConvBlock
  | .trainExample x => do
    let r ← ckSetClauses b.cfg b.nPatches x b.clauses b.counts b.rng
    return { b with clauses := r.1, counts := r.2.1, rng := r.2.2, votes := avxCountVotes b.nClasses (r.1.map (·.base)) }
  | .evalExample x => do
    let cs ← ckEvalClauses b.cfg b.nPatches x b.clauses
    return { b with clauses := cs, votes := avxCountVotes b.nClasses (cs.map (·.base)) }
  | .trainUpdate x fb => do
    let r ← ckTrainClauses b.cfg x fb b.clauses b.fast b.vrng
    return { b with clauses := r.1, fast := r.2.1, vrng := r.2.2 }

end GT

import Verif.Model.AvxFlat
import Verif.Model.Neon

/-!
# The NEON dense clause block on its flat arrays (src/func_neon.hpp)

The same functions as in `Verif.Model.Neon`, but on the byte arrays of src/aligned_tsetlin_state.hpp with the index computations of the
code. A vector access that is not inside the array, an element access outside an array or through a null pointer, `int` arithmetic that
overflows and a broken promise to the compiler (`__builtin_assume_aligned`) give `none`. All arrays start at addresses that are multiples
of 32, as `aligned_alloc(32, ...)` returns them (src/gt_common.hpp:14-36).
-/

namespace GT

/-- `vld1q_s8(&a[i])` (src/func_neon.hpp:216): 16 bytes, at any address. -/
def ldq (a : List Byte) (i : Int) : Option (Vec neonL) :=
  if 0 ≤ i ∧ i.toNat + 16 ≤ a.length then some fun l => a.getD (i.toNat + l.val) 0#8 else none

/-- `vst1q_s8(&a[i], v)` (src/func_neon.hpp:602). -/
def stq (a : List Byte) (i : Int) (v : Vec neonL) : Option (List Byte) :=
  if 0 ≤ i ∧ i.toNat + 16 ≤ a.length then some (a.take i.toNat ++ List.ofFn v ++ a.drop (i.toNat + 16)) else none

/-- `__builtin_assume_aligned(&a[i], 32)` (src/func_neon.hpp:549, 633, 676): the behaviour is undefined if the address is not a multiple of 32. -/
def assumeAligned (i : Int) : Option Unit := if i % 32 = 0 then some () else none

/-- The bytes that may be used after `safe_aligned_alloc(32, mem)` (src/gt_common.hpp:14-36). A negative size, left by the conversion of a
`size_t` to the parameter of type `int`, gives a block of 32 bytes. What rounding up adds is not counted as usable. -/
def neonAlloc (mem : Int) : Option Int := do
  let size ← safeAllocSize 32 mem
  return if mem < 0 then size else mem

/-- A `size_t` converted to `int` (src/func_neon.hpp:104, 107, 110). -/
def sizeToInt (z : Int) : Int := (z + 2147483648) % 4294967296 - 2147483648

/-- `AlignedTsetlinState<16, 64>` as the NEON backend uses it (src/aligned_tsetlin_state.hpp:16-60, src/main.cpp:216). `counts` is empty if
`literal_counts` is the null pointer. -/
structure FlatNeon where
  nLits    : Nat
  mem      : Nat
  nClauses : Nat
  nClasses : Nat
  cfg      : VCfg
  mask     : List Byte
  clauses  : List Byte
  outputs  : List Nat
  weights  : List Int
  votes    : List Int
  counts   : List Nat
  fast     : Rng
  vrng     : VRng

/-- `chunk_i * state.literals_per_vector` (src/func_neon.hpp:216). -/
def posOffN (i : Int) : Option Int := i32 (i * 16)

/-- `state.num_literals_mem + (chunk_i * state.literals_per_vector)` (src/func_neon.hpp:237). -/
def negOffN (mem : Nat) (i : Int) : Option Int := do i32 (mem + (← i32 (i * 16)))

/-- `clause_k * (state.num_literals_mem * 2)` (src/func_neon.hpp:211, 340, 478-482). -/
def neonRowPtr (mem k : Nat) : Option Int := do i32 (k * (← i32 (mem * 2)))

/-- The unmasked chunks of `SetClauseOutputNeon` (src/func_neon.hpp:213-254): chunks `i ..`, `r` of them; `row` is `clause_row`. The count is kept
in `cnt`; the code adds to `literal_counts[clause_k]`, which has been written before. -/
def flatNeonSetLoop (bud : Bool) (mem : Nat) (cl lits : List Byte) (row : Int) : Nat → Nat → Nat → Option (Bool × Nat)
  | 0, _, cnt => some (true, cnt)
  | r + 1, i, cnt => do
    let zeros := set1 neonL 0#8
    let literals ← ldq lits (← posOffN i)
    let notActive := cmpgt zeros (← ldq cl (row + (← posOffN i)))
    let cnt := if bud then cnt + popcountMask (vnot notActive) else cnt
    if anyBit (cmpeq (vor notActive literals) zeros) then return (false, cnt)
    let negLiterals := cmpeq zeros literals
    let notActive := cmpgt zeros (← ldq cl (row + (← negOffN mem i)))
    let cnt := if bud then cnt + popcountMask (vnot notActive) else cnt
    if anyBit (cmpeq (vor notActive negLiterals) zeros) then return (false, cnt)
    flatNeonSetLoop bud mem cl lits row r (i + 1) cnt

/-- The outputs and the count of clause `k` as one clause leaves them (src/func_neon.hpp:277, 304). -/
def FlatNeon.leave (m : FlatNeon) (k : Nat) (outs : List Nat) (cnt : Nat) : Option FlatNeon := do
  return { m with outputs := outs, counts := ← wr m.counts k cnt }

/-- The masked last chunk of `SetClauseOutputNeon` (src/func_neon.hpp:256-317); `nc` is `n_chunks`. -/
def FlatNeon.setLast (m : FlatNeon) (lits : List Byte) (k : Nat) (row nc : Int) (outs : List Nat) (cnt : Nat) : Option FlatNeon := do
  let zeros := set1 neonL 0#8
  let mask ← ldq m.mask 0
  let literals ← ldq lits (← posOffN nc)
  let active := vand (vnot (cmpgt zeros (← ldq m.clauses (row + (← posOffN nc))))) mask
  let cnt := if m.cfg.budget.isSome then cnt + popcountMask active else cnt
  if anyBit (cmpeq (vor (vnot active) literals) zeros) then m.leave k (← wr outs k 0) cnt
  else
    let negLiterals := cmpeq zeros literals
    let active := vand (vnot (cmpgt zeros (← ldq m.clauses (row + (← negOffN m.mem nc))))) mask
    let cnt := if m.cfg.budget.isSome then cnt + popcountMask active else cnt
    if anyBit (cmpeq (vor (vnot active) negLiterals) zeros) then m.leave k (← wr outs k 0) cnt
    else m.leave k outs cnt

/-- `SetClauseOutputNeon`, body for one clause (src/func_neon.hpp:205-320). Line 209 writes to `literal_counts`, allocated or not. -/
def FlatNeon.setOutBody (lits : List Byte) (k : Nat) (m : FlatNeon) : Option FlatNeon := do
  let nc : Int := (m.mem : Int) / 16 - 1
  let outs ← wr m.outputs k 1
  let counts ← wr m.counts k 0
  let row ← neonRowPtr m.mem k
  let (ok, cnt) ← flatNeonSetLoop m.cfg.budget.isSome m.mem m.clauses lits row nc.toNat 0 0
  if ok then FlatNeon.setLast { m with counts := counts } lits k row nc outs cnt
  else FlatNeon.leave { m with counts := counts } k (← wr outs k 0) cnt

/-- `SetClauseOutputNeon::operator()` (src/func_neon.hpp:193-321). -/
def FlatNeon.setOut (m : FlatNeon) (lits : List Byte) : Option FlatNeon :=
  forLoop (FlatNeon.setOutBody lits) m.nClauses 0 m

/-- The unmasked chunks of `EvalClauseOutputNeon` (src/func_neon.hpp:342-380). -/
def flatNeonEvalLoop (mem : Nat) (cl lits : List Byte) (row : Int) : Nat → Nat → Bool → Option (Bool × Bool)
  | 0, _, act => some (true, act)
  | r + 1, i, act => do
    let zeros := set1 neonL 0#8
    let literals ← ldq lits (← posOffN i)
    let notActive := cmpgt zeros (← ldq cl (row + (← posOffN i)))
    let act := act || movemaskNZ (vnot notActive)
    if anyBit (cmpeq (vor notActive literals) zeros) then return (false, act)
    let negLiterals := cmpeq zeros literals
    let notActive := cmpgt zeros (← ldq cl (row + (← negOffN mem i)))
    let act := act || movemaskNZ (vnot notActive)
    if anyBit (cmpeq (vor notActive negLiterals) zeros) then return (false, act)
    flatNeonEvalLoop mem cl lits row r (i + 1) act

/-- The masked last chunk of `EvalClauseOutputNeon` (src/func_neon.hpp:382-441). -/
def FlatNeon.evalLast (m : FlatNeon) (lits : List Byte) (k : Nat) (row nc : Int) (outs : List Nat) (act : Bool) :
    Option (FlatNeon × Bool) := do
  let zeros := set1 neonL 0#8
  let mask ← ldq m.mask 0
  let literals ← ldq lits (← posOffN nc)
  let notActive := cmpgt zeros (← ldq m.clauses (row + (← posOffN nc)))
  let act := act || movemaskNZ (vand (vnot notActive) mask)
  if anyBit (vand (cmpeq (vor notActive literals) zeros) mask) then
    return ({ m with outputs := ← wr outs k 0 }, act)
  let negLiterals := cmpeq zeros literals
  let notActive := cmpgt zeros (← ldq m.clauses (row + (← negOffN m.mem nc)))
  let act := act || movemaskNZ (vand (vnot notActive) mask)
  let outs ← if anyBit (vand (cmpeq (vor notActive negLiterals) zeros) mask) then wr outs k 0 else some outs
  let outs ← if act = false then wr outs k 0 else some outs
  return ({ m with outputs := outs }, act)

/-- `EvalClauseOutputNeon`, body for one clause (src/func_neon.hpp:336-446), with `active_mask != 0`, which is carried from clause to clause. -/
def FlatNeon.evalBody (lits : List Byte) (k : Nat) (s : FlatNeon × Bool) : Option (FlatNeon × Bool) := do
  let (m, act) := s
  let nc : Int := (m.mem : Int) / 16 - 1
  let outs ← wr m.outputs k 1
  let row ← neonRowPtr m.mem k
  let (ok, act) ← flatNeonEvalLoop m.mem m.clauses lits row nc.toNat 0 act
  if ok then m.evalLast lits k row nc outs act
  else return ({ m with outputs := ← wr outs k 0 }, act)

/-- `EvalClauseOutputNeon::operator()` (src/func_neon.hpp:328-447). -/
def FlatNeon.evalOut (m : FlatNeon) (lits : List Byte) : Option FlatNeon := do
  let (m, _) ← forLoop (FlatNeon.evalBody lits) m.nClauses 0 (m, false)
  return m

/-- `CountVotesNeon::operator()` for one clause (src/func_neon.hpp:459-468); the class loop is that of `voteBody`. -/
def FlatNeon.countBody (k : Nat) (m : FlatNeon) : Option FlatNeon := do
  if (← rd m.outputs k) = 1 then
    let votes ← forLoop (voteBody m.nClasses m.weights k) m.nClasses 0 m.votes
    return { m with votes := votes }
  else return m

/-- `CountVotesNeon::operator()` (src/func_neon.hpp:455-470). -/
def FlatNeon.countVotes (m : FlatNeon) : Option FlatNeon := do
  let votes ← forLoop zeroBody m.nClasses 0 m.votes
  forLoop FlatNeon.countBody m.nClauses 0 { m with votes := votes }

/-- One chunk of `Type1aFeedbackNeon` (src/func_neon.hpp:563-622). -/
def flatNeonT1aBody (cfg : VCfg) (mem : Nat) (row : Int) (lits : List Byte) (i : Nat) (s : List Byte × VRng) :
    Option (List Byte × VRng) := do
  let (cl, g) := s
  let ones := set1 neonL 1#8
  let cmpS := set1 neonL cfg.cmpS
  let literals ← ldq lits (← posOffN i)
  let clause ← ldq cl (row + (← posOffN i))
  let literalOn := cmpeq literals ones
  let r := g.next neonL
  let update := cmpgt cmpS r.1
  let subtract := vand (vnot literalOn) update
  let add := if cfg.boost then vand literalOn ones else vand ones (vand literalOn (vnot update))
  let cl ← stq cl (row + (← posOffN i)) (vadds clause (vor subtract add))
  let clause ← ldq cl (row + (← negOffN mem i))
  let r := r.2.next neonL
  let update := cmpgt cmpS r.1
  let subtract := vand literalOn update
  let add := vand ones (vand (vnot literalOn) (vnot update))
  let cl ← stq cl (row + (← negOffN mem i)) (vadds clause (vor subtract add))
  return (cl, r.2)

/-- One chunk of `Type1bFeedbackNeon` (src/func_neon.hpp:641-661). -/
def flatNeonT1bBody (cfg : VCfg) (mem : Nat) (row : Int) (i : Nat) (s : List Byte × VRng) : Option (List Byte × VRng) := do
  let (cl, g) := s
  let minusOne := set1 neonL 0xFF#8
  let cmpS := set1 neonL cfg.cmpS
  let clause ← ldq cl (row + (← posOffN i))
  let r := g.next neonL
  let update := vand minusOne (cmpgt cmpS r.1)
  let cl ← stq cl (row + (← posOffN i)) (vadds clause update)
  let clause ← ldq cl (row + (← negOffN mem i))
  let r := r.2.next neonL
  let update := vand minusOne (cmpgt cmpS r.1)
  let cl ← stq cl (row + (← negOffN mem i)) (vadds clause update)
  return (cl, r.2)

/-- One chunk of `Type2FeedbackNeon` (src/func_neon.hpp:685-708). -/
def flatNeonT2Body (mem : Nat) (row : Int) (lits : List Byte) (i : Nat) (s : List Byte × VRng) : Option (List Byte × VRng) := do
  let (cl, g) := s
  let zeros := set1 neonL 0#8
  let ones := set1 neonL 1#8
  let literals ← ldq lits (← posOffN i)
  let clause ← ldq cl (row + (← posOffN i))
  let litMask := cmpeq literals zeros
  let notActive := cmpgt zeros clause
  let cl ← stq cl (row + (← posOffN i)) (vadds clause (vand (vand litMask notActive) ones))
  let clause ← ldq cl (row + (← negOffN mem i))
  let notActive := cmpgt zeros clause
  let cl ← stq cl (row + (← negOffN mem i)) (vadds clause (vand (vand (vnot litMask) notActive) ones))
  return (cl, g)

/-- The loops over the chunks (src/func_neon.hpp:549-563, 633-641, 676-685): each begins with the promise that the row starts at a multiple of 32.
The promise about the example (lines 550, 677) is about the start of the buffer, which is aligned (src/input_block.hpp:57-61). -/
def neonChunks (body : Nat → List Byte × VRng → Option (List Byte × VRng)) (mem : Nat) (row : Int) (s : List Byte × VRng) :
    Option (List Byte × VRng) := do
  let _ ← assumeAligned row
  forLoop body (mem / 16) 0 s

/-- `ClauseUpdateNeon::operator()` (src/func_neon.hpp:510-538): `row` is `clause_row`, `wi` is `clause_weight`. -/
def FlatNeon.clauseUpdate (m : FlatNeon) (lits : List Byte) (row wi : Int) (target : Int) (out : Nat) : Option FlatNeon := do
  let w ← rd m.weights wi
  let sign : Int := if w ≥ 0 then 1 else -1
  if target * sign > 0 then
    if out = 1 then
      let ws ← wr m.weights wi (wrap16 (w + sign))
      let (cl, g) ← neonChunks (flatNeonT1aBody m.cfg m.mem row lits) m.mem row (m.clauses, m.vrng)
      return { m with weights := ws, clauses := cl, vrng := g }
    else
      let (cl, g) ← neonChunks (flatNeonT1bBody m.cfg m.mem row) m.mem row (m.clauses, m.vrng)
      return { m with clauses := cl, vrng := g }
  else if target * sign < 0 ∧ out = 1 then
    let ws ← wr m.weights wi (wrap16 (w - sign))
    let (cl, g) ← neonChunks (flatNeonT2Body m.mem row lits) m.mem row (m.clauses, m.vrng)
    return { m with weights := ws, clauses := cl, vrng := g }
  else return m

/-- The budget check (src/func_neon.hpp:485-489). -/
def FlatNeon.gate (m : FlatNeon) (k : Nat) : Option FlatNeon :=
  match m.cfg.budget with
  | some b => do
    if (← rd m.counts k) > b then
      let outs ← wr m.outputs k 0
      return { m with outputs := outs }
    else return m
  | none => some m

/-- `if(state.fast_rng.next_u() < prob) clause_update(...)` (src/func_neon.hpp:491-501). -/
def FlatNeon.maybeUpdate (m : FlatNeon) (lits : List Byte) (k : Nat) (row wrow : Int) (cls : Nat) (target : Int) (prob : Rat) :
    Option FlatNeon :=
  if m.fast.next.1 < prob then do
    let out ← rd m.outputs k
    let m' ← m.clauseUpdate lits row (wrow + cls) target out
    return { m' with fast := m.fast.next.2 }
  else some { m with fast := m.fast.next.2 }

/-- `TrainUpdateNeon::operator()` for one clause (src/func_neon.hpp:480-502). -/
def FlatNeon.trainBody (lits : List Byte) (fb : Feedback) (k : Nat) (m : FlatNeon) : Option FlatNeon := do
  let row ← neonRowPtr m.mem k
  let wrow ← i32 (k * m.nClasses)
  let m ← m.gate k
  let m ← m.maybeUpdate lits k row wrow fb.posClass 1 fb.posProb
  m.maybeUpdate lits k row wrow fb.negClass (-1) fb.negProb

/-- `TrainUpdateNeon::operator()` (src/func_neon.hpp:475-503). -/
def FlatNeon.trainUpdate (m : FlatNeon) (lits : List Byte) (fb : Feedback) : Option FlatNeon :=
  forLoop (FlatNeon.trainBody lits fb) m.nClauses 0 m

/-- Effect of one call (src/clause_block.hpp:65-86); the calls are those on an AVX2 block. -/
def FlatNeon.apply (m : FlatNeon) : FlatAvxOp → Option FlatNeon
  | .trainExample x => do (← m.setOut x).countVotes
  | .evalExample x => do (← m.evalOut x).countVotes
  | .trainUpdate x fb => m.trainUpdate x fb

/-- A history of calls (src/executor.hpp:99-195 makes these calls). -/
def FlatNeon.run (m : FlatNeon) : List FlatAvxOp → Option FlatNeon
  | [] => some m
  | op :: ops => do (← m.apply op).run ops

/-- `init_clauses` for one literal of one clause (src/func_neon.hpp:131-135). -/
def flatNeonInitLit (mem : Nat) (row : Int) (i : Nat) (s : List Byte × Rng) : Option (List Byte × Rng) := do
  let (cl, g) := s
  let cl ← wr cl (row + i) (neonCoin g)
  let g := g.next.2
  let o ← i32 (i + mem)
  let cl ← wr cl (row + o) (neonCoin g)
  return (cl, g.next.2)

/-- `init_clauses`, a pair of filler states (src/func_neon.hpp:138-142). -/
def flatNeonInitFill (mem : Nat) (row : Int) (i : Nat) (cl : List Byte) : Option (List Byte) := do
  let cl ← wr cl (row + i) (BitVec.ofInt 8 (-109))
  let o ← i32 (i + mem)
  wr cl (row + o) (BitVec.ofInt 8 (-111))

/-- `init_clauses` for one clause (src/func_neon.hpp:127-143). -/
def flatNeonInitClause (nLits mem : Nat) (k : Nat) (s : List Byte × Rng) : Option (List Byte × Rng) := do
  let row ← neonRowPtr mem k
  let (cl, g) ← forLoop (flatNeonInitLit mem row) nLits 0 s
  let cl ← forLoop (flatNeonInitFill mem row) (mem - nLits) nLits cl
  return (cl, g)

/-- `init_clause_weights` for one weight (src/func_neon.hpp:150-156). -/
def flatNeonInitWeight (k : Nat) (s : List Int × Rng) : Option (List Int × Rng) := do
  return (← wr s.1 k (if s.2.next.1 < 1 / 2 then 1 else -1), s.2.next.2)

/-- The computation of `num_literals_mem` (src/func_neon.hpp:77-86). -/
def flatNeonMem (nLits : Nat) : Option Int :=
  if nLits % 16 = 0 then some nLits else do i32 ((← i32 (nLits / 16 + 1)) * 16)

/-- The contents of `reminder_mask` (src/func_neon.hpp:73-90). -/
def flatNeonMask (nLits : Nat) (junk : Nat → Byte) : Option (List Byte) := do
  let n ← neonAlloc 16
  let a ← forLoop (maskBody 0xFF#8) 16 0 ((List.range n.toNat).map junk)
  if nLits % 16 = 0 then return a
  else forLoop (maskBody 0#8) (16 - nLits % 16) (nLits % 16) a

/-- `InitializeAlignedNeon::operator()` (src/func_neon.hpp:63-118): `some none` is the refused seed 0. The arrays hold arbitrary values before they are
written; `literal_counts` stays so. The sizes of the last three allocations are computed as `size_t` and converted to `int`. -/
def flatNeonInit (nClauses nClasses : Nat) (cfg : VCfg) (fastOf rngOf : Nat → Rng) (vrngOf : Nat → VRng)
    (junk : Nat → Byte) (junkW : Nat → Int) (junkC : Nat → Nat) (seed : Nat) : Option (Option FlatNeon) :=
  if seed = 0 then some none
  else do
    let mask ← flatNeonMask cfg.nLits junk
    let mem ← flatNeonMem cfg.nLits
    let a ← i32 (nClauses * mem)
    let clauseMem ← i32 (a * 2)
    let clBytes ← neonAlloc clauseMem
    let outs ← i32 ((← i32 (nClauses / 64 + 1)) * 64)
    let outBytes ← neonAlloc (sizeToInt outs)
    let w ← i32 (nClauses * nClasses)
    let wBytes ← neonAlloc (sizeToInt (w * 2))
    let vBytes ← neonAlloc (sizeToInt (nClasses * 2))
    let votes ← forLoop zeroBody nClasses 0 ((List.range (vBytes.toNat / 2)).map junkW)
    let (cl, g) ← forLoop (flatNeonInitClause cfg.nLits mem.toNat) nClauses 0 ((List.range clBytes.toNat).map junk, rngOf seed)
    let (ws, _) ← forLoop flatNeonInitWeight w.toNat 0 ((List.range (wBytes.toNat / 2)).map junkW, g)
    return some { nLits := cfg.nLits, mem := mem.toNat, nClauses := nClauses, nClasses := nClasses, cfg := cfg, mask := mask, clauses := cl,
                  outputs := List.replicate outBytes.toNat 0, weights := ws, votes := votes,
                  counts := if cfg.budget.isSome then (List.range nClauses).map junkC else [], fast := fastOf seed, vrng := vrngOf seed }

end GT

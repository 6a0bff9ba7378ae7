import Verif.Model.Flat
import Verif.Model.Avx2

/-!
# The AVX2 dense clause block on its flat arrays (src/func_avx2.hpp)

The same functions as in `Verif.Model.Avx2`, but on the byte arrays of src/aligned_tsetlin_state.hpp with the index
computations of the code. A vector access that is not inside the array or whose address is not a multiple of 32, an element
access outside an array and `int` arithmetic that overflows give `none`. All arrays start at addresses that are multiples of
32, as `aligned_alloc(32, ...)` returns them (src/gt_common.hpp:14-36).
-/

namespace GT

/-- `_mm256_load_si256(&a[i])` (src/func_avx2.hpp:192): faults on an address that is not a multiple of 32. -/
def ldv (a : List Byte) (i : Int) : Option (Vec avxL) :=
  if 0 ≤ i ∧ i % 32 = 0 ∧ i.toNat + 32 ≤ a.length then some fun l => a.getD (i.toNat + l.val) 0#8 else none

/-- `_mm256_store_si256(&a[i], v)` (src/func_avx2.hpp:504). -/
def stv (a : List Byte) (i : Int) (v : Vec avxL) : Option (List Byte) :=
  if 0 ≤ i ∧ i % 32 = 0 ∧ i.toNat + 32 ≤ a.length then some (a.take i.toNat ++ List.ofFn v ++ a.drop (i.toNat + 32)) else none

/-- `safe_aligned_alloc` (src/gt_common.hpp:14-27): the number of bytes it asks for. -/
def safeAllocSize (align mem : Int) : Option Int := do
  if mem < align then return align
  else if mem % align > 0 then i32 (mem + (align - mem % align))
  else return mem

/-- `std::aligned_alloc(align, size)` (src/func_avx2.hpp:31, 65, 74, 81, 85). C11 asks that the size be a multiple of the alignment (`strict`); the allocators of
glibc, macOS and FreeBSD do not. Only the size of the block matters here. -/
def alignedAlloc (strict : Bool) (align size : Int) : Option Int :=
  if strict ∧ size % align ≠ 0 then none else some size

/-- `AlignedTsetlinState<32, 128>` as the AVX2 backend uses it (src/aligned_tsetlin_state.hpp:16-60, src/main.cpp:161). `num_class_weights_mem` is
`num_classes`, because `pad_class_weights` is off (src/main.cpp:167). -/
structure FlatAvx where
  nLits    : Nat
  mem      : Nat
  nClauses : Nat
  nClasses : Nat
  cfg      : VCfg
  mask     : List Byte
  clauses  : List Byte
  outputs  : List Nat
  weights  : List Int
  votes    : List Int
  counts   : List Nat
  fast     : Rng
  vrng     : VRng

/-- `chunk_i * 32` (src/func_avx2.hpp:192). -/
def posOff (i : Int) : Option Int := i32 (i * 32)

/-- `state.num_literals_mem + (chunk_i * 32)` (src/func_avx2.hpp:209). -/
def negOff (mem : Nat) (i : Int) : Option Int := do i32 (mem + (← i32 (i * 32)))

/-- `clause_k * (state.num_literals_mem * 2)` (src/func_avx2.hpp:188, 402). -/
def avxRowPtr (mem k : Nat) : Option Int := do i32 (k * (← i32 (mem * 2)))

/-- The unmasked chunks of `SetClauseOutputAVX2` (src/func_avx2.hpp:190-225): chunks `i ..`, `r` of them; `row` is `clause_row`. -/
def flatAvxSetLoop (bud : Bool) (mem : Nat) (cl lits : List Byte) (row : Int) : Nat → Nat → Nat → Option (Bool × Nat)
  | 0, _, cnt => some (true, cnt)
  | r + 1, i, cnt => do
    let zeros := set1 avxL 0#8
    let literals ← ldv lits (← posOff i)
    let notActive := cmpgt zeros (← ldv cl (row + (← posOff i)))
    let cnt := if bud then cnt + popcountMask (vnot notActive) else cnt
    if anyBit (cmpeq (vor notActive literals) zeros) then return (false, cnt)
    let negLiterals := cmpeq zeros literals
    let notActive := cmpgt zeros (← ldv cl (row + (← negOff mem i)))
    let cnt := if bud then cnt + popcountMask (vnot notActive) else cnt
    if anyBit (cmpeq (vor notActive negLiterals) zeros) then return (false, cnt)
    flatAvxSetLoop bud mem cl lits row r (i + 1) cnt

/-- The label `endclause` (src/func_avx2.hpp:264-266): store the literal count. -/
def FlatAvx.endClause (m : FlatAvx) (k : Nat) (outs : List Nat) (cnt : Nat) : Option FlatAvx :=
  if m.cfg.budget.isSome then do return { m with outputs := outs, counts := ← wr m.counts k cnt }
  else some { m with outputs := outs }

/-- The masked last chunk of `SetClauseOutputAVX2` (src/func_avx2.hpp:227-266); `nc` is `n_chunks`. -/
def FlatAvx.setLast (m : FlatAvx) (lits : List Byte) (k : Nat) (row nc : Int) (mask : Vec avxL) (outs : List Nat) (cnt : Nat) :
    Option FlatAvx := do
  let zeros := set1 avxL 0#8
  let literals ← ldv lits (← posOff nc)
  let active := vand (vnot (cmpgt zeros (← ldv m.clauses (row + (← posOff nc))))) mask
  let cnt := if m.cfg.budget.isSome then cnt + popcountMask active else cnt
  if anyBit (cmpeq (vor (vnot active) literals) zeros) then
    return { m with outputs := ← wr outs k 0 }
  let negLiterals := cmpeq zeros literals
  let active := vand (vnot (cmpgt zeros (← ldv m.clauses (row + (← negOff m.mem nc))))) mask
  let cnt := if m.cfg.budget.isSome then cnt + popcountMask active else cnt
  if anyBit (cmpeq (vor (vnot active) negLiterals) zeros) then
    m.endClause k (← wr outs k 0) cnt
  else m.endClause k outs cnt

/-- `SetClauseOutputAVX2`, body for one clause (src/func_avx2.hpp:182-269). -/
def FlatAvx.setOutBody (lits : List Byte) (mask : Vec avxL) (k : Nat) (m : FlatAvx) : Option FlatAvx := do
  let nc : Int := (m.mem : Int) / 32 - 1
  let outs ← wr m.outputs k 1
  let row ← avxRowPtr m.mem k
  let (ok, cnt) ← flatAvxSetLoop m.cfg.budget.isSome m.mem m.clauses lits row nc.toNat 0 0
  if ok then m.setLast lits k row nc mask outs cnt
  else m.endClause k (← wr outs k 0) cnt

/-- `SetClauseOutputAVX2::operator()` (src/func_avx2.hpp:174-270). -/
def FlatAvx.setOut (m : FlatAvx) (lits : List Byte) : Option FlatAvx := do
  let mask ← ldv m.mask 0
  forLoop (FlatAvx.setOutBody lits mask) m.nClauses 0 m

/-- The unmasked chunks of `EvalClauseOutputAVX2` (src/func_avx2.hpp:293-323). -/
def flatAvxEvalLoop (mem : Nat) (cl lits : List Byte) (row : Int) : Nat → Nat → Bool → Option (Bool × Bool)
  | 0, _, act => some (true, act)
  | r + 1, i, act => do
    let zeros := set1 avxL 0#8
    let literals ← ldv lits (← posOff i)
    let notActive := cmpgt zeros (← ldv cl (row + (← posOff i)))
    let act := act || anyMask (vnot notActive)
    if anyBit (cmpeq (vor notActive literals) zeros) then return (false, act)
    let negLiterals := cmpeq zeros literals
    let notActive := cmpgt zeros (← ldv cl (row + (← negOff mem i)))
    let act := act || anyMask (vnot notActive)
    if anyBit (cmpeq (vor notActive negLiterals) zeros) then return (false, act)
    flatAvxEvalLoop mem cl lits row r (i + 1) act

/-- The masked last chunk of `EvalClauseOutputAVX2` (src/func_avx2.hpp:325-361). -/
def FlatAvx.evalLast (m : FlatAvx) (lits : List Byte) (k : Nat) (row nc : Int) (mask : Vec avxL) (outs : List Nat) (act : Bool) :
    Option FlatAvx := do
  let zeros := set1 avxL 0#8
  let literals ← ldv lits (← posOff nc)
  let notActive := cmpgt zeros (← ldv m.clauses (row + (← posOff nc)))
  let act := act || anyMask (vand (vnot notActive) mask)
  if anyBit (vand (cmpeq (vor notActive literals) zeros) mask) then
    return { m with outputs := ← wr outs k 0 }
  let negLiterals := cmpeq zeros literals
  let notActive := cmpgt zeros (← ldv m.clauses (row + (← negOff m.mem nc)))
  let act := act || anyMask (vand (vnot notActive) mask)
  if anyBit (vand (cmpeq (vor notActive negLiterals) zeros) mask) then
    return { m with outputs := ← wr outs k 0 }
  if act = false then return { m with outputs := ← wr outs k 0 }
  return { m with outputs := outs }

/-- `EvalClauseOutputAVX2`, body for one clause (src/func_avx2.hpp:286-363). -/
def FlatAvx.evalBody (lits : List Byte) (mask : Vec avxL) (k : Nat) (m : FlatAvx) : Option FlatAvx := do
  let nc : Int := (m.mem : Int) / 32 - 1
  let outs ← wr m.outputs k 1
  let row ← avxRowPtr m.mem k
  let (ok, act) ← flatAvxEvalLoop m.mem m.clauses lits row nc.toNat 0 false
  if ok then m.evalLast lits k row nc mask outs act
  else return { m with outputs := ← wr outs k 0 }

/-- `EvalClauseOutputAVX2::operator()` (src/func_avx2.hpp:277-365). -/
def FlatAvx.evalOut (m : FlatAvx) (lits : List Byte) : Option FlatAvx := do
  let mask ← ldv m.mask 0
  forLoop (FlatAvx.evalBody lits mask) m.nClauses 0 m

/-- `CountVotesAVX2::operator()` for one clause (src/func_avx2.hpp:379-389); the class loop is that of `voteBody`. -/
def FlatAvx.countBody (k : Nat) (m : FlatAvx) : Option FlatAvx := do
  if (← rd m.outputs k) = 1 then
    let votes ← forLoop (voteBody m.nClasses m.weights k) m.nClasses 0 m.votes
    return { m with votes := votes }
  else return m

/-- `CountVotesAVX2::operator()` (src/func_avx2.hpp:372-391). -/
def FlatAvx.countVotes (m : FlatAvx) : Option FlatAvx := do
  let votes ← forLoop zeroBody m.nClasses 0 m.votes
  forLoop FlatAvx.countBody m.nClauses 0 { m with votes := votes }

/-- One chunk of `Type1aFeedbackAVX2` (src/func_avx2.hpp:480-529). -/
def flatAvxT1aBody (cfg : VCfg) (mem : Nat) (row : Int) (lits : List Byte) (i : Nat) (s : List Byte × VRng) :
    Option (List Byte × VRng) := do
  let (cl, g) := s
  let ones := set1 avxL 1#8
  let minusOne := set1 avxL 0xFF#8
  let cmpS := set1 avxL cfg.cmpS
  let literalOn := cmpeq (← ldv lits (← posOff i)) ones
  let clause ← ldv cl (row + (← posOff i))
  let r := g.next avxL
  let update := cmpgt cmpS r.1
  let subtract := vand minusOne (vand (vnot literalOn) update)
  let add := if cfg.boost then vand literalOn ones else vand ones (vand literalOn (vnot update))
  let cl ← stv cl (row + (← posOff i)) (vadds clause (vor subtract add))
  let clause ← ldv cl (row + (← negOff mem i))
  let r := r.2.next avxL
  let update := cmpgt cmpS r.1
  let subtract := vand minusOne (vand literalOn update)
  let add := if cfg.boost then vand (vnot literalOn) ones
    else vand ones (vand (vnot literalOn) (vnot update))
  let cl ← stv cl (row + (← negOff mem i)) (vadds clause (vor subtract add))
  return (cl, r.2)

/-- One chunk of `Type1bFeedbackAVX2` (src/func_avx2.hpp:550-571). -/
def flatAvxT1bBody (cfg : VCfg) (mem : Nat) (row : Int) (i : Nat) (s : List Byte × VRng) : Option (List Byte × VRng) := do
  let (cl, g) := s
  let minusOne := set1 avxL 0xFF#8
  let cmpS := set1 avxL cfg.cmpS
  let clause ← ldv cl (row + (← posOff i))
  let r := g.next avxL
  let update := vand minusOne (cmpgt cmpS r.1)
  let cl ← stv cl (row + (← posOff i)) (vadds clause update)
  let clause ← ldv cl (row + (← negOff mem i))
  let r := r.2.next avxL
  let update := vand minusOne (cmpgt cmpS r.1)
  let cl ← stv cl (row + (← negOff mem i)) (vadds clause update)
  return (cl, r.2)

/-- One chunk of `Type2FeedbackAVX2` (src/func_avx2.hpp:591-615). -/
def flatAvxT2Body (mem : Nat) (row : Int) (lits : List Byte) (i : Nat) (s : List Byte × VRng) : Option (List Byte × VRng) := do
  let (cl, g) := s
  let zeros := set1 avxL 0#8
  let ones := set1 avxL 1#8
  let litMask := cmpeq (← ldv lits (← posOff i)) zeros
  let clause ← ldv cl (row + (← posOff i))
  let notActive := cmpgt zeros clause
  let cl ← stv cl (row + (← posOff i)) (vadds clause (vand (vand litMask notActive) ones))
  let clause ← ldv cl (row + (← negOff mem i))
  let notActive := cmpgt zeros clause
  let cl ← stv cl (row + (← negOff mem i)) (vadds clause (vand (vand (vnot litMask) notActive) ones))
  return (cl, g)

/-- `ClauseUpdateAVX2::operator()` (src/func_avx2.hpp:432-460): `row` is `clause_row`, `wi` is `clause_weight`. -/
def FlatAvx.clauseUpdate (m : FlatAvx) (lits : List Byte) (row wi : Int) (target : Int) (out : Nat) : Option FlatAvx := do
  let w ← rd m.weights wi
  let sign : Int := if w ≥ 0 then 1 else -1
  let n := m.mem / 32
  if target * sign > 0 then
    if out = 1 then
      let ws ← wr m.weights wi (wrap16 (w + sign))
      let (cl, g) ← forLoop (flatAvxT1aBody m.cfg m.mem row lits) n 0 (m.clauses, m.vrng)
      return { m with weights := ws, clauses := cl, vrng := g }
    else
      let (cl, g) ← forLoop (flatAvxT1bBody m.cfg m.mem row) n 0 (m.clauses, m.vrng)
      return { m with clauses := cl, vrng := g }
  else if target * sign < 0 ∧ out = 1 then
    let ws ← wr m.weights wi (wrap16 (w - sign))
    let (cl, g) ← forLoop (flatAvxT2Body m.mem row lits) n 0 (m.clauses, m.vrng)
    return { m with weights := ws, clauses := cl, vrng := g }
  else return m

/-- The budget check (src/func_avx2.hpp:406-410). -/
def FlatAvx.gate (m : FlatAvx) (k : Nat) : Option FlatAvx :=
  match m.cfg.budget with
  | some b => do
    if (← rd m.counts k) > b then
      let outs ← wr m.outputs k 0
      return { m with outputs := outs }
    else return m
  | none => some m

/-- `if(state.fast_rng.next_u() < prob) clause_update(...)` (src/func_avx2.hpp:412-422). -/
def FlatAvx.maybeUpdate (m : FlatAvx) (lits : List Byte) (k : Nat) (row wrow : Int) (cls : Nat) (target : Int) (prob : Rat) :
    Option FlatAvx :=
  if m.fast.next.1 < prob then do
    let out ← rd m.outputs k
    let m' ← m.clauseUpdate lits row (wrow + cls) target out
    return { m' with fast := m.fast.next.2 }
  else some { m with fast := m.fast.next.2 }

/-- `TrainUpdateAVX2::operator()` for one clause (src/func_avx2.hpp:400-423). -/
def FlatAvx.trainBody (lits : List Byte) (fb : Feedback) (k : Nat) (m : FlatAvx) : Option FlatAvx := do
  let row ← avxRowPtr m.mem k
  let wrow ← i32 (k * m.nClasses)
  let m ← m.gate k
  let m ← m.maybeUpdate lits k row wrow fb.posClass 1 fb.posProb
  m.maybeUpdate lits k row wrow fb.negClass (-1) fb.negProb

/-- `TrainUpdateAVX2::operator()` (src/func_avx2.hpp:397-425). -/
def FlatAvx.trainUpdate (m : FlatAvx) (lits : List Byte) (fb : Feedback) : Option FlatAvx :=
  forLoop (FlatAvx.trainBody lits fb) m.nClauses 0 m

/-- Calls on an AVX2 block with the example buffer of the input block (src/clause_block.hpp:65-86). -/
inductive FlatAvxOp
  | trainExample (lits : List Byte)
  | evalExample (lits : List Byte)
  | trainUpdate (lits : List Byte) (fb : Feedback)

/-- Effect of one call (src/clause_block.hpp:65-86). -/
def FlatAvx.apply (m : FlatAvx) : FlatAvxOp → Option FlatAvx
  | .trainExample x => do (← m.setOut x).countVotes
  | .evalExample x => do (← m.evalOut x).countVotes
  | .trainUpdate x fb => m.trainUpdate x fb

/-- A history of calls (src/executor.hpp:99-195 makes these calls). -/
def FlatAvx.run (m : FlatAvx) : List FlatAvxOp → Option FlatAvx
  | [] => some m
  | op :: ops => do (← m.apply op).run ops

/-- One of the stores of `init_clauses`: 0 or -1 (src/func_avx2.hpp:106-114). -/
def coinByte (g : Rng) : Byte := if g.next.1 > 1 / 2 then 0#8 else 0xFF#8

/-- `init_clauses` for one literal of one clause (src/func_avx2.hpp:104-115). -/
def flatAvxInitLit (mem : Nat) (row : Int) (i : Nat) (s : List Byte × Rng) : Option (List Byte × Rng) := do
  let (cl, g) := s
  let cl ← wr cl (row + i) (coinByte g)
  let g := g.next.2
  let o ← i32 (i + mem)
  let cl ← wr cl (row + o) (coinByte g)
  return (cl, g.next.2)

/-- `init_clauses`, a pair of filler states (src/func_avx2.hpp:118-122). -/
def flatAvxInitFill (mem : Nat) (row : Int) (i : Nat) (cl : List Byte) : Option (List Byte) := do
  let cl ← wr cl (row + i) (BitVec.ofInt 8 (-109))
  let o ← i32 (i + mem)
  wr cl (row + o) (BitVec.ofInt 8 (-111))

/-- `init_clauses` for one clause (src/func_avx2.hpp:100-123). -/
def flatAvxInitClause (nLits mem : Nat) (k : Nat) (s : List Byte × Rng) : Option (List Byte × Rng) := do
  let row ← avxRowPtr mem k
  let (cl, g) ← forLoop (flatAvxInitLit mem row) nLits 0 s
  let cl ← forLoop (flatAvxInitFill mem row) (mem - nLits) nLits cl
  return (cl, g)

/-- `init_clause_weights` for one class of one clause (src/func_avx2.hpp:131-137). -/
def flatAvxInitWeight (nClasses k : Nat) (j : Nat) (s : List Int × Rng) : Option (List Int × Rng) := do
  let o ← i32 (k * nClasses)
  let i ← i32 (o + j)
  return (← wr s.1 i (if s.2.next.1 > 1 / 2 then 1 else -1), s.2.next.2)

/-- `init_clause_weights` for one clause (src/func_avx2.hpp:129-138). -/
def flatAvxInitWeights (nClasses : Nat) (k : Nat) (s : List Int × Rng) : Option (List Int × Rng) :=
  forLoop (flatAvxInitWeight nClasses k) nClasses 0 s

/-- The store to `reminder_mask[i]` (src/func_avx2.hpp:32-33, 46-47). -/
def maskBody (v : Byte) (i : Nat) (a : List Byte) : Option (List Byte) := wr a i v

/-- The computation of `num_literals_mem` (src/func_avx2.hpp:35-43). -/
def flatAvxMem (nLits : Nat) : Option Int :=
  if nLits % 32 = 0 then some nLits else do i32 ((← i32 (nLits / 32 + 1)) * 32)

/-- The contents of `reminder_mask` (src/func_avx2.hpp:31-48). -/
def flatAvxMask (strict : Bool) (nLits : Nat) (junk : Nat → Byte) : Option (List Byte) := do
  let n ← alignedAlloc strict 32 32
  let a ← forLoop (maskBody 0xFF#8) 32 0 ((List.range n.toNat).map junk)
  if nLits % 32 = 0 then return a
  else forLoop (maskBody 0#8) (32 - nLits % 32) (nLits % 32) a

/-- `InitializeAVX2::operator()` (src/func_avx2.hpp:19-90): `some none` is the refused seed 0. The arrays hold arbitrary bytes before they are written;
`literal_counts` stays so. The byte counts of the last two allocations are `size_t`. -/
def flatAvxInit (strict : Bool) (nClauses nClasses : Nat) (cfg : VCfg) (fastOf : Nat → Rng) (vrngOf : Nat → VRng)
    (junk : Nat → Byte) (junkC : Nat → Nat) (seed : Nat) : Option (Option FlatAvx) :=
  if seed = 0 then some none
  else do
    let mask ← flatAvxMask strict cfg.nLits junk
    let mem ← flatAvxMem cfg.nLits
    let a ← i32 (nClauses * mem)
    let clauseMem ← i32 (a * 2)
    let size ← safeAllocSize 32 clauseMem
    let outs ← i32 ((← i32 (nClauses / 128 + 1)) * 128)
    let outBytes ← alignedAlloc strict 32 outs
    let w ← i32 (nClauses * nClasses)
    let wBytes ← alignedAlloc strict 32 (w * 2)
    let vBytes ← alignedAlloc strict 32 (nClasses * 2)
    let (cl, g) ← forLoop (flatAvxInitClause cfg.nLits mem.toNat) nClauses 0 ((List.range size.toNat).map junk, fastOf seed)
    let (ws, f) ← forLoop (flatAvxInitWeights nClasses) nClauses 0 (List.replicate (wBytes.toNat / 2) 0, g)
    return some { nLits := cfg.nLits, mem := mem.toNat, nClauses := nClauses, nClasses := nClasses, cfg := cfg, mask := mask, clauses := cl,
                  outputs := List.replicate outBytes.toNat 0, weights := ws, votes := List.replicate (vBytes.toNat / 2) 0,
                  counts := if cfg.budget.isSome then (List.range nClauses).map junkC else [], fast := f, vrng := vrngOf seed }

end GT

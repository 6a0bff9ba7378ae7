import Verif.Model.Simd
import Verif.Model.Dense

/-!
# The AVX2 dense clause block (src/func_avx2.hpp)

A clause row is memory of `2 * mem` bytes, `mem` being the number of literals rounded up to the vector
width: positive literals at `0 ..`, negated literals at `mem ..`.  As in the portable model the flat
arrays are grouped per clause (a `clause_row` pointer).
-/

namespace GT

/-- `literals_per_vector` of the AVX2 state (src/main.cpp:161, `AlignedTsetlinState<32, ...>`). -/
notation "avxL" => (32 : Nat)

/-- `num_literals_mem` (src/func_avx2.hpp:36-48): literals rounded up to the vector width. -/
def avxMem (n : Nat) : Nat := if n % avxL = 0 then n else (n / avxL + 1) * avxL

/-- `reminder_mask` (src/func_avx2.hpp:32-48): 0xFF everywhere, except 0x00 from lane `n % 32` on when
`n` is not a multiple of the vector width. -/
def avxMask (n : Nat) : Vec avxL := fun l =>
  if n % avxL = 0 then 0xFF#8 else if n % avxL ≤ l.val then 0x00#8 else 0xFF#8

/-- One clause of an AVX2 block: `clause_row`, its weights, output and literal count
(src/aligned_tsetlin_state.hpp:33-39, src/func_avx2.hpp:187-188). -/
structure VClause where
  row : Mem
  w   : List Int
  out : Nat
  cnt : Nat

/-- Template flags and parameters of an AVX2 block: budget, boost, and `gtcmp_for_s`
(src/aligned_tsetlin_state.hpp:40,49). -/
structure VCfg where
  nLits  : Nat
  budget : Option Nat
  boost  : Bool
  cmpS   : Byte

/-- The integer threshold of `AlignedTsetlinState::set_s` (src/aligned_tsetlin_state.hpp:68-72):
`clamp((int)(255/s) - 127 + 1, -127, 126)`. The C++ cast truncates; for `s ≥ 1` that is the floor.
Exact rational arithmetic instead of doubles. -/
def gtcmpForS (s : Rat) : Int := max (-127) (min 126 ((1 / s * 255).floor - 127 + 1))

/-- `set_s` on an AVX2 block (src/aligned_tsetlin_state.hpp:62-73). -/
def VCfg.setS (c : VCfg) (s : Rat) : VCfg := { c with cmpS := BitVec.ofInt 8 (gtcmpForS s) }

/-- The unmasked chunks of `SetClauseOutputAVX2` (src/func_avx2.hpp:190-225): `r` chunks from chunk `i`.
`(false, cnt)` is the jump to `endclause` with output 0. -/
def avxSetLoop (bud : Bool) (mem : Nat) (row lits : Mem) : Nat → Nat → Nat → Bool × Nat
  | _, 0, cnt => (true, cnt)
  | i, r + 1, cnt =>
    let zeros := set1 avxL 0#8
    let literals := load avxL lits (i * 32)
    let notActive := cmpgt zeros (load avxL row (i * 32))
    let cnt := if bud then cnt + popcountMask (vnot notActive) else cnt
    if anyBit (cmpeq (vor notActive literals) zeros) then (false, cnt)
    else
      let negLiterals := cmpeq zeros literals
      let notActive := cmpgt zeros (load avxL row (mem + i * 32))
      let cnt := if bud then cnt + popcountMask (vnot notActive) else cnt
      if anyBit (cmpeq (vor notActive negLiterals) zeros) then (false, cnt)
      else avxSetLoop bud mem row lits (i + 1) r cnt

/-- `SetClauseOutputAVX2`, body for one clause (src/func_avx2.hpp:182-269), including the masked last
chunk (229-262) and the `continue` (243) that skips storing the literal count. -/
def avxSetClause (cfg : VCfg) (lits : Mem) (c : VClause) : VClause :=
  let mem := avxMem cfg.nLits
  let bud := cfg.budget.isSome
  let nChunks := mem / avxL - 1
  let zeros := set1 avxL 0#8
  let mask := avxMask cfg.nLits
  let r := avxSetLoop bud mem c.row lits 0 nChunks 0
  if r.1 = false then
    { c with out := 0, cnt := if bud then r.2 else c.cnt }
  else
    let literals := load avxL lits (nChunks * 32)
    let active := vand (vnot (cmpgt zeros (load avxL c.row (nChunks * 32)))) mask
    let cnt := if bud then r.2 + popcountMask active else r.2
    if anyBit (cmpeq (vor (vnot active) literals) zeros) then { c with out := 0 }
    else
      let negLiterals := cmpeq zeros literals
      let active := vand (vnot (cmpgt zeros (load avxL c.row (mem + nChunks * 32)))) mask
      let cnt := if bud then cnt + popcountMask active else cnt
      let out := if anyBit (cmpeq (vor (vnot active) negLiterals) zeros) then 0 else 1
      { c with out := out, cnt := if bud then cnt else c.cnt }

/-- The unmasked chunks of `EvalClauseOutputAVX2` (src/func_avx2.hpp:293-323); `act` is
`active_literals != 0`. -/
def avxEvalLoop (mem : Nat) (row lits : Mem) : Nat → Nat → Bool → Bool × Bool
  | _, 0, act => (true, act)
  | i, r + 1, act =>
    let zeros := set1 avxL 0#8
    let literals := load avxL lits (i * 32)
    let notActive := cmpgt zeros (load avxL row (i * 32))
    let act := act || anyMask (vnot notActive)
    if anyBit (cmpeq (vor notActive literals) zeros) then (false, act)
    else
      let negLiterals := cmpeq zeros literals
      let notActive := cmpgt zeros (load avxL row (mem + i * 32))
      let act := act || anyMask (vnot notActive)
      if anyBit (cmpeq (vor notActive negLiterals) zeros) then (false, act)
      else avxEvalLoop mem row lits (i + 1) r act

/-- `EvalClauseOutputAVX2`, body for one clause (src/func_avx2.hpp:286-363). -/
def avxEvalClause (cfg : VCfg) (lits : Mem) (c : VClause) : VClause :=
  let mem := avxMem cfg.nLits
  let nChunks := mem / 32 - 1
  let zeros := set1 avxL 0#8
  let mask := avxMask cfg.nLits
  let r := avxEvalLoop mem c.row lits 0 nChunks false
  if r.1 = false then { c with out := 0 }
  else
    let literals := load avxL lits (nChunks * 32)
    let notActive := cmpgt zeros (load avxL c.row (nChunks * 32))
    let act := r.2 || anyMask (vand (vnot notActive) mask)
    if anyBit (vand (cmpeq (vor notActive literals) zeros) mask) then { c with out := 0 }
    else
      let negLiterals := cmpeq zeros literals
      let notActive := cmpgt zeros (load avxL c.row (mem + nChunks * 32))
      let act := act || anyMask (vand (vnot notActive) mask)
      if anyBit (vand (cmpeq (vor notActive negLiterals) zeros) mask) then { c with out := 0 }
      else { c with out := if act = false then 0 else 1 }

/-- One chunk of `Type1aFeedbackAVX2` (src/func_avx2.hpp:480-529). -/
def avxT1aChunk (cfg : VCfg) (mem : Nat) (lits : Mem) (i : Nat) (row : Mem) (g : VRng) :
    Mem × VRng :=
  let ones := set1 avxL 1#8
  let minusOne := set1 avxL 0xFF#8
  let cmpS := set1 avxL cfg.cmpS
  let literalOn := cmpeq (load avxL lits (i * avxL)) ones
  let r := g.next avxL
  let update := cmpgt cmpS r.1
  let subtract := vand minusOne (vand (vnot literalOn) update)
  let add := if cfg.boost then vand literalOn ones else vand ones (vand literalOn (vnot update))
  let row := store row (i * avxL) (vadds (load avxL row (i * avxL)) (vor subtract add))
  let clause := load avxL row (mem + i * avxL)
  let r := r.2.next avxL
  let update := cmpgt cmpS r.1
  let subtract := vand minusOne (vand literalOn update)
  let add := if cfg.boost then vand (vnot literalOn) ones
    else vand ones (vand (vnot literalOn) (vnot update))
  (store row (mem + i * avxL) (vadds clause (vor subtract add)), r.2)

/-- One chunk of `Type1bFeedbackAVX2` (src/func_avx2.hpp:550-571). -/
def avxT1bChunk (cfg : VCfg) (mem : Nat) (i : Nat) (row : Mem) (g : VRng) : Mem × VRng :=
  let minusOne := set1 avxL 0xFF#8
  let cmpS := set1 avxL cfg.cmpS
  let r := g.next avxL
  let update := vand minusOne (cmpgt cmpS r.1)
  let row := store row (i * avxL) (vadds (load avxL row (i * avxL)) update)
  let clause := load avxL row (mem + i * avxL)
  let r := r.2.next avxL
  let update := vand minusOne (cmpgt cmpS r.1)
  (store row (mem + i * avxL) (vadds clause update), r.2)

/-- One chunk of `Type2FeedbackAVX2` (src/func_avx2.hpp:591-615). -/
def avxT2Chunk (mem : Nat) (lits : Mem) (i : Nat) (row : Mem) : Mem :=
  let zeros := set1 avxL 0#8
  let ones := set1 avxL 1#8
  let litMask := cmpeq (load avxL lits (i * avxL)) zeros
  let clause := load avxL row (i * avxL)
  let notActive := cmpgt zeros clause
  let row := store row (i * avxL) (vadds clause (vand (vand litMask notActive) ones))
  let clause := load avxL row (mem + i * avxL)
  let notActive := cmpgt zeros clause
  store row (mem + i * avxL) (vadds clause (vand (vand (vnot litMask) notActive) ones))

/-- A loop `for(chunk_i = i; chunk_i < i + r; ++chunk_i)` over a row and the vector generator
(src/func_avx2.hpp:477-530, 548-572, 589-616). -/
def chunkLoop (f : Nat → Mem → VRng → Mem × VRng) : Nat → Nat → Mem → VRng → Mem × VRng
  | _, 0, row, g => (row, g)
  | i, r + 1, row, g => let s := f i row g; chunkLoop f (i + 1) r s.1 s.2

/-- `Type1aFeedbackAVX2::operator()` (src/func_avx2.hpp:463-531). -/
def avxT1a (cfg : VCfg) (row lits : Mem) (g : VRng) : Mem × VRng :=
  chunkLoop (avxT1aChunk cfg (avxMem cfg.nLits) lits) 0 (avxMem cfg.nLits / 32) row g

/-- `Type1bFeedbackAVX2::operator()` (src/func_avx2.hpp:533-574). -/
def avxT1b (cfg : VCfg) (row : Mem) (g : VRng) : Mem × VRng :=
  chunkLoop (avxT1bChunk cfg (avxMem cfg.nLits)) 0 (avxMem cfg.nLits / 32) row g

/-- `Type2FeedbackAVX2::operator()` (src/func_avx2.hpp:576-641); draws nothing. -/
def avxT2 (cfg : VCfg) (row lits : Mem) (g : VRng) : Mem × VRng :=
  chunkLoop (fun i row g => (avxT2Chunk (avxMem cfg.nLits) lits i row, g)) 0
    (avxMem cfg.nLits / 32) row g

/-- `ClauseUpdateAVX2::operator()` (src/func_avx2.hpp:428-461) for the weight of class `j`. -/
def avxClauseUpdate (cfg : VCfg) (lits : Mem) (j : Nat) (target : Int) (c : VClause) (g : VRng) :
    VClause × VRng :=
  let w := c.w.getD j 0
  let sign : Int := if w ≥ 0 then 1 else -1
  if target * sign > 0 then
    if c.out = 1 then
      let r := avxT1a cfg c.row lits g
      ({ c with w := c.w.set j (wrap16 (w + sign)), row := r.1 }, r.2)
    else
      let r := avxT1b cfg c.row g
      ({ c with row := r.1 }, r.2)
  else if target * sign < 0 ∧ c.out = 1 then
    let r := avxT2 cfg c.row lits g
    ({ c with w := c.w.set j (wrap16 (w - sign)), row := r.1 }, r.2)
  else (c, g)

/-- The budget check of `TrainUpdateAVX2` (src/func_avx2.hpp:406-410). -/
def avxBudgetGate (cfg : VCfg) (c : VClause) : VClause :=
  match cfg.budget with
  | some b => if c.cnt > b then { c with out := 0 } else c
  | none => c

/-- `TrainUpdateAVX2::operator()`, body for one clause (src/func_avx2.hpp:400-423). -/
def avxTrainClause (cfg : VCfg) (lits : Mem) (fb : Feedback) (c : VClause) (fast : Rng) (g : VRng) :
    VClause × Rng × VRng :=
  let c := avxBudgetGate cfg c
  let a : VClause × VRng :=
    if fast.next.1 < fb.posProb then avxClauseUpdate cfg lits fb.posClass 1 c g else (c, g)
  let fast := fast.next.2
  let b : VClause × VRng :=
    if fast.next.1 < fb.negProb then avxClauseUpdate cfg lits fb.negClass (-1) a.1 a.2 else a
  (b.1, fast.next.2, b.2)

/-- `TrainUpdateAVX2::operator()` (src/func_avx2.hpp:393-426). -/
def avxTrainClauses (cfg : VCfg) (lits : Mem) (fb : Feedback) :
    List VClause → Rng → VRng → List VClause × Rng × VRng
  | [], fast, g => ([], fast, g)
  | c :: cs, fast, g =>
    let r := avxTrainClause cfg lits fb c fast g
    let rs := avxTrainClauses cfg lits fb cs r.2.1 r.2.2
    (r.1 :: rs.1, rs.2.1, rs.2.2)

/-- `CountVotesAVX2::operator()` (src/func_avx2.hpp:368-391). -/
def avxCountVotes (nClasses : Nat) (cs : List VClause) : List Int :=
  cs.foldl (fun v c => if c.out = 1 then addVotes v c.w else v) (List.replicate nClasses 0)

/-- A dense AVX2 clause block (src/clause_block.hpp:93-234, src/main.cpp:164-181). -/
structure VBlock where
  nClasses : Nat
  cfg      : VCfg
  clauses  : List VClause
  votes    : List Int
  fast     : Rng
  vrng     : VRng

/-- Calls on an AVX2 block; the literals are the (padded) example buffer (src/clause_block.hpp:65-86). -/
inductive VOp
  | trainExample (lits : Mem)
  | evalExample (lits : Mem)
  | trainUpdate (lits : Mem) (fb : Feedback)

/-- Effect of one call (src/clause_block.hpp:65-86, 187-212). -/
def VBlock.apply (b : VBlock) : VOp → VBlock
  | .trainExample lits =>
    let cs := b.clauses.map (avxSetClause b.cfg lits)
    { b with clauses := cs, votes := avxCountVotes b.nClasses cs }
  | .evalExample lits =>
    let cs := b.clauses.map (avxEvalClause b.cfg lits)
    { b with clauses := cs, votes := avxCountVotes b.nClasses cs }
  | .trainUpdate lits fb =>
    let r := avxTrainClauses b.cfg lits fb b.clauses b.fast b.vrng
    { b with clauses := r.1, fast := r.2.1, vrng := r.2.2 }

/-- A history of calls on one AVX2 block (src/executor.hpp:99-195 makes these calls). -/
def VBlock.run (b : VBlock) (ops : List VOp) : VBlock := ops.foldl VBlock.apply b

/-- Writing one literal pair of a fresh row (src/func_avx2.hpp:104-115): positive first, then negated. -/
def avxInitRow (mem : Nat) : Nat → Nat → Mem → Rng → Mem × Rng
  | _, 0, row, g => (row, g)
  | k, r + 1, row, g =>
    let row := fun a => if a = k then (if g.next.1 > 1 / 2 then 0#8 else 0xFF#8) else row a
    let g := g.next.2
    let row' := fun a => if a = k + mem then (if g.next.1 > 1 / 2 then 0#8 else 0xFF#8) else row a
    avxInitRow mem (k + 1) r row' g.next.2

/-- Filler states (src/func_avx2.hpp:118-122): -109 and -111 in the padding lanes. -/
def avxFill (n mem : Nat) (row : Mem) : Mem := fun a =>
  if n ≤ a ∧ a < mem then BitVec.ofInt 8 (-109)
  else if n + mem ≤ a ∧ a < mem + mem then BitVec.ofInt 8 (-111) else row a

/-- `init_clauses` (src/func_avx2.hpp:96-124): one row per clause; `junk` is the uninitialised memory. -/
def avxInitRows (n : Nat) (junk : Nat → Mem) : Nat → Rng → List Mem × Rng
  | 0, g => ([], g)
  | k + 1, g =>
    let p := avxInitRow (avxMem n) 0 n (junk k) g
    let r := avxInitRows n junk k p.2
    (avxFill n (avxMem n) p.1 :: r.1, r.2)

/-- `InitializeAVX2::operator()` (src/func_avx2.hpp:19-140): seed 0 is refused; rows first, then weights,
both from `fast_rng`. -/
def avxInit (nClauses nClasses : Nat) (cfg : VCfg) (fastOf : Nat → Rng) (vrngOf : Nat → VRng)
    (junk : Nat → Mem) (junkCnt : Nat → Nat) (seed : Nat) : Option VBlock :=
  if seed = 0 then none
  else
    let rows := avxInitRows cfg.nLits junk nClauses (fastOf seed)
    let ws := initAllWeights nClasses nClauses rows.2
    some
      { nClasses := nClasses, cfg := cfg,
        clauses := (rows.1.zip ws.1).mapIdx fun i rw => ⟨rw.1, rw.2, 0, junkCnt i⟩,
        votes := List.replicate nClasses 0, fast := ws.2, vrng := vrngOf seed }

end GT

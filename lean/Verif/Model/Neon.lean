import Verif.Model.Avx2

/-!
# The NEON dense clause block (src/func_neon.hpp)

Same layout as the AVX2 block with 16 lanes: a clause row is memory of `2 * mem` bytes, `mem` being the number of
literals rounded up to 16.  Clauses and parameters are `VClause` and `VCfg` (`AlignedTsetlinState<16, ...>`,
src/main.cpp:213-216).
-/

namespace GT

/-- `literals_per_vector` of the NEON state (src/main.cpp:216). -/
notation "neonL" => (16 : Nat)

/-- `num_literals_mem` (src/func_neon.hpp:77-86). -/
def neonMem (n : Nat) : Nat := if n % neonL = 0 then n else (n / neonL + 1) * neonL

/-- `reminder_mask` (src/func_neon.hpp:73-90): always allocated; 0x00 from lane `n % 16` on when `n` is not a
multiple of 16. -/
def neonMask (n : Nat) : Vec neonL := fun l =>
  if n % neonL = 0 then 0xFF#8 else if n % neonL ≤ l.val then 0x00#8 else 0xFF#8

/-- `neon_movemask(v) != 0` (src/func_neon.hpp:40-46): the shift-and-narrow keeps the high nibble of even lanes
and the low nibble of odd lanes. -/
def movemaskNZ {L : Nat} (v : Vec L) : Bool :=
  (List.finRange L).any fun l => if l.val % 2 = 0 then v l >>> 4 != 0#8 else v l &&& 0x0F#8 != 0#8

/-- The unmasked chunks of `SetClauseOutputNeon` (src/func_neon.hpp:213-254): `r` chunks from chunk `i`;
`(false, cnt)` is the jump to `endclause`. -/
def neonSetLoop (bud : Bool) (mem : Nat) (row lits : Mem) : Nat → Nat → Nat → Bool × Nat
  | _, 0, cnt => (true, cnt)
  | i, r + 1, cnt =>
    let zeros := set1 neonL 0#8
    let literals := load neonL lits (i * 16)
    let notActive := cmpgt zeros (load neonL row (i * 16))
    let cnt := if bud then cnt + popcountMask (vnot notActive) else cnt
    if anyBit (cmpeq (vor notActive literals) zeros) then (false, cnt)
    else
      let negLiterals := cmpeq zeros literals
      let notActive := cmpgt zeros (load neonL row (mem + i * 16))
      let cnt := if bud then cnt + popcountMask (vnot notActive) else cnt
      if anyBit (cmpeq (vor notActive negLiterals) zeros) then (false, cnt)
      else neonSetLoop bud mem row lits (i + 1) r cnt

/-- `SetClauseOutputNeon`, body for one clause (src/func_neon.hpp:205-318), with the literal counter in
memory. -/
def neonSetClause (cfg : VCfg) (lits : Mem) (c : VClause) : VClause :=
  let mem := neonMem cfg.nLits
  let bud := cfg.budget.isSome
  let nChunks := mem / neonL - 1
  let zeros := set1 neonL 0#8
  let mask := neonMask cfg.nLits
  let r := neonSetLoop bud mem c.row lits 0 nChunks 0
  if r.1 = false then { c with out := 0, cnt := r.2 }
  else
    let literals := load neonL lits (nChunks * 16)
    let active := vand (vnot (cmpgt zeros (load neonL c.row (nChunks * 16)))) mask
    let cnt := if bud then r.2 + popcountMask active else r.2
    if anyBit (cmpeq (vor (vnot active) literals) zeros) then { c with out := 0, cnt := cnt }
    else
      let negLiterals := cmpeq zeros literals
      let active := vand (vnot (cmpgt zeros (load neonL c.row (mem + nChunks * 16)))) mask
      let cnt := if bud then cnt + popcountMask active else cnt
      let out := if anyBit (cmpeq (vor (vnot active) negLiterals) zeros) then 0 else 1
      { c with out := out, cnt := cnt }

/-- `SetClauseOutputNeon::operator()` (src/func_neon.hpp:189-321). Without a literal budget the counters were
never allocated (src/func_neon.hpp:95-96), and line 209 writes through a null pointer: `none`. -/
def neonSetClauses (cfg : VCfg) (lits : Mem) (cs : List VClause) : Option (List VClause) :=
  if cs ≠ [] ∧ cfg.budget = none then none else some (cs.map (neonSetClause cfg lits))

/-- The unmasked chunks of `EvalClauseOutputNeon` (src/func_neon.hpp:342-380); `act` is `active_mask != 0`. -/
def neonEvalLoop (mem : Nat) (row lits : Mem) : Nat → Nat → Bool → Bool × Bool
  | _, 0, act => (true, act)
  | i, r + 1, act =>
    let zeros := set1 neonL 0#8
    let literals := load neonL lits (i * 16)
    let notActive := cmpgt zeros (load neonL row (i * 16))
    let act := act || movemaskNZ (vnot notActive)
    if anyBit (cmpeq (vor notActive literals) zeros) then (false, act)
    else
      let negLiterals := cmpeq zeros literals
      let notActive := cmpgt zeros (load neonL row (mem + i * 16))
      let act := act || movemaskNZ (vnot notActive)
      if anyBit (cmpeq (vor notActive negLiterals) zeros) then (false, act)
      else neonEvalLoop mem row lits (i + 1) r act

/-- `EvalClauseOutputNeon`, body for one clause (src/func_neon.hpp:336-445): the clause with its output and
`active_mask != 0` afterwards; `act0` is `active_mask != 0` before. -/
def neonEvalClause (cfg : VCfg) (lits : Mem) (act0 : Bool) (c : VClause) : VClause × Bool :=
  let mem := neonMem cfg.nLits
  let nChunks := mem / 16 - 1
  let zeros := set1 neonL 0#8
  let mask := neonMask cfg.nLits
  let r := neonEvalLoop mem c.row lits 0 nChunks act0
  if r.1 = false then ({ c with out := 0 }, r.2)
  else
    let literals := load neonL lits (nChunks * 16)
    let notActive := cmpgt zeros (load neonL c.row (nChunks * 16))
    let act := r.2 || movemaskNZ (vand (vnot notActive) mask)
    if anyBit (vand (cmpeq (vor notActive literals) zeros) mask) then ({ c with out := 0 }, act)
    else
      let negLiterals := cmpeq zeros literals
      let notActive := cmpgt zeros (load neonL c.row (mem + nChunks * 16))
      let act := act || movemaskNZ (vand (vnot notActive) mask)
      let out := if anyBit (vand (cmpeq (vor notActive negLiterals) zeros) mask) then 0 else 1
      ({ c with out := if act = false then 0 else out }, act)

/-- `EvalClauseOutputNeon::operator()` (src/func_neon.hpp:324-447): `active_mask` is declared outside the loop over
the clauses and carried from one to the next. -/
def neonEvalClauses (cfg : VCfg) (lits : Mem) : Bool → List VClause → List VClause
  | _, [] => []
  | act, c :: cs =>
    let r := neonEvalClause cfg lits act c
    r.1 :: neonEvalClauses cfg lits r.2 cs

/-- One chunk of `Type1aFeedbackNeon` (src/func_neon.hpp:563-622); boosting concerns the positive half only. -/
def neonT1aChunk (cfg : VCfg) (mem : Nat) (lits : Mem) (i : Nat) (row : Mem) (g : VRng) :
    Mem × VRng :=
  let ones := set1 neonL 1#8
  let cmpS := set1 neonL cfg.cmpS
  let literalOn := cmpeq (load neonL lits (i * neonL)) ones
  let r := g.next neonL
  let update := cmpgt cmpS r.1
  let subtract := vand (vnot literalOn) update
  let add := if cfg.boost then vand literalOn ones else vand ones (vand literalOn (vnot update))
  let row := store row (i * neonL) (vadds (load neonL row (i * neonL)) (vor subtract add))
  let clause := load neonL row (mem + i * neonL)
  let r := r.2.next neonL
  let update := cmpgt cmpS r.1
  let subtract := vand literalOn update
  let add := vand ones (vand (vnot literalOn) (vnot update))
  (store row (mem + i * neonL) (vadds clause (vor subtract add)), r.2)

/-- One chunk of `Type1bFeedbackNeon` (src/func_neon.hpp:641-661). -/
def neonT1bChunk (cfg : VCfg) (mem : Nat) (i : Nat) (row : Mem) (g : VRng) : Mem × VRng :=
  let minusOne := set1 neonL 0xFF#8
  let cmpS := set1 neonL cfg.cmpS
  let r := g.next neonL
  let update := vand minusOne (cmpgt cmpS r.1)
  let row := store row (i * neonL) (vadds (load neonL row (i * neonL)) update)
  let clause := load neonL row (mem + i * neonL)
  let r := r.2.next neonL
  let update := vand minusOne (cmpgt cmpS r.1)
  (store row (mem + i * neonL) (vadds clause update), r.2)

/-- One chunk of `Type2FeedbackNeon` (src/func_neon.hpp:685-708). -/
def neonT2Chunk (mem : Nat) (lits : Mem) (i : Nat) (row : Mem) : Mem :=
  let zeros := set1 neonL 0#8
  let ones := set1 neonL 1#8
  let litMask := cmpeq (load neonL lits (i * neonL)) zeros
  let clause := load neonL row (i * neonL)
  let notActive := cmpgt zeros clause
  let row := store row (i * neonL) (vadds clause (vand (vand litMask notActive) ones))
  let clause := load neonL row (mem + i * neonL)
  let notActive := cmpgt zeros clause
  store row (mem + i * neonL) (vadds clause (vand (vand (vnot litMask) notActive) ones))

/-- `Type1aFeedbackNeon::operator()` (src/func_neon.hpp:541-626). -/
def neonT1a (cfg : VCfg) (row lits : Mem) (g : VRng) : Mem × VRng :=
  chunkLoop (neonT1aChunk cfg (neonMem cfg.nLits) lits) 0 (neonMem cfg.nLits / 16) row g

/-- `Type1bFeedbackNeon::operator()` (src/func_neon.hpp:628-663). -/
def neonT1b (cfg : VCfg) (row : Mem) (g : VRng) : Mem × VRng :=
  chunkLoop (neonT1bChunk cfg (neonMem cfg.nLits)) 0 (neonMem cfg.nLits / 16) row g

/-- `Type2FeedbackNeon::operator()` (src/func_neon.hpp:666-710). -/
def neonT2 (cfg : VCfg) (row lits : Mem) (g : VRng) : Mem × VRng :=
  chunkLoop (fun i row g => (neonT2Chunk (neonMem cfg.nLits) lits i row, g)) 0
    (neonMem cfg.nLits / 16) row g

/-- `ClauseUpdateNeon::operator()` (src/func_neon.hpp:506-539) for the weight of class `j`. -/
def neonClauseUpdate (cfg : VCfg) (lits : Mem) (j : Nat) (target : Int) (c : VClause) (g : VRng) :
    VClause × VRng :=
  let w := c.w.getD j 0
  let sign : Int := if w ≥ 0 then 1 else -1
  if target * sign > 0 then
    if c.out = 1 then
      let r := neonT1a cfg c.row lits g
      ({ c with w := c.w.set j (wrap16 (w + sign)), row := r.1 }, r.2)
    else
      let r := neonT1b cfg c.row g
      ({ c with row := r.1 }, r.2)
  else if target * sign < 0 ∧ c.out = 1 then
    let r := neonT2 cfg c.row lits g
    ({ c with w := c.w.set j (wrap16 (w - sign)), row := r.1 }, r.2)
  else (c, g)

/-- The budget check of `TrainUpdateNeon` (src/func_neon.hpp:485-489). -/
def neonBudgetGate (cfg : VCfg) (c : VClause) : VClause :=
  match cfg.budget with
  | some b => if c.cnt > b then { c with out := 0 } else c
  | none => c

/-- `TrainUpdateNeon::operator()`, body for one clause (src/func_neon.hpp:480-502). -/
def neonTrainClause (cfg : VCfg) (lits : Mem) (fb : Feedback) (c : VClause) (fast : Rng) (g : VRng) :
    VClause × Rng × VRng :=
  let c := neonBudgetGate cfg c
  let a : VClause × VRng :=
    if fast.next.1 < fb.posProb then neonClauseUpdate cfg lits fb.posClass 1 c g else (c, g)
  let fast := fast.next.2
  let b : VClause × VRng :=
    if fast.next.1 < fb.negProb then neonClauseUpdate cfg lits fb.negClass (-1) a.1 a.2 else a
  (b.1, fast.next.2, b.2)

/-- `TrainUpdateNeon::operator()` (src/func_neon.hpp:472-504). -/
def neonTrainClauses (cfg : VCfg) (lits : Mem) (fb : Feedback) :
    List VClause → Rng → VRng → List VClause × Rng × VRng
  | [], fast, g => ([], fast, g)
  | c :: cs, fast, g =>
    let r := neonTrainClause cfg lits fb c fast g
    let rs := neonTrainClauses cfg lits fb cs r.2.1 r.2.2
    (r.1 :: rs.1, rs.2.1, rs.2.2)

/-- `CountVotesNeon::operator()` (src/func_neon.hpp:450-470). -/
def neonCountVotes (nClasses : Nat) (cs : List VClause) : List Int :=
  cs.foldl (fun v c => if c.out = 1 then addVotes v c.w else v) (List.replicate nClasses 0)

/-- A dense NEON clause block (src/aligned_tsetlin_state.hpp:16-60). -/
structure NBlock where
  nClasses : Nat
  cfg      : VCfg
  clauses  : List VClause
  votes    : List Int
  fast     : Rng
  vrng     : VRng

/-- Effect of one call (src/clause_block.hpp:65-86, 187-212); `none`: the process crashes. -/
def NBlock.apply (b : NBlock) : VOp → Option NBlock
  | .trainExample lits =>
    (neonSetClauses b.cfg lits b.clauses).map fun cs =>
      { b with clauses := cs, votes := neonCountVotes b.nClasses cs }
  | .evalExample lits =>
    let cs := neonEvalClauses b.cfg lits false b.clauses
    some { b with clauses := cs, votes := neonCountVotes b.nClasses cs }
  | .trainUpdate lits fb =>
    let r := neonTrainClauses b.cfg lits fb b.clauses b.fast b.vrng
    some { b with clauses := r.1, fast := r.2.1, vrng := r.2.2 }

/-- A draw of `uniform_int_distribution<int8_t>(-1, 0)` as a byte (src/func_neon.hpp:125-135). -/
def neonCoin (g : Rng) : Byte := if g.next.1 < 1 / 2 then 0xFF#8 else 0#8

/-- Writing the literal pairs of a fresh row (src/func_neon.hpp:131-135): `r` literals from literal `k`, positive first, then negated. -/
def neonInitRow (mem : Nat) : Nat → Nat → Mem → Rng → Mem × Rng
  | _, 0, row, g => (row, g)
  | k, r + 1, row, g =>
    let row := fun a => if a = k then neonCoin g else row a
    let row' := fun a => if a = k + mem then neonCoin g.next.2 else row a
    neonInitRow mem (k + 1) r row' g.next.2.next.2

/-- Filler states in the padding lanes (src/func_neon.hpp:138-142). -/
def neonFill (n mem : Nat) (row : Mem) : Mem := fun a =>
  if n ≤ a ∧ a < mem then BitVec.ofInt 8 (-109)
  else if n + mem ≤ a ∧ a < mem + mem then BitVec.ofInt 8 (-111) else row a

/-- `init_clauses` (src/func_neon.hpp:123-144): one row per clause. The `2 * mem` bytes of a row hold `junk` before; the bytes after them are not part
of the row and read 0 here. -/
def neonInitRows (n : Nat) (junk : Nat → Mem) : Nat → Rng → List Mem × Rng
  | 0, g => ([], g)
  | k + 1, g =>
    let fresh : Mem := fun a => if a < 2 * neonMem n then junk k a else 0#8
    let p := neonInitRow (neonMem n) 0 n fresh g
    let r := neonInitRows n junk k p.2
    (neonFill n (neonMem n) p.1 :: r.1, r.2)

/-- `init_clause_weights` (src/func_neon.hpp:146-158) for one clause: `bernoulli_distribution(0.5)`. -/
def neonInitWeights : Nat → Rng → List Int × Rng
  | 0, g => ([], g)
  | n + 1, g =>
    let r := neonInitWeights n g.next.2
    ((if g.next.1 < 1 / 2 then 1 else -1) :: r.1, r.2)

/-- `init_clause_weights` (src/func_neon.hpp:146-158), clause by clause. -/
def neonInitAllWeights (nClasses : Nat) : Nat → Rng → List (List Int) × Rng
  | 0, g => ([], g)
  | k + 1, g =>
    let p := neonInitWeights nClasses g
    let r := neonInitAllWeights nClasses k p.2
    (p.1 :: r.1, r.2)

/-- `InitializeAlignedNeon::operator()` (src/func_neon.hpp:63-118): seed 0 is refused; rows first, then weights, both from `rng`, which is not used
afterwards. The literal counts are uninitialised (`junkCnt`). -/
def neonInit (nClauses nClasses : Nat) (cfg : VCfg) (fastOf rngOf : Nat → Rng) (vrngOf : Nat → VRng) (junk : Nat → Mem)
    (junkCnt : Nat → Nat) (seed : Nat) : Option NBlock :=
  if seed = 0 then none
  else
    let rows := neonInitRows cfg.nLits junk nClauses (rngOf seed)
    let ws := neonInitAllWeights nClasses nClauses rows.2
    some
      { nClasses := nClasses, cfg := cfg,
        clauses := (rows.1.zip ws.1).mapIdx fun i rw => ⟨rw.1, rw.2, 0, junkCnt i⟩,
        votes := List.replicate nClasses 0, fast := fastOf seed, vrng := vrngOf seed }

end GT

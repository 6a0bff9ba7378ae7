import Verif.Model.Avx2

/-!
# Convolutional clause blocks (src/func_conv_tm.hpp, src/func_conv_avx2.hpp)

An example is `num_patches_per_example` patches of `num_literals` literals each, one after the other.
-/

namespace GT

/-- A clause of a convolutional block: as in a dense block, with `active_patches[clause_k]`
(src/aligned_tsetlin_state.hpp:43-46). -/
structure ConvClause where
  base  : Clause
  patch : Nat
deriving DecidableEq

/-- `&literals[patch_k * num_literals]`, `num_literals` values (src/func_conv_tm.hpp:80-81,150-151,212). -/
def patchAt (n : Nat) (x : List Nat) (k : Nat) : List Nat := (x.drop (k * n)).take n

/-- `uniform_int_distribution<uint32_t>(0, m-1)` (src/func_conv_tm.hpp:123-124): an index below `m` computed from
one draw; every index is the result of some draw. -/
def Rng.pick (g : Rng) (m : Nat) : Nat × Rng := (min (m - 1) (g.next.1 * m).floor.toNat, g.next.2)

/-- The literal loop of `SetClauseOutputConvTM` for one patch (src/func_conv_tm.hpp:83-111): `patch_output` and
`literal_count`. -/
def convSetLoop (bud : Bool) : List Int → List Int → List Nat → Nat → Bool × Nat
  | p :: ps, q :: qs, x :: xs, cnt =>
    if p ≥ 0 ∧ x = 0 then (false, cnt)
    else
      let cnt := if p ≥ 0 ∧ bud then cnt + 1 else cnt
      if q ≥ 0 ∧ x = 1 then (false, cnt)
      else
        let cnt := if q ≥ 0 ∧ bud then cnt + 1 else cnt
        convSetLoop bud ps qs xs cnt
  | _, _, _, cnt => (true, cnt)

/-- What the patch loop of a clause produces: its output, `active_patches_storage` and
`literal_counts_per_patch` (src/func_conv_tm.hpp:66-119, src/aligned_tsetlin_state.hpp:43-46). -/
structure Scan where
  out     : Nat
  storage : List Nat
  counts  : Nat → Nat

/-- The end of the patch loop's body (src/func_conv_tm.hpp:113-118, src/func_conv_avx2.hpp:166-172). -/
def Scan.step (test : Nat → Bool × Nat) (s : Scan) (k : Nat) : Scan :=
  if (test k).1 then
    { out := 1, storage := s.storage ++ [k], counts := fun i => if i = k then (test k).2 else s.counts i }
  else s

/-- The patch loop of a clause (src/func_conv_tm.hpp:69-119, src/func_conv_avx2.hpp:73-173); `test` gives
`patch_output` and `literal_count` of a patch. -/
def convScan (nPatches : Nat) (test : Nat → Bool × Nat) (counts : Nat → Nat) : Scan :=
  (List.range nPatches).foldl (Scan.step test) ⟨0, [], counts⟩

/-- Choosing the patch for feedback (src/func_conv_tm.hpp:121-129, src/func_conv_avx2.hpp:175-183): the active patch,
the literal count and the generator; `oldPatch` and `oldCnt` are kept when no patch was stored. The count is read at the
position in the storage, as in the code, not at the patch. -/
def convSelect (bud : Bool) (s : Scan) (oldPatch oldCnt : Nat) (rng : Rng) : Nat × Nat × Rng :=
  if s.storage.length = 0 then (oldPatch, oldCnt, rng)
  else
    let r := rng.pick s.storage.length
    (s.storage.getD r.1 0, if bud then s.counts r.1 else oldCnt, r.2)

/-- `SetClauseOutputConvTM`, body for one clause (src/func_conv_tm.hpp:67-130). -/
def convSetClause (cfg : Cfg) (n nPatches : Nat) (x : List Nat) (c : ConvClause) (counts : Nat → Nat) (rng : Rng) :
    ConvClause × (Nat → Nat) × Rng :=
  let s := convScan nPatches (fun k => convSetLoop cfg.budget.isSome c.base.pos c.base.neg (patchAt n x k) 0) counts
  let r := convSelect cfg.budget.isSome s c.patch c.base.cnt rng
  (⟨{ c.base with out := s.out, cnt := r.2.1 }, r.1⟩, s.counts, r.2.2)

/-- `SetClauseOutputConvTM::operator()` (src/func_conv_tm.hpp:65-131). -/
def convSetClauses (cfg : Cfg) (n nPatches : Nat) (x : List Nat) :
    List ConvClause → (Nat → Nat) → Rng → List ConvClause × (Nat → Nat) × Rng
  | [], counts, rng => ([], counts, rng)
  | c :: cs, counts, rng =>
    let r := convSetClause cfg n nPatches x c counts rng
    let rs := convSetClauses cfg n nPatches x cs r.2.1 r.2.2
    (r.1 :: rs.1, rs.2.1, rs.2.2)

/-- The literal loop of `EvalClauseOutputConvTM` for one patch (src/func_conv_tm.hpp:153-178): `patch_output` and
`is_empty_clause`. -/
def convEvalLoop : List Int → List Int → List Nat → Bool → Bool × Bool
  | p :: ps, q :: qs, x :: xs, e =>
    let e := if p ≥ 0 then false else e
    if p ≥ 0 ∧ x = 0 then (false, e)
    else
      let e := if q ≥ 0 then false else e
      if q ≥ 0 ∧ x = 1 then (false, e)
      else convEvalLoop ps qs xs e
  | _, _, _, e => (true, e)

/-- One patch at evaluation, with the test for the empty clause (src/func_conv_tm.hpp:147-183). -/
def convEvalPatch (pos neg : List Int) (x : List Nat) : Bool :=
  let r := convEvalLoop pos neg x true
  if r.2 then false else r.1

/-- The patch loop at evaluation (src/func_conv_tm.hpp:143-190): `r` patches from patch `k`, until one holds. -/
def anyPatch (test : Nat → Bool) : Nat → Nat → Nat
  | _, 0 => 0
  | k, r + 1 => if test k then 1 else anyPatch test (k + 1) r

/-- `EvalClauseOutputConvTM`, body for one clause (src/func_conv_tm.hpp:141-191). -/
def convEvalClause (n nPatches : Nat) (x : List Nat) (c : ConvClause) : ConvClause :=
  { c with base := { c.base with
      out := anyPatch (fun k => convEvalPatch c.base.pos c.base.neg (patchAt n x k)) 0 nPatches } }

/-- `TrainUpdateConvTM`, body for one clause (src/func_conv_tm.hpp:207-231): the dense update on the literals of the
active patch. -/
def convTrainClause (cfg : Cfg) (n : Nat) (x : List Nat) (fb : Feedback) (c : ConvClause) (fast rng : Rng) :
    ConvClause × Rng × Rng :=
  let r := trainClause cfg (patchAt n x c.patch) fb c.base fast rng
  ({ c with base := r.1 }, r.2.1, r.2.2)

/-- `TrainUpdateConvTM::operator()` (src/func_conv_tm.hpp:202-232). -/
def convTrainClauses (cfg : Cfg) (n : Nat) (x : List Nat) (fb : Feedback) :
    List ConvClause → Rng → Rng → List ConvClause × Rng × Rng
  | [], fast, rng => ([], fast, rng)
  | c :: cs, fast, rng =>
    let r := convTrainClause cfg n x fb c fast rng
    let rs := convTrainClauses cfg n x fb cs r.2.1 r.2.2
    (r.1 :: rs.1, rs.2.1, rs.2.2)

/-- A convolutional block of the portable backend (src/main.cpp:101-127). -/
structure ConvBlock where
  nLits    : Nat
  nClasses : Nat
  nPatches : Nat
  cfg      : Cfg
  clauses  : List ConvClause
  counts   : Nat → Nat
  votes    : List Int
  fast     : Rng
  rng      : Rng

/-- Effect of one call (src/clause_block.hpp:65-86,187-212); votes are counted by `CountVotesTM` as in a dense
block. -/
def ConvBlock.apply (b : ConvBlock) : BlockOp → ConvBlock
  | .trainExample x =>
    let r := convSetClauses b.cfg b.nLits b.nPatches x b.clauses b.counts b.rng
    { b with clauses := r.1, counts := r.2.1, rng := r.2.2, votes := countVotes b.nClasses (r.1.map (·.base)) }
  | .evalExample x =>
    let cs := b.clauses.map (convEvalClause b.nLits b.nPatches x)
    { b with clauses := cs, votes := countVotes b.nClasses (cs.map (·.base)) }
  | .trainUpdate x fb =>
    let r := convTrainClauses b.cfg b.nLits x fb b.clauses b.fast b.rng
    { b with clauses := r.1, fast := r.2.1, rng := r.2.2 }

/-- A history of calls (src/executor.hpp:99-195 makes these calls). -/
def ConvBlock.run (b : ConvBlock) (ops : List BlockOp) : ConvBlock := ops.foldl ConvBlock.apply b

/-- One training step of one example (src/executor.hpp:118-148 seen from one block). -/
def ConvBlock.trainStep (b : ConvBlock) (x : List Nat) (fb : Feedback) : ConvBlock :=
  (b.apply (.trainExample x)).apply (.trainUpdate x fb)

/-- `InitializeConvTM::operator()` (src/func_conv_tm.hpp:18-33): as a dense block, refused without patches.
`junkPatch` and `junkCounts` are the uninitialised arrays; `num_patches_per_example` is -1 until it is set. -/
def initConv (nLits nClauses nClasses : Nat) (nPatches : Int) (cfg : Cfg) (fastOf rngOf : Nat → Rng)
    (junk junkPatch junkCounts : Nat → Nat) (seed : Nat) : Option ConvBlock :=
  match initTM nLits nClauses nClasses cfg fastOf rngOf junk seed with
  | none => none
  | some d =>
    if nPatches > 0 then
      some { nLits := nLits, nClasses := nClasses, nPatches := nPatches.toNat, cfg := cfg,
             clauses := d.clauses.mapIdx fun i c => ⟨c, junkPatch i⟩, counts := junkCounts,
             votes := d.votes, fast := d.fast, rng := d.rng }
    else none

/-! ### AVX2 -/

/-- A pointer moved forward. The loads of the code are aligned loads, which fault when the address is not a multiple
of 32; the model reads the bytes (src/func_conv_avx2.hpp:75). -/
def shiftMem (m : Mem) (d : Nat) : Mem := fun a => m (d + a)

/-- A clause of an AVX2 convolutional block (src/aligned_tsetlin_state.hpp:33-46). -/
structure VConvClause where
  base  : VClause
  patch : Nat

/-- One patch of `SetClauseOutputConvAVX2` (src/func_conv_avx2.hpp:76-164), `lits` being `curr_literal`. The chunk loop
is the one of `SetClauseOutputAVX2`. -/
def avxConvSetPatch (cfg : VCfg) (row lits : Mem) : Bool × Nat :=
  let mem := avxMem cfg.nLits
  let bud := cfg.budget.isSome
  let nChunks := mem / avxL - 1
  let zeros := set1 avxL 0#8
  let mask := avxMask cfg.nLits
  let r := avxSetLoop bud mem row lits 0 nChunks 0
  if r.1 = false then (false, r.2)
  else
    let literals := load avxL lits (nChunks * 32)
    let active := vand (vnot (cmpgt zeros (load avxL row (nChunks * 32)))) mask
    let cnt := if bud then r.2 + popcountMask active else r.2
    if anyBit (cmpeq (vor (vnot active) literals) zeros) then (false, cnt)
    else
      let negLiterals := cmpeq zeros literals
      let active := vand (vnot (cmpgt zeros (load avxL row (mem + nChunks * 32)))) mask
      let cnt := if bud then cnt + popcountMask active else cnt
      if anyBit (cmpeq (vor (vnot active) negLiterals) zeros) then (false, cnt)
      else (true, cnt)

/-- `SetClauseOutputConvAVX2`, body for one clause (src/func_conv_avx2.hpp:71-184). The AVX2 code stores counts only
with a budget; without one they are never read. -/
def avxConvSetClause (cfg : VCfg) (nPatches : Nat) (lits : Mem) (c : VConvClause) (counts : Nat → Nat) (rng : Rng) :
    VConvClause × (Nat → Nat) × Rng :=
  let s := convScan nPatches (fun k => avxConvSetPatch cfg c.base.row (shiftMem lits (k * cfg.nLits))) counts
  let r := convSelect cfg.budget.isSome s c.patch c.base.cnt rng
  (⟨{ c.base with out := s.out, cnt := r.2.1 }, r.1⟩, s.counts, r.2.2)

/-- `SetClauseOutputConvAVX2::operator()` (src/func_conv_avx2.hpp:64-185). -/
def avxConvSetClauses (cfg : VCfg) (nPatches : Nat) (lits : Mem) :
    List VConvClause → (Nat → Nat) → Rng → List VConvClause × (Nat → Nat) × Rng
  | [], counts, rng => ([], counts, rng)
  | c :: cs, counts, rng =>
    let r := avxConvSetClause cfg nPatches lits c counts rng
    let rs := avxConvSetClauses cfg nPatches lits cs r.2.1 r.2.2
    (r.1 :: rs.1, rs.2.1, rs.2.2)

/-- One patch of `EvalClauseOutputConvAVX2` (src/func_conv_avx2.hpp:207-279). -/
def avxConvEvalPatch (cfg : VCfg) (row lits : Mem) : Bool :=
  let mem := avxMem cfg.nLits
  let nChunks := mem / 32 - 1
  let zeros := set1 avxL 0#8
  let mask := avxMask cfg.nLits
  let r := avxEvalLoop mem row lits 0 nChunks false
  if r.1 = false then false
  else
    let literals := load avxL lits (nChunks * 32)
    let notActive := cmpgt zeros (load avxL row (nChunks * 32))
    let act := r.2 || anyMask (vand (vnot notActive) mask)
    if anyBit (vand (cmpeq (vor notActive literals) zeros) mask) then false
    else
      let negLiterals := cmpeq zeros literals
      let notActive := cmpgt zeros (load avxL row (mem + nChunks * 32))
      let act := act || anyMask (vand (vnot notActive) mask)
      if anyBit (vand (cmpeq (vor notActive negLiterals) zeros) mask) then false
      else act

/-- `EvalClauseOutputConvAVX2`, body for one clause (src/func_conv_avx2.hpp:202-290). -/
def avxConvEvalClause (cfg : VCfg) (nPatches : Nat) (lits : Mem) (c : VConvClause) : VConvClause :=
  { c with base := { c.base with
      out := anyPatch (fun k => avxConvEvalPatch cfg c.base.row (shiftMem lits (k * cfg.nLits))) 0 nPatches } }

/-- `TrainUpdateConvAVX2`, body for one clause (src/func_conv_avx2.hpp:305-330): the dense AVX2 update on the active
patch. -/
def avxConvTrainClause (cfg : VCfg) (lits : Mem) (fb : Feedback) (c : VConvClause) (fast : Rng) (g : VRng) :
    VConvClause × Rng × VRng :=
  let r := avxTrainClause cfg (shiftMem lits (c.patch * cfg.nLits)) fb c.base fast g
  ({ c with base := r.1 }, r.2.1, r.2.2)

end GT

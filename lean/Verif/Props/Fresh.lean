import Verif.Lemmas.Fresh
import Verif.Props.Avx2
import Verif.Props.Conv
import Verif.Props.Sparse
import Verif.Props.Neon

/-!
# C75: nothing a user sees depends on uninitialised memory

`initialize` allocates the literal counters, the clause rows of the vectorised backends and, in a convolutional block, the chosen patches
and the counts per patch without setting them. Each theorem takes two blocks initialised alike whose fresh memory held different bytes, does
the same steps on both and compares everything that can be read from them afterwards.
-/

namespace GT
open Spec

/-- C75, portable dense block. -/
theorem C75_dense (nLits nClauses nClasses : Nat) (cfg : Cfg) (fastOf rngOf : Nat → Rng) (junk junk' : Nat → Nat) (seed : Nat) (hs : seed ≠ 0)
    (steps : List DStep) :
    ∃ b d, initTM nLits nClauses nClasses cfg fastOf rngOf junk seed = some b ∧
      initTM nLits nClauses nClasses cfg fastOf rngOf junk' seed = some d ∧
      (b.run (steps.flatMap DStep.ops)).clauses.map shown = (d.run (steps.flatMap DStep.ops)).clauses.map shown ∧
      (b.run (steps.flatMap DStep.ops)).votes = (d.run (steps.flatMap DStep.ops)).votes ∧
      (b.run (steps.flatMap DStep.ops)).fast = (d.run (steps.flatMap DStep.ops)).fast ∧
      (b.run (steps.flatMap DStep.ops)).rng = (d.run (steps.flatMap DStep.ops)).rng := by
  obtain ⟨b, d, hb, hd, h⟩ := Fresh.initTM_like nLits nClauses nClasses cfg fastOf rngOf junk junk' seed hs
  have r := Fresh.dsteps_like steps b d h
  exact ⟨b, d, hb, hd, r.clauses, r.votes.symm, r.fast.symm, r.rng.symm⟩

/-- C75, sparse block. -/
theorem C75_sparse (nLits nClauses nClasses : Nat) (cfg : SCfg) (fastOf : Nat → Rng) (junk junk' : Nat → Nat) (seed : Nat) (hs : seed ≠ 0)
    (hb : cfg.budget ≠ some 0) (steps : List DStep) :
    ∃ b d, initSparse nLits nClauses nClasses cfg fastOf junk seed = some b ∧
      initSparse nLits nClauses nClasses cfg fastOf junk' seed = some d ∧
      ((steps.flatMap DStep.ops).foldl SBlock.apply b).clauses.map shownS = ((steps.flatMap DStep.ops).foldl SBlock.apply d).clauses.map shownS ∧
      ((steps.flatMap DStep.ops).foldl SBlock.apply b).al = ((steps.flatMap DStep.ops).foldl SBlock.apply d).al ∧
      ((steps.flatMap DStep.ops).foldl SBlock.apply b).votes = ((steps.flatMap DStep.ops).foldl SBlock.apply d).votes ∧
      ((steps.flatMap DStep.ops).foldl SBlock.apply b).fast = ((steps.flatMap DStep.ops).foldl SBlock.apply d).fast := by
  obtain ⟨b, d, h1, h2, h⟩ := Fresh.initSparse_like nLits nClauses nClasses cfg fastOf junk junk' seed hs hb
  have r := Fresh.ssteps_like steps b d h
  exact ⟨b, d, h1, h2, r.clauses, r.al.symm, r.votes.symm, r.fast.symm⟩

/-- C75, AVX2 dense block: what the whole allocation held before, rows, padding and counters, cannot be seen. -/
theorem C75_avx2 (nClauses nClasses : Nat) (cfg : VCfg) (hn : 0 < cfg.nLits) (fastOf : Nat → Rng) (vrngOf : Nat → VRng) (junk junk' : Nat → Mem)
    (junkCnt junkCnt' : Nat → Nat) (seed : Nat) (hs : seed ≠ 0) (steps : List Step) :
    ∃ b d, avxInit nClauses nClasses cfg fastOf vrngOf junk junkCnt seed = some b ∧
      avxInit nClauses nClasses cfg fastOf vrngOf junk' junkCnt' seed = some d ∧
      (steps.foldl vstep b).clauses.map (visible cfg.nLits) = (steps.foldl vstep d).clauses.map (visible cfg.nLits) ∧
      (steps.foldl vstep b).votes = (steps.foldl vstep d).votes ∧
      (steps.foldl vstep b).fast = (steps.foldl vstep d).fast ∧
      (steps.foldl vstep b).vrng = (steps.foldl vstep d).vrng := by
  unfold avxInit
  rw [if_neg hs, if_neg hs]
  obtain ⟨h1, h2, h3⟩ := Fresh.avxInitRows_like cfg.nLits junk junk' nClauses (fastOf seed)
  simp only [← h2]
  have key : ∀ b d : VBlock, b.cfg = cfg → d.cfg = cfg → d.nClasses = b.nClasses → d.fast = b.fast → d.vrng = b.vrng → d.votes = b.votes →
      b.clauses.map (visible cfg.nLits) = d.clauses.map (visible cfg.nLits) →
      (steps.foldl vstep b).clauses.map (visible cfg.nLits) = (steps.foldl vstep d).clauses.map (visible cfg.nLits) ∧
      (steps.foldl vstep b).votes = (steps.foldl vstep d).votes ∧
      (steps.foldl vstep b).fast = (steps.foldl vstep d).fast ∧
      (steps.foldl vstep b).vrng = (steps.foldl vstep d).vrng := by
    intro b d e1 e2 e3 e4 e5 e6 e7
    subst e1
    refine C07_padding_is_invisible b d hn e2 e3 e4 e5 e6 e7 steps steps rfl ?_
    intro i s s' h h'
    rw [h] at h'
    cases h'
    cases s with
    | train l fb => exact ⟨fun _ _ => rfl, rfl⟩
    | eval l => exact fun _ _ => rfl
  refine ⟨_, _, rfl, rfl, key _ _ rfl rfl rfl rfl rfl rfl ?_⟩
  have e := Fresh.avx_zip_like cfg.nLits junkCnt junkCnt' (avxInitRows cfg.nLits junk nClauses (fastOf seed)).1
    (avxInitRows cfg.nLits junk' nClauses (fastOf seed)).1
    (initAllWeights nClasses nClauses (avxInitRows cfg.nLits junk nClauses (fastOf seed)).2).1 0 h1 h3
  rw [Fresh.map_mapIdx, Fresh.map_mapIdx]
  exact e

/-- C75, NEON dense block: the same, and a crash in one run is a crash in the other. -/
theorem C75_neon (nClauses nClasses : Nat) (cfg : VCfg) (fastOf rngOf : Nat → Rng) (vrngOf : Nat → VRng) (junk junk' : Nat → Mem)
    (junkCnt junkCnt' : Nat → Nat) (seed : Nat) (hs : seed ≠ 0) (steps : List Step) :
    ∃ b d, neonInit nClauses nClasses cfg fastOf rngOf vrngOf junk junkCnt seed = some b ∧
      neonInit nClauses nClasses cfg fastOf rngOf vrngOf junk' junkCnt' seed = some d ∧
      ((neonSteps b steps = none ∧ neonSteps d steps = none) ∨
        ∃ b' d', neonSteps b steps = some b' ∧ neonSteps d steps = some d' ∧ b'.clauses.map shownV = d'.clauses.map shownV ∧
          b'.votes = d'.votes ∧ b'.fast = d'.fast ∧ b'.vrng = d'.vrng) := by
  obtain ⟨b, d, h1, h2, h⟩ := Fresh.neonInit_like nClauses nClasses cfg fastOf rngOf vrngOf junk junk' junkCnt junkCnt' seed hs
  refine ⟨b, d, h1, h2, ?_⟩
  have r := Fresh.nsteps_like steps b d h
  cases hb : neonSteps b steps with
  | none =>
    cases hd : neonSteps d steps with
    | none => exact Or.inl ⟨rfl, rfl⟩
    | some d' => rw [hb, hd] at r; exact r.elim
  | some b' =>
    cases hd : neonSteps d steps with
    | none => rw [hb, hd] at r; exact r.elim
    | some d' =>
      rw [hb, hd] at r
      exact Or.inr ⟨b', d', rfl, rfl, r.clauses, r.votes.symm, r.fast.symm, r.vrng.symm⟩

/-- C75, convolutional block, without a literal budget or with one patch per example. -/
theorem C75_conv_partial (nLits nClauses nClasses : Nat) (nPatches : Int) (cfg : Cfg) (fastOf rngOf : Nat → Rng)
    (j1 j2 j3 j1' j2' j3' : Nat → Nat) (seed : Nat) (hs : seed ≠ 0) (hp : nPatches > 0) (hb : cfg.budget = none ∨ nPatches = 1)
    (steps : List DStep) :
    ∃ b d, initConv nLits nClauses nClasses nPatches cfg fastOf rngOf j1 j2 j3 seed = some b ∧
      initConv nLits nClauses nClasses nPatches cfg fastOf rngOf j1' j2' j3' seed = some d ∧
      (b.run (steps.flatMap DStep.ops)).clauses.map (shown ·.base) = (d.run (steps.flatMap DStep.ops)).clauses.map (shown ·.base) ∧
      (b.run (steps.flatMap DStep.ops)).votes = (d.run (steps.flatMap DStep.ops)).votes ∧
      (b.run (steps.flatMap DStep.ops)).fast = (d.run (steps.flatMap DStep.ops)).fast ∧
      (b.run (steps.flatMap DStep.ops)).rng = (d.run (steps.flatMap DStep.ops)).rng := by
  obtain ⟨b, d, h1, h2, h, hc, hn⟩ := Fresh.initConv_like nLits nClauses nClasses nPatches cfg fastOf rngOf j1 j2 j3 j1' j2' j3' seed hs hp
  have r := Fresh.csteps_like steps b d (by
    rw [hc, hn]
    rcases hb with hb | hb
    · exact Or.inl hb
    · right; rw [hb]; rfl) h
  exact ⟨b, d, h1, h2, r.clauses, r.votes.symm, r.fast.symm, r.rng.symm⟩

/-- C75, convolutional block with any number of patches, when the literal budget `v` is so large that neither a clause nor the fresh memory can
exceed it (2 ^ 32 - 1 always is, the counters being 32-bit). -/
theorem C75_conv_large_budget_partial (nLits nClauses nClasses : Nat) (nPatches : Int) (cfg : Cfg) (fastOf rngOf : Nat → Rng)
    (j1 j2 j3 j1' j2' j3' : Nat → Nat) (seed : Nat) (hs : seed ≠ 0) (hp : nPatches > 0) (v : Nat) (hv : cfg.budget = some v) (hl : 2 * nLits ≤ v)
    (hj : ∀ i, j1 i ≤ v ∧ j3 i ≤ v) (hj' : ∀ i, j1' i ≤ v ∧ j3' i ≤ v) (steps : List DStep) :
    ∃ b d, initConv nLits nClauses nClasses nPatches cfg fastOf rngOf j1 j2 j3 seed = some b ∧
      initConv nLits nClauses nClasses nPatches cfg fastOf rngOf j1' j2' j3' seed = some d ∧
      (b.run (steps.flatMap DStep.ops)).clauses.map (shown ·.base) = (d.run (steps.flatMap DStep.ops)).clauses.map (shown ·.base) ∧
      (b.run (steps.flatMap DStep.ops)).votes = (d.run (steps.flatMap DStep.ops)).votes ∧
      (b.run (steps.flatMap DStep.ops)).fast = (d.run (steps.flatMap DStep.ops)).fast ∧
      (b.run (steps.flatMap DStep.ops)).rng = (d.run (steps.flatMap DStep.ops)).rng := by
  obtain ⟨b, d, h1, h2, h, hc, hn⟩ := Fresh.initConv_like nLits nClauses nClasses nPatches cfg fastOf rngOf j1 j2 j3 j1' j2' j3' seed hs hp
  have r := Fresh.lsteps_like v steps b d (by rw [hc]; exact hv) h (Fresh.initConv_low hl hj h1) (Fresh.initConv_low hl hj' h2)
  exact ⟨b, d, h1, h2, r.clauses, r.votes.symm, r.fast.symm, r.rng.symm⟩

/-- C75 is false of a convolutional block with several patches. Such a block always has a literal budget, 65535 if none is set
(src/main.cpp:118-120, src/aligned_tsetlin_state.hpp:40): even then, after one training step from `initialize`, the weights depend on what the fresh
counts-per-patch array held. -/
theorem C75_conv_depends_on_garbage :
    ∃ (cfg : Cfg) (fastOf rngOf : Nat → Rng) (j3 j3' : Nat → Nat) (x : List Nat) (fb : Feedback) (b d : ConvBlock),
      cfg.budget = some 65535 ∧ Binary x ∧ x.length = 2 * 1 ∧ (∀ i, j3 i < 2 ^ 32 ∧ j3' i < 2 ^ 32) ∧
      initConv 1 1 2 2 cfg fastOf rngOf (fun _ => 0) (fun _ => 0) j3 42 = some b ∧
      initConv 1 1 2 2 cfg fastOf rngOf (fun _ => 0) (fun _ => 0) j3' 42 = some d ∧
      ((b.trainStep x fb).clauses.map (·.base.w)) = [[-2, 1]] ∧
      ((d.trainStep x fb).clauses.map (·.base.w)) = [[-1, 1]] := by
  refine ⟨{ exConvCfg with budget := some 65535 }, fun _ => exRng, fun _ => exRng, fun _ => 0, fun _ => 0xA5A5A5A5, [1, 0], ⟨1, 0, 0, 2⟩, _, _,
    rfl, by decide, rfl, fun _ => by
      show (0 : Nat) < 2 ^ 32 ∧ (0xA5A5A5A5 : Nat) < 2 ^ 32
      decide, rfl, rfl, ?_, ?_⟩
  · decide +kernel
  · decide +kernel

/-! ### The fresh memory does differ, and the steps do something -/

/-- A portable block whose fresh counters held `j`, after a training step and an evaluation. -/
def exFresh (j : Nat) : Option DBlock :=
  (initTM 3 2 2 { exCfg with budget := some 1 } (fun _ => exRng) (fun _ => exRng) (fun _ => j) 42).map fun b =>
    b.run ([DStep.train [1, 0, 1] ⟨1, 1, 0, 2⟩, DStep.eval [0, 1, 1]].flatMap DStep.ops)

example : (initTM 3 2 2 { exCfg with budget := some 1 } (fun _ => exRng) (fun _ => exRng) (fun _ => 7) 42).map
    (·.clauses.map fun c => (c.pos, c.neg, c.cnt)) = some [([-1, 0, -1], [0, -1, 0], 7), ([-1, 0, -1], [0, -1, 0], 7)] ∧
    (exFresh 7).map (·.clauses.map fun c => (c.pos, c.neg)) = some [([-3, -2, -3], [0, -1, 0]), ([-3, -2, -3], [0, -1, 0])] := by
  decide +kernel

/-- A NEON block whose fresh memory held the byte `j`. -/
def exFreshNeon (j : Nat) : Option NBlock :=
  neonInit 2 2 exVCfg (fun _ => exRng) (fun _ => exRng) (fun _ => ⟨fun _ _ => 0#8, 0⟩) (fun _ _ => BitVec.ofNat 8 j) (fun _ => j) 42

example : (exFreshNeon 7).map (·.clauses.map fun c => ((List.range 4).map c.row, (c.row 17).toNat, c.w, c.cnt)) =
    some [([0xFF#8, 0xFF#8, 0xFF#8, BitVec.ofInt 8 (-109)], 0, [-1 + 2, -1], 7), ([0xFF#8, 0xFF#8, 0xFF#8, BitVec.ofInt 8 (-109)], 0, [1, -1], 7)] := by
  decide +kernel

example : ((exFreshNeon 7).bind fun b => neonSteps b [.train (fun _ => 0#8) ⟨1, 1, 0, 2⟩, .eval (fun _ => 1#8)]).isSome = true := by
  rfl

end GT

import Verif.Lemmas.RecodeNeon

/-! # C100: the coding of the features does not matter, NEON backend -/

namespace GT
open Spec RecodeN

/-- C100 (NEON, order). Put the features in another order. There are vector generators with the same bytes in another order, such that
whatever the history of training and prediction calls, the machine over the reordered features with these generators gives the same
predictions on the reordered examples as the machine on the examples, and holds the reordered clauses with the same weights and outputs, the
same votes and the same feedback; or both have crashed (without a literal budget, C42). -/
theorem C100_neon_order {n : Nat} (h0 : 0 < n) (r : Recoding) (hr : r.Of n) (hf : ∀ i, r.flip i = false) (e : Exec (Option NBlock))
    (bs : List NBlock) (he : e.blocks = bs.map some) (hb : ∀ b ∈ bs, b.cfg.nLits = n) :
    ∃ gs : List VRng, List.Forall₂ (fun (b : NBlock) g => ReshuffledBytes 16 b.vrng g) bs gs ∧
      ∀ (smp : List Rat → Rat → Nat) (d : Exec (Option NBlock)) (ds : List NBlock) (calls calls' : List (Mem × Option Nat)),
        d.fb = e.fb → d.blocks = ds.map some →
        List.Forall₂ (fun (bg : NBlock × VRng) d => r.NeonBlock n bg.1 bg.2 d) (bs.zip gs) ds →
        List.Forall₂ (r.AvxCall n) calls calls' → (∀ c ∈ calls, Binary (unpadExample n c.1)) →
        (runCalls neonBackend smp calls' d).2 = (runCalls neonBackend smp calls e).2 ∧
        (runCalls neonBackend smp calls' d).1.fb = (runCalls neonBackend smp calls e).1.fb ∧
        List.Forall₂ (SameRecodedNeon r n) (runCalls neonBackend smp calls e).1.blocks (runCalls neonBackend smp calls' d).1.blocks :=
  recoded h0 r hr e bs he hb fun _ _ _ => hf

/-- C100 (NEON, order and polarity). The same for every recoding, also one that writes some features as their opposites, for machines
without boosting of true positives. What is missing: with boosting it is false, `C100_neon_boost_breaks_complement`. -/
theorem C100_neon_complement_partial {n : Nat} (h0 : 0 < n) (r : Recoding) (hr : r.Of n) (e : Exec (Option NBlock)) (bs : List NBlock)
    (he : e.blocks = bs.map some) (hb : ∀ b ∈ bs, b.cfg.nLits = n ∧ b.cfg.boost = false) :
    ∃ gs : List VRng, List.Forall₂ (fun (b : NBlock) g => ReshuffledBytes 16 b.vrng g) bs gs ∧
      ∀ (smp : List Rat → Rat → Nat) (d : Exec (Option NBlock)) (ds : List NBlock) (calls calls' : List (Mem × Option Nat)),
        d.fb = e.fb → d.blocks = ds.map some →
        List.Forall₂ (fun (bg : NBlock × VRng) d => r.NeonBlock n bg.1 bg.2 d) (bs.zip gs) ds →
        List.Forall₂ (r.AvxCall n) calls calls' → (∀ c ∈ calls, Binary (unpadExample n c.1)) →
        (runCalls neonBackend smp calls' d).2 = (runCalls neonBackend smp calls e).2 ∧
        (runCalls neonBackend smp calls' d).1.fb = (runCalls neonBackend smp calls e).1.fb ∧
        List.Forall₂ (SameRecodedNeon r n) (runCalls neonBackend smp calls e).1.blocks (runCalls neonBackend smp calls' d).1.blocks :=
  recoded h0 r hr e bs he (fun b h => (hb b h).1) fun b h hb' => absurd ((hb b h).2.symm.trans hb') (by decide)

/-- C100 (NEON, start). The recoded machine is as likely a start as the first one: allocating a block with the generator's numbers in another
order gives the first block recoded, whatever the vector generator. -/
theorem C100_neon_start {n : Nat} (h0 : 0 < n) (r : Recoding) (hr : r.Of n) (nClauses nClasses : Nat) (cfg : VCfg) (hn : cfg.nLits = n)
    (fastOf rngOf : Nat → Rng) (vrngOf : Nat → VRng) (junk : Nat → Mem) (junkCnt : Nat → Nat) (seed : Nat) (b : NBlock)
    (h : neonInit nClauses nClasses cfg fastOf rngOf vrngOf junk junkCnt seed = some b) :
    ∃ rng, Reshuffled (rngOf seed) rng ∧ ∀ g, ∃ d,
      neonInit nClauses nClasses cfg fastOf (fun _ => rng) (fun _ => g) junk junkCnt seed = some d ∧ r.NeonBlock n b g d :=
  start h0 hr nClauses nClasses cfg hn fastOf rngOf vrngOf junk junkCnt seed b h

/-- A block with boosting over one feature, whose clause includes the feature, or in the other coding its negation. -/
def boostNeon (opposite : Bool) (g : VRng) : NBlock :=
  ⟨2, { nLits := 1, budget := some 4, boost := true, cmpS := 100#8 },
    [⟨fun a => if a = (if opposite then 16 else 0) then 0#8 else 0xFF#8, [1, -1], 0, 0⟩], [0, 0], ⟨fun _ => 1 / 4, 0⟩, g⟩

def boostNeonMachine (opposite : Bool) (g : VRng) : Exec (Option NBlock) :=
  ⟨FB.new 2 10 ⟨fun _ => 1 / 2, 0⟩, [some (boostNeon opposite g)], []⟩

/-- The feature written as its opposite. -/
def recodeOppositeNeon : Recoding := ⟨[0], fun _ => true⟩

/-- The code does not have the property with boosting: one training call on the example `[1]` raises the state of the included feature
whatever the byte drawn, but when the feature is written as its opposite, the state of its negation does not rise if the byte is small. So no
reordering of the bytes makes the two machines the same (`src/func_neon.hpp:563-622` boosts positive literals only). -/
theorem C100_neon_boost_breaks_complement :
    recodeOppositeNeon.Of 1 ∧
    (∀ g, recodeOppositeNeon.NeonBlock 1 (boostNeon false ⟨fun _ _ => 0#8, 0⟩) g (boostNeon true g)) ∧
    ¬ ∃ g, ReshuffledBytes 16 ⟨fun _ _ => 0#8, 0⟩ g ∧
      List.Forall₂ (SameRecodedNeon recodeOppositeNeon 1)
        (runCalls neonBackend (fun _ _ => 1) [(fun a => if a = 0 then 1#8 else 0#8, some 0)] (boostNeonMachine false ⟨fun _ _ => 0#8, 0⟩)).1.blocks
        (runCalls neonBackend (fun _ _ => 1) [(fun _ => 0#8, some 0)] (boostNeonMachine true g)).1.blocks := by
  have hid : (⟨[0], fun _ => false⟩ : Recoding).Of 1 := .refl _
  refine ⟨.refl _, fun g => ⟨rfl, rfl, rfl, rfl, rfl, ?_⟩, ?_⟩
  · have h : (boostNeon true ⟨fun _ _ => 0#8, 0⟩).clauses.map (fun c => face (neonUnpad 1 c)) =
        (boostNeon false ⟨fun _ _ => 0#8, 0⟩).clauses.map fun c => face (recodeOppositeNeon.clause (neonUnpad 1 c)) := by decide +kernel
    exact h
  · rintro ⟨g, hg, hs⟩
    have hbv : List.Forall₂ (OV ⟨[0], fun _ => false⟩ 1) (boostNeonMachine true ⟨fun _ _ => 0#8, 0⟩).blocks (boostNeonMachine true g).blocks := by
      refine .cons (BV.mk rfl (fun _ _ => rfl) rfl rfl rfl rfl (constant_genR 0#8 (fun _ _ => rfl) hg) (.cons ?_ .nil)) .nil
      rw [cv_iff hid]
      decide +kernel
    have hc : (⟨[0], fun _ => false⟩ : Recoding).AvxCall 1 ((fun _ => 0#8), some 0) ((fun _ => 0#8), some 0) := ⟨by decide, rfl⟩
    obtain ⟨-, -, h3⟩ := run_bv hid (by decide) (fun _ _ => 1) (.cons hc .nil) (by decide) (boostNeonMachine true ⟨fun _ _ => 0#8, 0⟩)
      (boostNeonMachine true g) rfl hbv
    have h3 := h3.imp fun _ _ h => same_of hid h
    have key : ∀ (r : Recoding) (as bs : List (Option NBlock)), List.Forall₂ (SameRecodedNeon r 1) as bs →
        bs.map (Option.map fun b => b.clauses.map fun c => face (neonUnpad 1 c)) =
          as.map (Option.map fun b => b.clauses.map fun c => face (r.clause (neonUnpad 1 c))) := by
      intro r as bs h
      induction h with
      | nil => rfl
      | cons h _ ih =>
        rename_i a b _ _ _
        rw [List.map_cons, List.map_cons, ih]
        congr 1
        cases a <;> cases b
        · rfl
        · exact h.elim
        · exact h.elim
        · exact congrArg some h.1
    have h4 := congrArg (List.map fun o => Option.getD o []) ((key _ _ _ hs).symm.trans (key _ _ _ h3))
    revert h4
    decide +kernel

/-- A block over two features with a clause that fires on `[1, 0]`. -/
def recodeNeonBlock : NBlock :=
  ⟨2, { nLits := 2, budget := some 4, boost := false, cmpS := 0 },
    [⟨fun a => if a = 0 then 1#8 else if a = 1 then 0xFD#8 else if a = 16 then 0xFE#8 else if a = 17 then 0#8 else 0x80#8, [1, -1], 0, 0⟩],
    [0, 0], ⟨fun _ => 1 / 4, 0⟩, ⟨fun q l => if (q + l) % 2 = 0 then 0x70#8 else 0x90#8, 0⟩⟩

/-- The same over the features in another order, the second one written as its opposite. -/
def recodedNeonBlock (g : VRng) : NBlock :=
  ⟨2, { nLits := 2, budget := some 4, boost := false, cmpS := 0 },
    [⟨fun a => if a = 0 then 0#8 else if a = 1 then 1#8 else if a = 16 then 0xFD#8 else if a = 17 then 0xFE#8 else 0x81#8, [1, -1], 0, 7⟩],
    [0, 0], ⟨fun _ => 1 / 4, 0⟩, g⟩

def recodeSwapNeon : Recoding := ⟨[1, 0], fun i => i == 1⟩

/-- The hypotheses are met for whatever generator. -/
example (g : VRng) : recodeSwapNeon.Of 2 ∧ recodeSwapNeon.NeonBlock 2 recodeNeonBlock g (recodedNeonBlock g) ∧
    recodeSwapNeon.AvxCall 2 (fun a => if a = 0 then 1#8 else 0#8, some 0) (fun a => if a < 2 then 1#8 else 0#8, some 0) ∧
    Binary (unpadExample 2 (fun a => if a = 0 then 1#8 else 0#8)) := by
  have hc : (recodedNeonBlock ⟨fun _ _ => 0, 0⟩).clauses.map (fun c => face (neonUnpad 2 c)) =
      recodeNeonBlock.clauses.map fun c => face (recodeSwapNeon.clause (neonUnpad 2 c)) := by decide +kernel
  exact ⟨List.Perm.swap _ _ _, ⟨rfl, rfl, rfl, rfl, rfl, hc⟩, ⟨by decide, rfl⟩, by decide⟩

/-- Training changes the states. -/
example : ((runCalls neonBackend (fun _ _ => 1) [(fun a => if a = 0 then 1#8 else 0#8, some 0)]
      ⟨FB.new 2 10 ⟨fun _ => 1 / 2, 0⟩, [some recodeNeonBlock], []⟩).1.blocks.map
        fun o => (o.map fun b => b.clauses.map fun c => face (neonUnpad 2 c)).getD []) ≠
    [(recodeNeonBlock.clauses.map fun c => face (neonUnpad 2 c))] := by
  decide +kernel

example : (neonInit 1 2 { nLits := 2, budget := some 3, boost := true, cmpS := 0 } (fun _ => ⟨fun _ => 1 / 4, 0⟩) (fun _ => ⟨fun _ => 1 / 4, 0⟩)
    (fun _ => ⟨fun _ _ => 0, 0⟩) (fun _ _ => 0) (fun _ => 3) 42).isSome = true := by
  decide +kernel

end GT

import Verif.Lemmas.RecodeAvx

/-! # C100: the coding of the features does not matter, AVX2 backend -/

namespace GT
open Spec RecodeV

/-- C100 (AVX2). Put the features in another order and write any of them as their opposites. There are vector generators with the same
bytes in another order, such that whatever the history of training and prediction calls, the recoded machine with these generators gives
the same predictions on the recoded examples as the machine on the examples, and holds the recoded clauses with the same weights and
outputs, the same votes and the same feedback. Here also with boosting of true positives, and whatever the padding bytes. -/
theorem C100_avx2 {n : Nat} (h0 : 0 < n) (r : Recoding) (hr : r.Of n) (e : Exec VBlock) (hb : ∀ b ∈ e.blocks, b.cfg.nLits = n) :
    ∃ gs : List VRng, List.Forall₂ (fun (b : VBlock) g => ReshuffledBytes 32 b.vrng g) e.blocks gs ∧
      ∀ (smp : List Rat → Rat → Nat) (d : Exec VBlock) (calls calls' : List (Mem × Option Nat)), d.fb = e.fb →
        List.Forall₂ (fun (bg : VBlock × VRng) d => r.AvxBlock n bg.1 bg.2 d) (e.blocks.zip gs) d.blocks →
        List.Forall₂ (r.AvxCall n) calls calls' → (∀ c ∈ calls, Binary (unpadExample n c.1)) →
        (runCalls avxBackend smp calls' d).2 = (runCalls avxBackend smp calls e).2 ∧
        (runCalls avxBackend smp calls' d).1.fb = (runCalls avxBackend smp calls e).1.fb ∧
        List.Forall₂ (SameRecodedAvx r n) (runCalls avxBackend smp calls e).1.blocks (runCalls avxBackend smp calls' d).1.blocks := by
  refine ⟨e.blocks.map fun b => regen r n b.vrng, ?_, ?_⟩
  · rw [List.forall₂_map_right_iff]
    exact List.forall₂_same.2 fun b _ => regen_perm hr h0 b.vrng
  · intro smp d calls calls' hf hd hc hx
    have hbv : List.Forall₂ (BV r n) e.blocks d.blocks := by
      generalize e.blocks = bs at hb hd
      generalize d.blocks = ds at hd
      induction bs generalizing ds with
      | nil => cases hd; exact .nil
      | cons b bs ih =>
        simp only [List.map_cons, List.zip_cons_cons] at hd
        cases hd with
        | cons h hd => exact .cons (bv_of hr (hb b (List.mem_cons_self ..)) h) (ih (fun b h => hb b (List.mem_cons_of_mem _ h)) _ hd)
    obtain ⟨h1, h2, h3⟩ := run_bv hr h0 smp hc hx e d hf hbv
    exact ⟨h1, h2, h3.imp fun _ _ h => same_of hr h⟩

/-- C100 (AVX2, start). The recoded machine is as likely a start as the first one: allocating a block with the generator's numbers in another
order gives the first block recoded, and leaves the generator with the numbers it would have left. -/
theorem C100_avx2_start {n : Nat} (h0 : 0 < n) (r : Recoding) (hr : r.Of n) (nClauses nClasses : Nat) (cfg : VCfg) (hn : cfg.nLits = n)
    (fastOf : Nat → Rng) (vrngOf : Nat → VRng) (junk : Nat → Mem) (junkCnt : Nat → Nat) (seed : Nat) (b : VBlock)
    (h : avxInit nClauses nClasses cfg fastOf vrngOf junk junkCnt seed = some b) :
    ∃ fast, Reshuffled (fastOf seed) fast ∧ ∀ g, ∃ d,
      avxInit nClauses nClasses cfg (fun _ => fast) (fun _ => g) junk junkCnt seed = some d ∧
      r.AvxBlock n b g { d with fast := b.fast } ∧ ∀ k, numbers d.fast k = numbers b.fast k :=
  start h0 hr nClauses nClasses cfg hn fastOf vrngOf junk junkCnt seed b h

/-- A machine of one block over two features, with boosting and a clause that fires on `[1, 0]`. -/
def recodeAvxMachine : Exec VBlock :=
  ⟨FB.new 2 10 ⟨fun _ => 1 / 2, 0⟩,
    [⟨2, { nLits := 2, budget := some 4, boost := true, cmpS := 0 },
      [⟨fun a => if a = 0 then 1#8 else if a = 1 then 0xFD#8 else if a = 32 then 0xFE#8 else if a = 33 then 0#8 else 0x80#8, [1, -1], 0, 0⟩],
      [0, 0], ⟨fun _ => 1 / 4, 0⟩, ⟨fun q l => if (q + l) % 2 = 0 then 0x70#8 else 0x90#8, 0⟩⟩], []⟩

/-- The same over the features in another order, the second one written as its opposite. -/
def recodedAvxMachine (g : VRng) : Exec VBlock :=
  ⟨FB.new 2 10 ⟨fun _ => 1 / 2, 0⟩,
    [⟨2, { nLits := 2, budget := some 4, boost := true, cmpS := 0 },
      [⟨fun a => if a = 0 then 0#8 else if a = 1 then 1#8 else if a = 32 then 0xFD#8 else if a = 33 then 0xFE#8 else 0x81#8, [1, -1], 0, 7⟩],
      [0, 0], ⟨fun _ => 1 / 4, 0⟩, g⟩], []⟩

def recodeSwapAvx : Recoding := ⟨[1, 0], fun i => i == 1⟩

/-- The hypotheses are met for whatever generator, and training changes the states. -/
example (g : VRng) : recodeSwapAvx.Of 2 ∧ (∀ b ∈ recodeAvxMachine.blocks, b.cfg.nLits = 2) ∧
    (recodedAvxMachine g).fb = recodeAvxMachine.fb ∧
    List.Forall₂ (fun (bg : VBlock × VRng) d => recodeSwapAvx.AvxBlock 2 bg.1 bg.2 d) (recodeAvxMachine.blocks.zip [g]) (recodedAvxMachine g).blocks ∧
    recodeSwapAvx.AvxCall 2 (fun a => if a = 0 then 1#8 else 0#8, some 0) (fun a => if a < 2 then 1#8 else 0#8, some 0) ∧
    Binary (unpadExample 2 (fun a => if a = 0 then 1#8 else 0#8)) := by
  have hc : (recodedAvxMachine ⟨fun _ _ => 0, 0⟩).blocks.map (fun b => b.clauses.map (visible 2)) =
      recodeAvxMachine.blocks.map fun b => b.clauses.map fun c => recodeSwapAvx.clause (visible 2 c) := by decide +kernel
  refine ⟨List.Perm.swap _ _ _, by simp [recodeAvxMachine], rfl, .cons ⟨rfl, rfl, rfl, rfl, rfl, ?_⟩ .nil, ⟨by decide, rfl⟩, by decide⟩
  simp only [recodedAvxMachine, recodeAvxMachine, List.map_cons, List.map_nil, List.cons.injEq, and_true] at hc ⊢
  exact hc

example : ((runCalls avxBackend (fun _ _ => 1) [(fun a => if a = 0 then 1#8 else 0#8, some 0)] recodeAvxMachine).1.blocks.map fun b =>
      b.clauses.map (visible 2)) ≠ recodeAvxMachine.blocks.map fun b => b.clauses.map (visible 2) := by
  decide +kernel

/-- With the very same bytes the recoded machine learns something else, so they do have to be reordered. -/
example : ((runCalls avxBackend (fun _ _ => 1) [(fun a => if a < 2 then 1#8 else 0#8, some 0)]
      (recodedAvxMachine ⟨fun q l => if (q + l) % 2 = 0 then 0x70#8 else 0x90#8, 0⟩)).1.blocks.map fun b => b.clauses.map (visible 2)) ≠
    (runCalls avxBackend (fun _ _ => 1) [(fun a => if a = 0 then 1#8 else 0#8, some 0)] recodeAvxMachine).1.blocks.map fun b =>
      b.clauses.map fun c => recodeSwapAvx.clause (visible 2 c) := by
  decide +kernel

example : (avxInit 1 2 { nLits := 2, budget := none, boost := true, cmpS := 0 } (fun _ => ⟨fun _ => 1 / 4, 0⟩) (fun _ => ⟨fun _ _ => 0, 0⟩)
    (fun _ _ => 0) (fun _ => 3) 42).isSome = true := by
  decide +kernel

end GT

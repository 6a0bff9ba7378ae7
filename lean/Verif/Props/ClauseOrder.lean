import Verif.Lemmas.ClauseOrder
import Verif.Lemmas.LargeBudget
import Verif.Props.ConvExec
import Verif.Model.SparseExec

/-! # C104: the numbering of the clauses does not matter for training -/

namespace GT
open Spec ClauseOrder

/-- C104 (portable). List the clauses of every block in another order. There are generators with the same numbers in another order, such
that whatever the history of training and prediction calls, after every number of calls, the machine in the other order with these generators
has given the same predictions, and holds the same clauses in the other order, with the same votes and the same feedback. -/
theorem C104_portable (smp : List Rat → Rat → Nat) (calls : List (List Nat × Option Nat)) (e : Exec DBlock) (orders : List (List Nat))
    (h : List.Forall₂ (fun o b => OrderOf b.clauses.length o) orders e.blocks) :
    ∃ gs : List (Rng × Rng), List.Forall₂ (fun b g => Reshuffled b.fast g.1 ∧ Reshuffled b.rng g.2) e.blocks gs ∧ ∀ k,
      let d := reorderedExec reorderedDense e orders gs
      (runCalls denseBackend smp (calls.take k) d).2 = (runCalls denseBackend smp (calls.take k) e).2 ∧
      (runCalls denseBackend smp (calls.take k) d).1.fb = (runCalls denseBackend smp (calls.take k) e).1.fb ∧
      List.Forall₂ (fun ob d => d.clauses = reorder ob.1 ob.2.clauses ∧ d.votes = ob.2.votes)
        (orders.zip (runCalls denseBackend smp (calls.take k) e).1.blocks) (runCalls denseBackend smp (calls.take k) d).1.blocks :=
  dense_any smp calls e orders h

/-- C104 (AVX2). The same, with generators that have the same vectors in another order. -/
theorem C104_avx2 (smp : List Rat → Rat → Nat) (calls : List (Mem × Option Nat)) (e : Exec VBlock) (orders : List (List Nat))
    (h : List.Forall₂ (fun o b => OrderOf b.clauses.length o) orders e.blocks) :
    ∃ gs : List (Rng × VRng), List.Forall₂ (fun b g => Reshuffled b.fast g.1 ∧ ReshuffledVectors b.vrng g.2) e.blocks gs ∧ ∀ k,
      let d := reorderedExec reorderedAvx e orders gs
      (runCalls avxBackend smp (calls.take k) d).2 = (runCalls avxBackend smp (calls.take k) e).2 ∧
      (runCalls avxBackend smp (calls.take k) d).1.fb = (runCalls avxBackend smp (calls.take k) e).1.fb ∧
      List.Forall₂ (fun ob d => d.clauses = reorder ob.1 ob.2.clauses ∧ d.votes = ob.2.votes)
        (orders.zip (runCalls avxBackend smp (calls.take k) e).1.blocks) (runCalls avxBackend smp (calls.take k) d).1.blocks :=
  avx_any smp calls e orders h

/-- C104 (convolutional), for blocks built without a literal budget (the template's other value; the blocks of the module all have one, see
`C104_conv_large_budget_partial`). With a budget it is false: `C104_conv_budget_order_matters`. -/
theorem C104_conv_partial (smp : List Rat → Rat → Nat) (calls : List (List Nat × Option Nat)) (e : Exec ConvBlock) (orders : List (List Nat))
    (h : List.Forall₂ (fun o b => OrderOf b.clauses.length o) orders e.blocks) (hb : ∀ b ∈ e.blocks, b.cfg.budget = none) :
    ∃ gs : List (Rng × Rng), List.Forall₂ (fun b g => Reshuffled b.fast g.1 ∧ Reshuffled b.rng g.2) e.blocks gs ∧ ∀ k,
      let d := reorderedExec reorderedConv e orders gs
      (runCalls convBackend smp (calls.take k) d).2 = (runCalls convBackend smp (calls.take k) e).2 ∧
      (runCalls convBackend smp (calls.take k) d).1.fb = (runCalls convBackend smp (calls.take k) e).1.fb ∧
      List.Forall₂ (fun ob d => d.clauses = reorder ob.1 ob.2.clauses ∧ d.votes = ob.2.votes)
        (orders.zip (runCalls convBackend smp (calls.take k) e).1.blocks) (runCalls convBackend smp (calls.take k) d).1.blocks :=
  conv_any smp calls e orders h hb

/-- C104 (AVX2, convolutional), without a literal budget. -/
theorem C104_avx2_conv_partial (smp : List Rat → Rat → Nat) (calls : List (Mem × Option Nat)) (e : Exec VConvBlock) (orders : List (List Nat))
    (h : List.Forall₂ (fun o b => OrderOf b.clauses.length o) orders e.blocks) (hb : ∀ b ∈ e.blocks, b.cfg.budget = none) :
    ∃ gs : List ((Rng × Rng) × VRng),
      List.Forall₂ (fun b g => Reshuffled b.fast g.1.1 ∧ Reshuffled b.rng g.1.2 ∧ ReshuffledVectors b.vrng g.2) e.blocks gs ∧ ∀ k,
      let d := reorderedExec reorderedAvxConv e orders gs
      (runCalls avxConvBackend smp (calls.take k) d).2 = (runCalls avxConvBackend smp (calls.take k) e).2 ∧
      (runCalls avxConvBackend smp (calls.take k) d).1.fb = (runCalls avxConvBackend smp (calls.take k) e).1.fb ∧
      List.Forall₂ (fun ob d => d.clauses = reorder ob.1 ob.2.clauses ∧ d.votes = ob.2.votes)
        (orders.zip (runCalls avxConvBackend smp (calls.take k) e).1.blocks) (runCalls avxConvBackend smp (calls.take k) d).1.blocks :=
  vconv_any smp calls e orders h hb

/-- C104 (convolutional), with a literal budget that nothing exceeds, such as the 65535 that a block has if none is set: the clauses have the
same states, weights and outputs in the other order. -/
theorem C104_conv_large_budget_partial (smp : List Rat → Rat → Nat) (calls : List (List Nat × Option Nat)) (e : Exec ConvBlock)
    (orders : List (List Nat)) (h : List.Forall₂ (fun o b => OrderOf b.clauses.length o) orders e.blocks) (hb : ∀ b ∈ e.blocks, AmpleBudget b) :
    ∃ gs : List (Rng × Rng), List.Forall₂ (fun b g => Reshuffled b.fast g.1 ∧ Reshuffled b.rng g.2) e.blocks gs ∧ ∀ k,
      let d := reorderedExec reorderedConv e orders gs
      (runCalls convBackend smp (calls.take k) d).2 = (runCalls convBackend smp (calls.take k) e).2 ∧
      (runCalls convBackend smp (calls.take k) d).1.fb = (runCalls convBackend smp (calls.take k) e).1.fb ∧
      List.Forall₂ (fun ob d => d.clauses.map (face ·.base) = reorder ob.1 (ob.2.clauses.map (face ·.base)) ∧ d.votes = ob.2.votes)
        (orders.zip (runCalls convBackend smp (calls.take k) e).1.blocks) (runCalls convBackend smp (calls.take k) d).1.blocks :=
  LargeBudget.conv_ample smp calls e orders h hb

/-- C104 (AVX2, convolutional), with a literal budget that nothing exceeds. -/
theorem C104_avx2_conv_large_budget_partial (smp : List Rat → Rat → Nat) (calls : List (Mem × Option Nat)) (e : Exec VConvBlock)
    (orders : List (List Nat)) (h : List.Forall₂ (fun o b => OrderOf b.clauses.length o) orders e.blocks) (hb : ∀ b ∈ e.blocks, AmpleAvxBudget b) :
    ∃ gs : List ((Rng × Rng) × VRng),
      List.Forall₂ (fun b g => Reshuffled b.fast g.1.1 ∧ Reshuffled b.rng g.1.2 ∧ ReshuffledVectors b.vrng g.2) e.blocks gs ∧ ∀ k,
      let d := reorderedExec reorderedAvxConv e orders gs
      (runCalls avxConvBackend smp (calls.take k) d).2 = (runCalls avxConvBackend smp (calls.take k) e).2 ∧
      (runCalls avxConvBackend smp (calls.take k) d).1.fb = (runCalls avxConvBackend smp (calls.take k) e).1.fb ∧
      List.Forall₂ (fun ob d => d.clauses.map (avxFace ·.base) = reorder ob.1 (ob.2.clauses.map (avxFace ·.base)) ∧ d.votes = ob.2.votes)
        (orders.zip (runCalls avxConvBackend smp (calls.take k) e).1.blocks) (runCalls avxConvBackend smp (calls.take k) d).1.blocks :=
  LargeBudget.vconv_ample smp calls e orders h hb

/-! ## Where the numbering matters -/

/-- A sparse block of two fresh clauses with different weights, whose generator always gives 1/4. -/
def orderSparse : SBlock :=
  ⟨6, 2, ⟨none, false, false, 1 / 3, 2 / 3, 4, 4, -10⟩, [⟨[], [], [1, 1], 0, 0⟩, ⟨[], [], [-1, 1], 0, 0⟩], [([], 0), ([], 0)], [0, 0],
    ⟨fun _ => 1 / 4, 0⟩⟩

/-- C104 is false for sparse blocks: the clauses of a block share the lists of active literals, so what a clause may learn depends on the
clauses before it. With the clauses of this block in the other order, no reshuffling of the random numbers gives the same clauses after
training on one example. -/
theorem C104_sparse_order_matters : OrderOf orderSparse.clauses.length [1, 0] ∧ ∀ g, Reshuffled orderSparse.fast g →
    (({ orderSparse with clauses := reorder [1, 0] orderSparse.clauses, fast := g } : SBlock).trainStep [5] ⟨0, 1 / 2, 1, 3 / 5⟩).clauses.map
        (fun c => (c.pos, c.neg, c.w)) ≠
      reorder [1, 0] ((orderSparse.trainStep [5] ⟨0, 1 / 2, 1, 3 / 5⟩).clauses.map fun c => (c.pos, c.neg, c.w)) := by
  refine ⟨List.Perm.swap 0 1 [], fun g hg => ?_⟩
  have hd := const_reshuffled hg
  have e : (orderSparse.trainStep [5] ⟨0, 1 / 2, 1, 3 / 5⟩).clauses.map (fun c => (c.pos, c.neg, c.w)) =
      [([], [], [2, 0]), ([], [(5, -4)], [0, 0])] := by decide +kernel
  rw [e]
  obtain ⟨d, p⟩ := g
  have h0 : d p = 1 / 4 := hd 0
  have h1 : d (p + 1) = 1 / 4 := hd 1
  have h2 : d (p + 2) = 1 / 4 := hd 2
  have h3 : d (p + 3) = 1 / 4 := hd 3
  have q1 : (1 / 4 : Rat) < 1 / 2 := by decide +kernel
  have q2 : (1 / 4 : Rat) < 3 / 5 := by decide +kernel
  simp [-one_div, orderSparse, reorder, SBlock.trainStep, SBlock.apply, sSetClause, sTrainClauses, sTrainClause, sBudgetGate, Rng.next, h0, h1, h2, h3,
    q1, q2, sUpdateWith, sClauseUpdate, sT1a, sT2, t1aLits, updFirst, updateAL, updAll, t2Active, prune, sortHalf, bubbleLoop]

/-- A convolutional block with a literal budget of 1, on two patches of three literals, whose generators always give 1/4. -/
def orderConv : ConvBlock :=
  ⟨3, 2, 2, ⟨some 1, false, 1 / 3, 2 / 3⟩, [⟨⟨[-9, 5, 5], [-9, -9, -9], [1, 1], 0, 0⟩, 0⟩, ⟨⟨[5, -9, -9], [-9, -9, -9], [1, 1], 0, 0⟩, 0⟩],
    fun _ => 0, [0, 0], ⟨fun _ => 1 / 4, 0⟩, ⟨fun _ => 1 / 4, 0⟩⟩

/-- C104 is false for convolutional blocks with a literal budget: the counts of literals are kept per patch for all the clauses together and
read at the wrong place, so a clause may be judged by the number of literals of the clause before it. With the clauses of this block in the
other order, no reshuffling of the random numbers gives the same weights after training on one example. -/
theorem C104_conv_budget_order_matters : OrderOf orderConv.clauses.length [1, 0] ∧
    ∀ g : Rng × Rng, Reshuffled orderConv.fast g.1 → Reshuffled orderConv.rng g.2 →
    ((reorderedConv [1, 0] orderConv g).trainStep [0, 1, 1, 1, 1, 1] ⟨0, 1 / 2, 1, 3 / 5⟩).clauses.map (fun c => c.base.w) ≠
      reorder [1, 0] ((orderConv.trainStep [0, 1, 1, 1, 1, 1] ⟨0, 1 / 2, 1, 3 / 5⟩).clauses.map fun c => c.base.w) := by
  refine ⟨List.Perm.swap 0 1 [], fun g hf hg => ?_⟩
  have h1 := const_view hf
  have h2 := const_view hg
  have := conv_step_ext { orderConv with clauses := reorder [1, 0] orderConv.clauses } [0, 1, 1, 1, 1, 1] ⟨0, 1 / 2, 1, 3 / 5⟩ g.1 g.2
    ⟨fun _ => 1 / 4, 0⟩ ⟨fun _ => 1 / 4, 0⟩ h1 h2
  have e : (reorderedConv [1, 0] orderConv g).trainStep [0, 1, 1, 1, 1, 1] ⟨0, 1 / 2, 1, 3 / 5⟩ =
      ({ orderConv with clauses := reorder [1, 0] orderConv.clauses, fast := g.1, rng := g.2 } : ConvBlock).trainStep [0, 1, 1, 1, 1, 1]
        ⟨0, 1 / 2, 1, 3 / 5⟩ := rfl
  rw [e, this]
  decide +kernel

/-- C104 is false on NEON already for predictions: what an empty clause does depends on the clauses before it. -/
theorem C104_neon_order_matters : OrderOf 2 [1, 0] ∧ reorder [1, 0] [exNClause, exNLoud] = [exNLoud, exNClause] ∧
    (runCalls neonBackend (fun _ _ => 0) [(exLits, none)] (exNExec [[exNClause, exNLoud]])).2 ≠
      (runCalls neonBackend (fun _ _ => 0) [(exLits, none)] (exNExec [[exNLoud, exNClause]])).2 :=
  ⟨List.Perm.swap 0 1 [], rfl, by decide +kernel⟩

/-! ## The start -/

/-- C104 (start). The machine in the other order is as likely a start: allocating a block with the numbers of its generators in another order
(and what the memory held before in the other order) gives the first block with its clauses in the other order, and leaves generators with
the numbers that `C104_portable` asks for. -/
theorem C104_start (order : List Nat) (nLits nClauses nClasses : Nat) (ho : OrderOf nClauses order) (cfg : Cfg) (fastOf rngOf : Nat → Rng)
    (junk : Nat → Nat) (seed : Nat) (b : DBlock) (h : initTM nLits nClauses nClasses cfg fastOf rngOf junk seed = some b) (f g : Rng)
    (hf : Reshuffled b.fast f) (hg : Reshuffled b.rng g) :
    ∃ fast rng junk', Reshuffled (fastOf seed) fast ∧ Reshuffled (rngOf seed) rng ∧
      ∃ d, initTM nLits nClauses nClasses cfg (fun _ => fast) (fun _ => rng) junk' seed = some d ∧
        { d with fast := f, rng := g } = reorderedDense order b (f, g) ∧
        ∀ k, numbers d.fast k = numbers f k ∧ numbers d.rng k = numbers g k :=
  start order nLits nClauses nClasses ho cfg fastOf rngOf junk seed b h f g hf hg

/-! ## Concrete cases -/

/-- A machine of one block with three clauses over two features, with a budget. -/
def orderMachine : Exec DBlock :=
  ⟨FB.new 2 10 ⟨fun _ => 1 / 2, 0⟩,
    [⟨2, 2, ⟨some 3, false, 1 / 3, 2 / 3⟩,
      [⟨[0, -1], [-1, -1], [1, -1], 0, 0⟩, ⟨[-1, 0], [-1, -1], [-1, 1], 0, 0⟩, ⟨[-1, -1], [-1, 0], [2, 1], 0, 0⟩], [0, 0],
      ⟨fun i => if i % 3 = 0 then 1 / 4 else 3 / 4, 0⟩, ⟨fun i => if i % 2 = 0 then 1 / 4 else 3 / 4, 0⟩⟩], []⟩

example : List.Forall₂ (fun o (b : DBlock) => OrderOf b.clauses.length o) [[2, 0, 1]] orderMachine.blocks :=
  .cons (by show [2, 0, 1].Perm [0, 1, 2]; decide) .nil

/-- In the other order the clauses are others, and with the same generators the training is different, so the numbers have to move. -/
example : ((runCalls denseBackend (fun _ _ => 0) [([1, 0], some 0)] orderMachine).1.blocks.map fun b => b.clauses.map (·.w)) =
      [[[2, -1], [-1, 1], [2, 1]]] ∧
    ((runCalls denseBackend (fun _ _ => 0) [([1, 0], some 0)]
      (reorderedExec reorderedDense orderMachine [[2, 0, 1]] (orderMachine.blocks.map fun b => (b.fast, b.rng)))).1.blocks.map
        fun b => b.clauses.map (·.w)) = [[[3, 1], [1, -1], [-1, 1]]] := by decide +kernel

/-- The same for the other kinds of block. -/
def orderAvxMachine : Exec VBlock :=
  ⟨FB.new 2 10 ⟨fun _ => 1 / 2, 0⟩, [⟨2, exVCfg, [exVClause, ⟨fun _ => 0xFD#8, [-1, 2], 0, 0⟩], [0, 0], ⟨fun _ => 1 / 4, 0⟩,
    ⟨fun q l => if (q + l) % 2 = 0 then 0x70#8 else 0x90#8, 0⟩⟩], []⟩
def orderConvMachine : Exec ConvBlock :=
  ⟨FB.new 2 10 ⟨fun _ => 1 / 2, 0⟩, [{ orderConv with cfg := { orderConv.cfg with budget := none } }], []⟩
def orderAvxConvMachine : Exec VConvBlock :=
  ⟨FB.new 2 10 ⟨fun _ => 1 / 2, 0⟩, [⟨2, 2, { exVCfg with budget := none }, [⟨exVClause, 0⟩, ⟨⟨fun _ => 0xFD#8, [-1, 2], 0, 0⟩, 1⟩], fun _ => 0,
    [0, 0], ⟨fun _ => 1 / 4, 0⟩, ⟨fun _ => 1 / 4, 0⟩, ⟨fun q l => if (q + l) % 2 = 0 then 0x70#8 else 0x90#8, 0⟩⟩], []⟩

example : List.Forall₂ (fun o (b : VBlock) => OrderOf b.clauses.length o) [[1, 0]] orderAvxMachine.blocks := .cons (List.Perm.swap 0 1 []) .nil
example : List.Forall₂ (fun o (b : ConvBlock) => OrderOf b.clauses.length o) [[1, 0]] orderConvMachine.blocks ∧
    ∀ b ∈ orderConvMachine.blocks, b.cfg.budget = none := ⟨.cons (List.Perm.swap 0 1 []) .nil, by simp [orderConvMachine]⟩
example : List.Forall₂ (fun o (b : VConvBlock) => OrderOf b.clauses.length o) [[1, 0]] orderAvxConvMachine.blocks ∧
    ∀ b ∈ orderAvxConvMachine.blocks, b.cfg.budget = none := ⟨.cons (List.Perm.swap 0 1 []) .nil, by simp [orderAvxConvMachine]⟩
example : ∃ b, initTM 2 3 2 ⟨some 3, false, 1 / 3, 2 / 3⟩ (fun _ => exRng) (fun _ => exRng) (fun i => i) 7 = some b ∧
    OrderOf 3 [2, 0, 1] ∧ b.clauses.length = 3 ∧ Reshuffled b.fast b.fast :=
  ⟨_, rfl, by show [2, 0, 1].Perm [0, 1, 2]; decide, by decide +kernel, fun k => ⟨k, Nat.le_refl _, .refl _⟩⟩

/-- A convolutional block fresh from `initialize` has an ample budget when none was set (65535), if the memory it was given holds no larger
numbers. -/
example (b : ConvBlock) (h : initConv 2 3 2 4 ⟨some 65535, false, 1 / 3, 2 / 3⟩ (fun _ => exRng) (fun _ => exRng) (fun i => i % 7) (fun _ => 0)
    (fun _ => 9) 7 = some b) : AmpleBudget b := by
  have l := Fresh.initConv_low (v := 65535) (by decide) (fun i => ⟨by show i % 7 ≤ 65535; omega, by decide⟩) h
  refine ⟨65535, ?_, l.counts, fun c hc => ⟨l.cnt c hc, l.len c hc⟩⟩
  obtain ⟨_, _, h1, _, -, h2, -⟩ := Fresh.initConv_like 2 3 2 4 ⟨some 65535, false, 1 / 3, 2 / 3⟩ (fun _ => exRng) (fun _ => exRng) (fun i => i % 7)
    (fun _ => 0) (fun _ => 9) (fun i => i % 7) (fun _ => 0) (fun _ => 9) 7 (by decide) (by decide)
  rw [h] at h1
  rw [Option.some.inj h1, h2]

def orderAmpleMachine : Exec ConvBlock :=
  ⟨FB.new 2 10 ⟨fun _ => 1 / 2, 0⟩, [{ orderConv with cfg := { orderConv.cfg with budget := some 65535 } }], []⟩
def orderAvxAmpleMachine : Exec VConvBlock :=
  ⟨FB.new 2 10 ⟨fun _ => 1 / 2, 0⟩, [⟨2, 2, { exVCfg with budget := some 65535 }, [⟨exVClause, 0⟩, ⟨⟨fun _ => 0xFD#8, [-1, 2], 0, 0⟩, 1⟩],
    fun _ => 0, [0, 0], ⟨fun _ => 1 / 4, 0⟩, ⟨fun _ => 1 / 4, 0⟩, ⟨fun q l => if (q + l) % 2 = 0 then 0x70#8 else 0x90#8, 0⟩⟩], []⟩

example : List.Forall₂ (fun o (b : ConvBlock) => OrderOf b.clauses.length o) [[1, 0]] orderAmpleMachine.blocks ∧
    ∀ b ∈ orderAmpleMachine.blocks, AmpleBudget b := by
  refine ⟨.cons (List.Perm.swap 0 1 []) .nil, fun b hb => ?_⟩
  rw [List.mem_singleton.1 hb]
  exact ⟨65535, rfl, fun i => by show orderConv.counts i ≤ 65535; simp [orderConv], by decide⟩
example : List.Forall₂ (fun o (b : VConvBlock) => OrderOf b.clauses.length o) [[1, 0]] orderAvxAmpleMachine.blocks ∧
    ∀ b ∈ orderAvxAmpleMachine.blocks, AmpleAvxBudget b := by
  refine ⟨.cons (List.Perm.swap 0 1 []) .nil, fun b hb => ?_⟩
  rw [List.mem_singleton.1 hb]
  refine ⟨by decide, 65535, rfl, by decide, fun i => by show 0 ≤ 65535; omega, ?_⟩
  intro c hc
  simp only [List.mem_cons, List.not_mem_nil, or_false] at hc
  rcases hc with rfl | rfl <;> decide

end GT

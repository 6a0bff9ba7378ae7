import Verif.Lemmas.Resume
import Verif.Lemmas.ResumeConv
import Verif.Props.ClauseOrder
import Verif.Props.SparseState

/-! # C105: training goes on from a saved state -/

namespace GT
open Spec Resume

/-- C105 (portable). Two machines with the same settings, the same learned states and weights and generators at the same place give the same
accuracies and the same predictions through every sequence of epochs and predictions, and have again learned the same. Nothing else that the
machines hold - outputs, literal counters, votes, the last feedback, the training counters, the order of the last epoch - plays a part. -/
theorem C105_portable (smp : List Rat → Rat → Nat) (us : List (TMUse (List Nat))) (e f : Exec DBlock) (hf : SameFeedback e.fb f.fb)
    (hb : List.Forall₂ SameState e.blocks f.blocks) :
    gets denseBackend smp us f = gets denseBackend smp us e ∧
    List.Forall₂ SameState (afterUses denseBackend smp us e).blocks (afterUses denseBackend smp us f).blocks := by
  obtain ⟨a, b⟩ := uses_all dsim smp us hf (hb.imp fun b d h => (dr_iff b d).2 h)
  exact ⟨a, b.imp fun b d h => (dr_iff b d).1 h⟩

/-- C105, resumed training: put what machine `e` has learned into a machine `f` of the same layout. Whatever is done next, the machine gives
the accuracies and predictions that `e` itself would give with the generators of `f`, and learns the same. -/
theorem C105_resumed (smp : List Rat → Rat → Nat) (us : List (TMUse (List Nat))) (e f : Exec DBlock) (h : SetUpLike e f) :
    gets denseBackend smp us (startExec f.fb f.blocks (some (model e))) = gets denseBackend smp us (withGenerators e f) ∧
    model (afterUses denseBackend smp us (startExec f.fb f.blocks (some (model e)))) =
      model (afterUses denseBackend smp us (withGenerators e f)) := by
  have hs := C105_portable smp us (withGenerators e f) (startExec f.fb f.blocks (some (model e)))
    ⟨h.nClasses, h.threshold, h.length, rfl⟩ (put_blocks e.blocks f.blocks h.blocks)
  refine ⟨hs.1, ?_⟩
  have : ∀ {bs ds : List DBlock}, List.Forall₂ SameState bs ds →
      (ds.flatMap (·.clauses)).map learned = (bs.flatMap (·.clauses)).map learned := by
    intro bs ds h
    induction h with
    | nil => rfl
    | cons h _ ih => simp only [List.flatMap_cons, List.map_append, ih, h.learned]
  exact this hs.2

/-- C105 (AVX2). The padding plays no part either. -/
theorem C105_avx2 (smp : List Rat → Rat → Nat) (us : List (TMUse Mem)) (e f : Exec VBlock) (hf : SameFeedback e.fb f.fb)
    (hb : List.Forall₂ SameAvxState e.blocks f.blocks) :
    gets avxBackend smp us f = gets avxBackend smp us e ∧
    List.Forall₂ SameAvxState (afterUses avxBackend smp us e).blocks (afterUses avxBackend smp us f).blocks :=
  uses_all vsim smp us hf hb

/-- C105 (NEON), for examples of `n` literals, each 0 or 1. (A crash of the one is a crash of the other.) -/
theorem C105_neon (smp : List Rat → Rat → Nat) (n : Nat) (hn : 0 < n) (us : List (TMUse Mem))
    (hu : ∀ u ∈ us, u.All fun x => Binary (unpadExample n x)) (e f : Exec (Option NBlock)) (hf : SameFeedback e.fb f.fb)
    (hb : List.Forall₂ (fun b d => ∃ b' d', b = some b' ∧ d = some d' ∧ b'.cfg.nLits = n ∧ SameNeonState b' d') e.blocks f.blocks) :
    gets neonBackend smp us f = gets neonBackend smp us e ∧
    ((afterUses neonBackend smp us f).blocks.map fun b => b.map fun b => b.clauses.map fun c => learned (neonUnpad n c)) =
      (afterUses neonBackend smp us e).blocks.map fun b => b.map fun b => b.clauses.map fun c => learned (neonUnpad n c) := by
  obtain ⟨a, -, b⟩ := uses_sim (nsim hn) smp us hu hf (hb.imp (by
    rintro _ _ ⟨b, d, rfl, rfl, h1, h2⟩
    exact nr_of_same h1 h2))
  exact ⟨a, forall₂_map_eq.1 (b.imp fun _ _ h => nr_learned h)⟩

/-- C105 (sparse): also the active literals are the same, with the index of the one that is replaced next. Missing from the full claim: this
index is not part of the saved state, and matters (`C105_sparse_index_matters`). -/
theorem C105_sparse_partial (smp : List Rat → Rat → Nat) (us : List (TMUse (List Nat))) (e f : Exec SBlock) (hf : SameFeedback e.fb f.fb)
    (hb : List.Forall₂ SameSparseState e.blocks f.blocks) :
    gets sparseBackend smp us f = gets sparseBackend smp us e ∧
    List.Forall₂ SameSparseState (afterUses sparseBackend smp us e).blocks (afterUses sparseBackend smp us f).blocks := by
  obtain ⟨a, b⟩ := uses_all ssim smp us hf (hb.imp fun b d h => (sr_iff b d).2 h)
  exact ⟨a, b.imp fun b d h => (sr_iff b d).1 h⟩

/-- C105 (convolutional), for blocks with one patch, or with a literal budget that nothing exceeds. Otherwise the scratch memory for counts of
literals plays a part (`C105_conv_scratch_matters`). -/
theorem C105_conv_partial (smp : List Rat → Rat → Nat) (us : List (TMUse (List Nat))) (e f : Exec ConvBlock) (hf : SameFeedback e.fb f.fb)
    (hb : List.Forall₂ (fun b d => SameConvState b d ∧ (b.nPatches = 1 ∨ AmpleBudget b ∧ AmpleBudget d)) e.blocks f.blocks) :
    gets convBackend smp us f = gets convBackend smp us e ∧
    List.Forall₂ SameConvState (afterUses convBackend smp us e).blocks (afterUses convBackend smp us f).blocks := by
  have hl : ∀ {b : ConvBlock} {v : Nat}, b.cfg.budget = some v → AmpleBudget b → Fresh.Low v b := by
    rintro b v hv ⟨v', h1, h2, h3⟩
    rw [hv] at h1
    cases h1
    exact ⟨h2, fun c hc => (h3 c hc).1, fun c hc => (h3 c hc).2⟩
  obtain ⟨a, b⟩ := uses_all asim smp us hf (hb.imp (by
    rintro b d ⟨h, h1 | ⟨h1, h2⟩⟩
    · exact Or.inl ⟨(cr_iff b d).2 h, Or.inr h1⟩
    · obtain ⟨v, hv, -⟩ := id h1
      exact Or.inr ⟨v, (cr_iff b d).2 h, hv, hl hv h1, hl (by rw [h.cfg]; exact hv) h2⟩))
  refine ⟨a, b.imp ?_⟩
  rintro b d (h | ⟨v, h⟩)
  · exact (cr_iff b d).1 h.1
  · exact (cr_iff b d).1 h.1

/-- C105 (AVX2 convolutional), for blocks with one patch or without a literal budget; neither the padding of the rows nor the scratch memory plays
a part then. Every load of literals is taken to succeed, see C76 for those that do not. -/
theorem C105_avx2_conv_partial (smp : List Rat → Rat → Nat) (us : List (TMUse Mem)) (e f : Exec VConvBlock) (hf : SameFeedback e.fb f.fb)
    (hb : List.Forall₂ (fun b d => SameAvxConvState b d ∧ (b.cfg.budget = none ∨ b.nPatches = 1)) e.blocks f.blocks) :
    gets avxConvBackend smp us f = gets avxConvBackend smp us e ∧
    List.Forall₂ SameAvxConvState (afterUses avxConvBackend smp us e).blocks (afterUses avxConvBackend smp us f).blocks := by
  obtain ⟨a, b⟩ := uses_all wsim smp us hf hb
  exact ⟨a, b.imp fun _ _ h => h.1⟩

/-! ### What is not in the saved state -/

/-- One epoch over one example with label 0. -/
def resumeEpoch (x : List Nat) : TMUse (List Nat) := .epoch id [(x, 0)]

/-- A machine of one portable block, the first number of whose generator is 0 and all further ones 9/10. -/
def resumeMachine : Exec DBlock :=
  ⟨FB.new 2 4 ⟨fun _ => 1 / 2, 0⟩, [⟨2, 2, ⟨none, false, 1 / 3, 2 / 3⟩, [⟨[5, -3], [-2, -9], [1, 1], 0, 0⟩], [0, 0],
    ⟨fun i => if i = 0 then 0 else 9 / 10, 0⟩, ⟨fun _ => 1 / 4, 0⟩⟩], []⟩

/-- A sparse machine with the active literals 3 and 1 for class 0, whose replace index is `i`. -/
def resumeSparse (i : Nat) : Exec SBlock :=
  ⟨FB.new 2 4 ⟨fun _ => 1 / 2, 0⟩, [⟨6, 2, { exSCfg with dynamicAL := true }, [⟨[], [], [1, 1], 0, 0⟩], [([3, 1], i), ([0, 2], 0)], [0, 0],
    exQuarter⟩], []⟩

/-- A convolutional machine with the budget a block has if none is set, on two patches; `k` is in its scratch memory. -/
def resumeConv (k : Nat) : Exec ConvBlock :=
  ⟨FB.new 2 4 ⟨fun _ => 1 / 2, 0⟩, [⟨1, 2, 2, ⟨some 65535, false, 1 / 3, 2 / 3⟩, [⟨⟨[-9], [5], [-1, 1], 0, 0⟩, 0⟩], fun _ => k, [0, 0],
    ⟨fun _ => 1 / 4, 0⟩, ⟨fun _ => 1 / 4, 0⟩⟩], []⟩

/-- What training goes on from is the state and the generators: a new machine with the same seed starts its generators again, so training one
epoch, saving, and training the next in a new machine with the same seed is not training two epochs. -/
theorem C105_uninterrupted_differs :
    let e := afterUses denseBackend (fun _ _ => 1) [resumeEpoch [1, 0]] resumeMachine
    SetUpLike e resumeMachine ∧
    model (afterUses denseBackend (fun _ _ => 1) [resumeEpoch [1, 0]] (startExec resumeMachine.fb resumeMachine.blocks (some (model e)))) ≠
      model (afterUses denseBackend (fun _ _ => 1) [resumeEpoch [1, 0]] e) := by
  refine ⟨⟨by decide +kernel, by decide +kernel, by decide +kernel, ?_⟩, by decide +kernel⟩
  rfl

/-- C105 is false of sparse machines as far as only the saved state is concerned: the index of the active literal to be replaced next is not in
it. Two machines that differ in nothing but this index have different active literals after one epoch. -/
theorem C105_sparse_index_matters : ∃ i j,
    ((resumeSparse i).blocks.map fun b => (sBlockLearned b, b.al.map (·.1))) = ((resumeSparse j).blocks.map fun b => (sBlockLearned b, b.al.map (·.1))) ∧
    ((afterUses sparseBackend (fun _ _ => 1) [resumeEpoch [5]] (resumeSparse i)).blocks.map fun b => b.al.map (·.1)) ≠
      (afterUses sparseBackend (fun _ _ => 1) [resumeEpoch [5]] (resumeSparse j)).blocks.map fun b => b.al.map (·.1) :=
  ⟨0, 1, rfl, by decide +kernel⟩

/-- C105 is false of convolutional blocks with several patches: with the same learned states and weights, settings and generators, and the
budget a block has if none is set, the weights after one epoch depend on what the memory for counts of literals held. -/
theorem C105_conv_scratch_matters : ∃ k l, k < 2 ^ 32 ∧ l < 2 ^ 32 ∧ SameFeedback (resumeConv k).fb (resumeConv l).fb ∧
    List.Forall₂ SameConvState (resumeConv k).blocks (resumeConv l).blocks ∧
    ((afterUses convBackend (fun _ _ => 1) [resumeEpoch [1, 0]] (resumeConv k)).blocks.map fun b => b.clauses.map fun c => learned c.base) ≠
      (afterUses convBackend (fun _ _ => 1) [resumeEpoch [1, 0]] (resumeConv l)).blocks.map fun b => b.clauses.map fun c => learned c.base :=
  ⟨0, 0xA5A5A5A5, by decide, by decide, ⟨rfl, rfl, rfl, rfl⟩, .cons ⟨rfl, rfl, rfl, rfl, rfl, rfl, rfl⟩ .nil, by decide +kernel⟩

/-! ### The hypotheses are met, and the machines do something -/

/-- The portable machine after an epoch, put into a machine with other generators. -/
def resumeOther : Exec DBlock :=
  ⟨FB.new 2 4 ⟨fun _ => 1 / 7, 3⟩, [⟨2, 2, ⟨none, false, 1 / 3, 2 / 3⟩, [⟨[-1, 0], [0, -1], [-1, 1], 1, 7⟩], [5, 5],
    ⟨fun _ => 0, 2⟩, ⟨fun _ => 1 / 5, 9⟩⟩], [0]⟩

example : SetUpLike resumeMachine resumeOther ∧
    (afterUses denseBackend (fun _ _ => 1) [resumeEpoch [1, 0]] (startExec resumeOther.fb resumeOther.blocks (some (model resumeMachine)))).blocks.map
      (·.clauses.map learned) = [[([6, -3], [-2, -8], [2, 0])]] :=
  ⟨⟨rfl, rfl, rfl, rfl⟩, by decide +kernel⟩

example : List.Forall₂ (fun b d => SameConvState b d ∧ (b.nPatches = 1 ∨ AmpleBudget b ∧ AmpleBudget d)) (resumeConv 3).blocks (resumeConv 8).blocks := by
  refine .cons ⟨⟨rfl, rfl, rfl, rfl, rfl, rfl, rfl⟩, Or.inr ⟨⟨65535, rfl, fun _ => (by decide : 3 ≤ 65535), ?_⟩, ⟨65535, rfl, fun _ => (by decide : 8 ≤ 65535), ?_⟩⟩⟩ .nil
  · decide
  · decide

/-- Two AVX2 blocks of one clause over one literal: the same literal, other padding, output and votes. -/
def resumeAvx (p : Byte) (o : Nat) : VBlock :=
  ⟨2, ⟨1, none, false, 43#8⟩, [⟨fun i => if i = 0 then 5#8 else if i = avxMem 1 then 250#8 else p, [1, 1], o, o⟩], [o, o], ⟨fun _ => 1 / 4, 0⟩,
    ⟨fun _ _ => 0#8, 0⟩⟩

example : List.Forall₂ SameAvxState [resumeAvx 0#8 0] [resumeAvx 77#8 1] := by
  refine .cons ⟨by decide, rfl, rfl, ?_, rfl, rfl⟩ .nil
  decide +kernel

/-- Two NEON blocks of one clause over one literal. -/
def resumeNeon (p : Byte) (o : Nat) : NBlock :=
  ⟨2, ⟨1, some 9, false, 43#8⟩, [⟨fun i => if i = 0 then 5#8 else if i = neonMem 1 then 250#8 else p, [1, 1], o, o⟩], [o, o],
    ⟨fun _ => 1 / 4, 0⟩, ⟨fun _ _ => 0#8, 0⟩⟩

example : SameNeonState (resumeNeon 0#8 0) (resumeNeon 77#8 1) ∧ Binary (unpadExample 1 fun _ => 1#8) := by
  refine ⟨⟨by decide, rfl, rfl, ?_, rfl, rfl⟩, by decide⟩
  decide +kernel

example : List.Forall₂ SameSparseState (resumeSparse 1).blocks
    ((resumeSparse 1).blocks.map fun b => { b with votes := [9, 9], clauses := b.clauses.map fun c => { c with out := 1, cnt := 4 } }) :=
  .cons ⟨rfl, rfl, rfl, rfl, rfl⟩ .nil

/-- AVX2 convolutional blocks with different padding, outputs, patches and scratch memory. -/
def resumeAvxConv (p : Byte) (o : Nat) : VConvBlock :=
  { nClasses := 2, nPatches := 3, cfg := ⟨2, none, false, 9#8⟩, clauses := [⟨⟨fun a => if a = 0 then 5#8 else if a = 1 then 250#8 else if a = 32 then 200#8 else
      if a = 33 then 255#8 else p, [3, -2], o, o + 4⟩, o + 1⟩], counts := fun _ => o, votes := [0, o], fast := ⟨fun _ => 1 / 2, 0⟩,
    rng := ⟨fun _ => 1 / 4, 0⟩, vrng := ⟨fun _ _ => 7#8, 0⟩ }

example : List.Forall₂ (fun b d => SameAvxConvState b d ∧ (b.cfg.budget = none ∨ b.nPatches = 1)) [resumeAvxConv 0#8 0] [resumeAvxConv 77#8 1] :=
  .cons ⟨⟨by decide, rfl, rfl, rfl, by decide, rfl, rfl, rfl⟩, .inl rfl⟩ .nil

end GT

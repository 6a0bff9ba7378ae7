import Verif.Lemmas.Settled
import Verif.Lemmas.Random
import Verif.Props.ConvExec
import Verif.Props.SparseExec

/-!
# Training on data the machine is already certain of (C93)

Full statement: once every training example has at least `threshold` votes for its label and at most `-threshold` for every other
class, further epochs change no literal state and no weight and report accuracy 1.

Proved here, for the portable, AVX2, NEON (with a literal budget), convolutional, AVX2-convolutional and sparse clause blocks, as long as no draw that decides about an update is below 1e-16. The code adds 1e-16 to
the probability for the negative class, so a smaller draw changes the machine; every seed's generator draws 0 some time.
-/

namespace GT
open Spec SettledL

/-- One literal, two classes, threshold 5: the clause gives exactly 5 and -5 votes on `[1]`. -/
def exSettled (g : Rng) : Exec DBlock :=
  ⟨FB.new 2 5 ⟨fun _ => 1 / 2, 0⟩, [⟨1, 2, exCfg, [⟨[0], [-1], [5, -5], 0, 0⟩], [0, 0], g, exRng⟩], []⟩

theorem settled_five : Settled 5 [5, -5] 0 := by
  refine ⟨⟨5, rfl, by norm_num⟩, fun k u hk hu => ?_⟩
  match k, hk, hu with
  | 1, _, hu =>
    simp at hu
    subst hu
    norm_num
  | k + 2, _, hu => simp at hu

/-- A generator of which no draw is tiny. -/
def exHalf : Rng := ⟨fun _ => 1 / 2, 0⟩

theorem exHalf_notTiny : NoTinyDraw exHalf := by
  intro k _
  show (1 : Rat) / 10 ^ 16 ≤ 1 / 2
  norm_num

/-- C93, portable backend: any number of epochs over settled data, with any shuffles, leaves every literal state and every weight
as it is and reports accuracy 1 each time. Missing for the full claim: draws below 1e-16. -/
theorem C93_dense_partial (m n : Nat) (smp : List Rat → Rat → Nat) (e : Exec DBlock) (data : List (List Nat × Nat))
    (shs : List (List Nat → List Nat)) (h : SetUp m n e) (hT : 0 < e.fb.threshold) (hd : data ≠ [])
    (hx : ∀ d ∈ data, Binary d.1 ∧ d.1.length = m) (hsh : ∀ sh ∈ shs, Reorders data.length sh)
    (hq : ∀ b ∈ e.blocks, NoTinyDraw b.fast)
    (hs : ∀ d ∈ data, Settled e.fb.threshold (trainingVotes n (model e) d.1) d.2) :
    model (trainEpochs denseBackend smp data shs e).1 = model e ∧
    (trainEpochs denseBackend smp data shs e).2 = List.replicate shs.length 1 := by
  obtain ⟨a, b⟩ := epochs_calm dense_calm (dense_keeps n) smp data hd shs e hsh (setUp_ready h) hT hq (by
    intro d hd'
    rw [C16_training_votes m n e d.1 h (hx d hd').1 (hx d hd').2]
    exact hs d hd')
  refine ⟨?_, b⟩
  have hm : ∀ e : Exec DBlock, model e = (e.blocks.map denseL).flatMap (fun l => l.2.2) := by
    intro e
    simp [model, denseL, List.map_flatMap, List.flatMap_map]
  rw [hm, hm, a]

example : SetUp 1 2 (exSettled ⟨fun _ => 1 / 2, 0⟩) ∧ (∀ b ∈ (exSettled ⟨fun _ => 1 / 2, 0⟩).blocks, NoTinyDraw b.fast) ∧
    Reorders 1 id ∧ Settled 5 (trainVotes denseBackend (exSettled ⟨fun _ => 1 / 2, 0⟩) [1]) 0 := by
  refine ⟨⟨by decide, rfl, rfl, ?_⟩, ?_, List.Perm.refl _, ?_⟩
  · simp [exSettled, Shaped]
  · intro b hb
    simp only [exSettled, List.mem_singleton] at hb
    subst hb
    intro k _
    norm_num
  · have e : trainVotes denseBackend (exSettled ⟨fun _ => 1 / 2, 0⟩) [1] = [5, -5] := by decide +kernel
    rw [e]
    exact settled_five

/-- C93, AVX2 backend. -/
theorem C93_avx2_partial (m n : Nat) (smp : List Rat → Rat → Nat) (e : Exec VBlock) (data : List (Mem × Nat))
    (shs : List (List Nat → List Nat)) (h : AvxSetUp m n e) (hT : 0 < e.fb.threshold) (hd : data ≠ [])
    (hx : ∀ d ∈ data, Binary (unpadExample m d.1)) (hsh : ∀ sh ∈ shs, Reorders data.length sh)
    (hq : ∀ b ∈ e.blocks, NoTinyDraw b.fast)
    (hs : ∀ d ∈ data, Settled e.fb.threshold (trainingVotes n (avxModel e) (unpadExample m d.1)) d.2) :
    avxModel (trainEpochs avxBackend smp data shs e).1 = avxModel e ∧
    (trainEpochs avxBackend smp data shs e).2 = List.replicate shs.length 1 := by
  obtain ⟨a, b⟩ := epochs_calm avx_calm (avx_keeps n) smp data hd shs e hsh (avxSetUp_ready h) hT hq (by
    intro d hd'
    rw [C16_avx2_training_votes m n e d.1 h (hx d hd')]
    exact hs d hd')
  refine ⟨?_, b⟩
  have hm : ∀ e : Exec VBlock, avxModel e = (e.blocks.map avxRows).flatMap (fun l => l.2.2.map fun r =>
      ((List.range l.2.1.nLits).map fun i => (r.1 i).toInt, (List.range l.2.1.nLits).map fun i => (r.1 (avxMem l.2.1.nLits + i)).toInt, r.2)) := by
    intro e
    simp [avxModel, avxRows, List.flatMap_map, List.map_map, Function.comp_def, learned, unpad]
  rw [hm, hm, a]

/-- The clause asks for the first of three literals and votes 5 and -5. -/
def exAvxSettled : Exec VBlock :=
  ⟨FB.new 2 5 exHalf, [⟨2, { nLits := 3, budget := none, boost := false, cmpS := 0 },
    [⟨fun a => if a = 0 then 0 else 0xFF#8, [5, -5], 0, 0⟩], [0, 0], exHalf, ⟨fun _ _ => 0, 0⟩⟩], []⟩

example : AvxSetUp 3 2 exAvxSettled ∧ (∀ b ∈ exAvxSettled.blocks, NoTinyDraw b.fast) ∧
    Binary (unpadExample 3 (fun a => if a = 0 then 1#8 else 0#8)) ∧
    Settled 5 (trainingVotes 2 (avxModel exAvxSettled) (unpadExample 3 (fun a => if a = 0 then 1#8 else 0#8))) 0 := by
  have hu : AvxSetUp 3 2 exAvxSettled := ⟨by decide, by decide, rfl, rfl, by simp [exAvxSettled]⟩
  have hb : Binary (unpadExample 3 (fun a => if a = 0 then 1#8 else 0#8)) := by decide
  refine ⟨hu, ?_, hb, ?_⟩
  · simpa [exAvxSettled] using exHalf_notTiny
  · rw [← C16_avx2_training_votes 3 2 exAvxSettled _ hu hb]
    have e : trainVotes avxBackend exAvxSettled (fun a => if a = 0 then 1#8 else 0#8) = [5, -5] := by decide +kernel
    rw [e]
    exact settled_five

/-- C93, NEON backend with a literal budget (without one the code evaluates clauses in another way: C42): all the rows, padding
included, and all the weights stay as they are. -/
theorem C93_neon_partial (m n : Nat) (smp : List Rat → Rat → Nat) (e : Exec (Option NBlock)) (data : List (Mem × Nat))
    (shs : List (List Nat → List Nat)) (h : Ready n (NeonBudgetOK m n) e) (hT : 0 < e.fb.threshold) (hd : data ≠ [])
    (hsh : ∀ sh ∈ shs, Reorders data.length sh) (hq : ∀ d, some d ∈ e.blocks → NoTinyDraw d.fast)
    (hs : ∀ d ∈ data, Settled e.fb.threshold (trainVotes neonBackend e d.1) d.2) :
    (trainEpochs neonBackend smp data shs e).1.blocks.map neonRows = e.blocks.map neonRows ∧
    (trainEpochs neonBackend smp data shs e).2 = List.replicate shs.length 1 := by
  obtain ⟨a, b⟩ := epochs_calm neon_calm (CE.neon_keeps m n) smp data hd shs e hsh h hT (by
    intro b hb
    obtain ⟨⟨d, rfl, _⟩, hbud⟩ := h.blocks b hb
    exact ⟨d, rfl, hbud d rfl, hq d hb⟩) hs
  refine ⟨?_, b⟩
  have hm : ∀ e : Exec (Option NBlock), e.blocks.map neonRows = (e.blocks.map neonRead).map (fun l => l.map fun r => r.2.2) := by
    intro e
    rw [List.map_map]
    refine List.map_congr_left fun b _ => ?_
    cases b <;> rfl
  rw [hm, hm, a]

def exNeonSettled : Exec (Option NBlock) :=
  ⟨FB.new 2 5 exHalf, [some { exNBlock [⟨fun a => if a = 0 then 0 else 0xFF#8, [5, -5], 0, 0⟩] (some 5) with fast := exHalf }], []⟩

example : Ready 2 (NeonBudgetOK 3 2) exNeonSettled ∧ (∀ d, some d ∈ exNeonSettled.blocks → NoTinyDraw d.fast) ∧
    Settled 5 (trainVotes neonBackend exNeonSettled (fun a => if a = 0 then 1#8 else 0#8)) 0 := by
  refine ⟨⟨by decide, rfl, rfl, ?_⟩, ?_, ?_⟩
  · intro b hb
    simp only [exNeonSettled, List.mem_singleton] at hb
    subst hb
    refine ⟨⟨_, rfl, by decide, rfl, rfl, by simp [exNBlock]⟩, ?_⟩
    intro d hd
    obtain rfl := Option.some.inj hd
    simp [exNBlock]
  · intro d hd
    simp only [exNeonSettled, List.mem_singleton, Option.some.injEq] at hd
    subst hd
    exact exHalf_notTiny
  · have e : trainVotes neonBackend exNeonSettled (fun a => if a = 0 then 1#8 else 0#8) = [5, -5] := by decide +kernel
    rw [e]
    exact settled_five

/-- C93, portable convolutional backend: `trainVotes` are the votes all blocks together give to the example in training. -/
theorem C93_conv_partial (m np n : Nat) (smp : List Rat → Rat → Nat) (e : Exec ConvBlock) (data : List (List Nat × Nat))
    (shs : List (List Nat → List Nat)) (h : Ready n (ConvBlockOK m np n) e) (hT : 0 < e.fb.threshold) (hd : data ≠ [])
    (hsh : ∀ sh ∈ shs, Reorders data.length sh) (hq : ∀ b ∈ e.blocks, NoTinyDraw b.fast)
    (hs : ∀ d ∈ data, Settled e.fb.threshold (trainVotes convBackend e d.1) d.2) :
    convModel (trainEpochs convBackend smp data shs e).1 = convModel e ∧
    (trainEpochs convBackend smp data shs e).2 = List.replicate shs.length 1 := by
  obtain ⟨a, b⟩ := epochs_calm conv_calm (CE.conv_keeps m np n) smp data hd shs e hsh h hT hq hs
  refine ⟨?_, b⟩
  have hm : ∀ e : Exec ConvBlock, convModel e = (e.blocks.map convL).flatMap (fun l => l.2.2) := by
    intro e
    simp [convModel, convL, List.flatMap_map]
  rw [hm, hm, a]

/-- Two patches of three literals; the clause holds on the first patch of the example. -/
def exConvSettled : Exec ConvBlock :=
  ⟨FB.new 2 5 exHalf, [⟨3, 2, 2, exConvCfg, [⟨⟨[5, -1, -1], [-1, -1, -1], [5, -5], 0, 0⟩, 7⟩], fun _ => 9, [0, 0], exHalf, exHalf⟩], []⟩

example : Ready 2 (ConvBlockOK 3 2 2) exConvSettled ∧ (∀ b ∈ exConvSettled.blocks, NoTinyDraw b.fast) ∧
    Settled 5 (trainVotes convBackend exConvSettled [1, 0, 0, 0, 1, 1]) 0 := by
  refine ⟨⟨by decide, rfl, rfl, by simp [exConvSettled, ConvBlockOK, Shaped]⟩, ?_, ?_⟩
  · simpa [exConvSettled] using exHalf_notTiny
  · have e : trainVotes convBackend exConvSettled [1, 0, 0, 0, 1, 1] = [5, -5] := by decide +kernel
    rw [e]
    exact settled_five

/-- C93, AVX2 convolutional backend. -/
theorem C93_avx2_conv_partial (m np n : Nat) (smp : List Rat → Rat → Nat) (e : Exec VConvBlock) (data : List (Mem × Nat))
    (shs : List (List Nat → List Nat)) (h : Ready n (AvxConvBlockOK m np n) e) (hT : 0 < e.fb.threshold) (hd : data ≠ [])
    (hsh : ∀ sh ∈ shs, Reorders data.length sh) (hq : ∀ b ∈ e.blocks, NoTinyDraw b.fast)
    (hs : ∀ d ∈ data, Settled e.fb.threshold (trainVotes avxConvBackend e d.1) d.2) :
    avxConvModel (trainEpochs avxConvBackend smp data shs e).1 = avxConvModel e ∧
    (trainEpochs avxConvBackend smp data shs e).2 = List.replicate shs.length 1 := by
  obtain ⟨a, b⟩ := epochs_calm avxConv_calm (CE.avxConv_keeps m np n) smp data hd shs e hsh h hT hq hs
  refine ⟨?_, b⟩
  have hm : ∀ e : Exec VConvBlock, avxConvModel e = (e.blocks.map avxConvL).flatMap (fun l => l.2.2.map fun r =>
      ((List.range l.2.1.nLits).map fun i => (r.1 i).toInt, (List.range l.2.1.nLits).map fun i => (r.1 (avxMem l.2.1.nLits + i)).toInt, r.2)) := by
    intro e
    simp [avxConvModel, avxConvL, List.flatMap_map, List.map_map, Function.comp_def, learned, unpad]
  rw [hm, hm, a]

def exVConvSettled : Exec VConvBlock :=
  ⟨FB.new 2 5 exHalf, [⟨2, 2, ⟨3, some 1, false, 0x80#8⟩, [⟨⟨exVConvRow 0 0, [5, -5], 0, 0⟩, 7⟩], fun _ => 9,
      [0, 0], exHalf, exHalf, ⟨fun _ _ => 0#8, 0⟩⟩], []⟩

example : Ready 2 (AvxConvBlockOK 3 2 2) exVConvSettled ∧ (∀ b ∈ exVConvSettled.blocks, NoTinyDraw b.fast) ∧
    Settled 5 (trainVotes avxConvBackend exVConvSettled (fun a => if a = 0 then 1#8 else 0#8)) 0 := by
  refine ⟨⟨by decide, rfl, rfl, by simp [exVConvSettled, AvxConvBlockOK]⟩, ?_, ?_⟩
  · simpa [exVConvSettled] using exHalf_notTiny
  · have e : trainVotes avxConvBackend exVConvSettled (fun a => if a = 0 then 1#8 else 0#8) = [5, -5] := by decide +kernel
    rw [e]
    exact settled_five

/-- C93, sparse backend: besides the clauses, the lists of active literals stay as they are. -/
theorem C93_sparse_partial (n : Nat) (smp : List Rat → Rat → Nat) (e : Exec SBlock) (data : List (List Nat × Nat))
    (shs : List (List Nat → List Nat)) (h : SSetUp n e) (hT : 0 < e.fb.threshold) (hd : data ≠ [])
    (hsh : ∀ sh ∈ shs, Reorders data.length sh) (hq : ∀ b ∈ e.blocks, NoTinyDraw b.fast)
    (hs : ∀ d ∈ data, Settled e.fb.threshold (trainVotes sparseBackend e d.1) d.2) :
    sModel (trainEpochs sparseBackend smp data shs e).1 = sModel e ∧
    (trainEpochs sparseBackend smp data shs e).1.blocks.map (·.al) = e.blocks.map (·.al) ∧
    (trainEpochs sparseBackend smp data shs e).2 = List.replicate shs.length 1 := by
  obtain ⟨a, b⟩ := epochs_calm sparse_calm (sparse_keeps n) smp data hd shs e hsh h hT hq hs
  have hm : ∀ e : Exec SBlock, sModel e = (e.blocks.map sparseL).flatMap (fun l => l.2.2.1) := by
    intro e
    simp [sModel, sparseL, List.map_flatMap, List.flatMap_map]
  have ha : ∀ e : Exec SBlock, e.blocks.map (·.al) = (e.blocks.map sparseL).map (fun l => l.2.2.2) := by
    intro e
    simp [sparseL, List.map_map, Function.comp_def]
  exact ⟨by rw [hm, hm, a], by rw [ha, ha, a], b⟩

def exSSettled : Exec SBlock :=
  ⟨FB.new 2 5 exHalf, [⟨6, 2, exSCfg, [⟨[(0, 3), (4, 2)], [(1, 5)], [5, -5], 0, 0⟩], [([], 0), ([], 0)], [0, 0], exHalf⟩], []⟩

example : SSetUp 2 exSSettled ∧ (∀ b ∈ exSSettled.blocks, NoTinyDraw b.fast) ∧ Settled 5 (trainVotes sparseBackend exSSettled [0, 4]) 0 := by
  refine ⟨⟨by decide, rfl, rfl, by simp [exSSettled, SparseBlockOK]⟩, ?_, ?_⟩
  · simpa [exSSettled] using exHalf_notTiny
  · have e : trainVotes sparseBackend exSSettled [0, 4] = [5, -5] := by decide +kernel
    rw [e]
    exact settled_five

/-- C93 with threads: every interleaving of the tasks of a sequence of settled examples. -/
theorem C93_threads_partial (m n : Nat) (smp : List Rat → Rat → Nat) (e e' : Exec DBlock) (ds : List (List Nat × Nat)) (h : SetUp m n e)
    (hT : 0 < e.fb.threshold) (hx : ∀ d ∈ ds, Binary d.1 ∧ d.1.length = m) (hq : ∀ b ∈ e.blocks, NoTinyDraw b.fast)
    (hs : ∀ d ∈ ds, Settled e.fb.threshold (trainingVotes n (model e) d.1) d.2) (hr : TrainMT denseBackend smp ds e e') :
    model e' = model e := by
  rw [C15_training_schedule_independent denseBackend n _ (dense_keeps n) smp ds e e' (setUp_ready h)] at hr
  subst hr
  have a := (trainAll_calm dense_calm (dense_keeps n) smp ds e (setUp_ready h) hT hq (by
    intro d hd'
    rw [C16_training_votes m n e d.1 h (hx d hd').1 (hx d hd').2]
    exact hs d hd')).1
  have hm : ∀ e : Exec DBlock, model e = (e.blocks.map denseL).flatMap (fun l => l.2.2) := by
    intro e
    simp [model, denseL, List.map_flatMap, List.flatMap_map]
  rw [hm, hm, a]

theorem exSettled_votes (g : Rng) : trainVotes denseBackend (exSettled g) [1] = [5, -5] := by
  have e : trainVotes denseBackend (exSettled g) [1] = trainVotes denseBackend (exSettled exRng) [1] := rfl
  rw [e]
  decide +kernel

/-- The generator of every seed draws 0 again and again: after every number of draws there is one to come. -/
theorem C93_zero_is_drawn (hi lo j : Nat) : ∃ k, j ≤ k ∧ (Wyhash.seeded hi lo).stream.draw k = 0 := by
  obtain ⟨n, _, h⟩ := wy_reaches ((Wyhash.seeded hi lo).after j) (0 - 0x60bee2bee120fc15#64)
  refine ⟨j + n, by omega, ?_⟩
  show (((Wyhash.seeded hi lo).after (j + n)).nextU).1 = 0
  have e : wyM2 (((Wyhash.seeded hi lo).after (j + n)).advance).x = 0#64 := by
    rw [Wyhash.advance_x, Wyhash.after_add, h, BitVec.sub_add_cancel]
    decide +kernel
  simp only [Wyhash.nextU, e]
  decide +kernel

/-- **C93 fails**: with any seed there is a moment at which one more example, although all its votes are at the thresholds, changes a
weight. -/
theorem C93_still_learns (hi lo : Nat) : ∃ k,
    let e := exSettled { (Wyhash.seeded hi lo).stream with pos := k }
    e.fb.threshold = 5 ∧ trainVotes denseBackend e [1] = [5, -5] ∧ model e = [([0], [-1], [5, -5])] ∧
    (model (e.trainOne denseBackend discreteSample [1] 0)).map (fun c => c.2.2) = [[5, -6]] := by
  obtain ⟨k, hk1, hk⟩ := C93_zero_is_drawn hi lo 1
  refine ⟨k - 1, rfl, exSettled_votes _, rfl, ?_⟩
  have h0 : ¬ (Wyhash.seeded hi lo).stream.draw (k - 1) < 0 := not_lt.mpr (nextU_range _).1
  have h1 : (Wyhash.seeded hi lo).stream.draw (k - 1 + 1) = 0 := by rw [show k - 1 + 1 = k by omega]; exact hk
  generalize hg : ({ (Wyhash.seeded hi lo).stream with pos := k - 1 } : Rng) = g
  have g0 : ¬ g.next.1 < 0 := by rw [← hg]; exact h0
  have g1 : g.next.2.next.1 < 1 / 10 ^ 16 := by
    have : g.next.2.next.1 = 0 := by rw [← hg]; exact h1
    rw [this]
    norm_num
  have hp : ((exampleLoop (denseBackend.trainExample · [1]) denseBackend.votes (exSettled g).blocks (exSettled g).fb.reset).2.process
      discreteSample 0).feedback = ⟨0, 0, 1, 1 / 10 ^ 16⟩ := by
    have hf : (exampleLoop (denseBackend.trainExample · [1]) denseBackend.votes (exSettled g).blocks (exSettled g).fb.reset).2 =
        { FB.new 2 5 ⟨fun _ => 1 / 2, 0⟩ with votes := [5, -5] } := by
      rw [exampleLoop_frame, show (exampleLoop (denseBackend.trainExample · [1]) denseBackend.votes (exSettled g).blocks
        (exSettled g).fb.reset).2.votes = [5, -5] from exSettled_votes g]
      rfl
    rw [hf]
    have c1 : clampT 5 5 = 5 := clampT_hi (by norm_num) (by norm_num)
    have c2 : clampT 5 (-5) = -5 := clampT_lo (by norm_num) (by norm_num)
    simp only [FB.process, FB.feedback, FB.new, List.map_cons, List.map_nil, List.set_cons_zero, negWeight, c2, List.getD_cons_zero, c1,
      discreteSample, discreteLoop, Rng.next]
    norm_num
  simp only [Exec.trainOne, exampleLoop_blocks, hp, model]
  have hc : trainClause exCfg [1] ⟨0, 0, 1, 1 / 10 ^ 16⟩ ⟨[0], [-1], [5, -5], 1, 1⟩ g exRng =
      ((clauseUpdate exCfg [1] 1 (-1) ⟨[0], [-1], [5, -5], 1, 1⟩ exRng).1, g.next.2.next.2,
        (clauseUpdate exCfg [1] 1 (-1) ⟨[0], [-1], [5, -5], 1, 1⟩ exRng).2) := by
    have hb : budgetGate exCfg ⟨[0], [-1], [5, -5], 1, 1⟩ = ⟨[0], [-1], [5, -5], 1, 1⟩ := by decide
    simp only [trainClause, hb, if_neg g0, if_pos g1]
  have hw : (clauseUpdate exCfg [1] 1 (-1) ⟨[0], [-1], [5, -5], 1, 1⟩ exRng).1.w = [5, -6] := by decide +kernel
  have hset : setOutClause exCfg [1] ⟨[0], [-1], [5, -5], 0, 0⟩ = ⟨[0], [-1], [5, -5], 1, 1⟩ := by decide
  simp only [exSettled, denseBackend, DBlock.apply, DBlock.trainSetOutput, DBlock.countVotes, DBlock.trainUpdate, List.map_cons, List.map_nil,
    List.flatMap_cons, List.flatMap_nil, List.append_nil, if_true, trainClauses, hset, hc, learned, hw]

end GT

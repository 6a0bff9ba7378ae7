import Verif.Lemmas.ConvExec

/-!
# Training and prediction with convolutional and with NEON blocks (C14, C15, C17, C18)
-/

namespace GT
open Spec

/-! ### Convolutional blocks, portable backend -/

/-- C17 for the convolutional executor: in a batch of any length, the prediction for every example is the
lowest-numbered class with the most votes, where the votes are those the learned clauses give to this very example,
a clause voting when it is non-empty and holds in some patch. The other examples, earlier calls, active patches and
left-over scratch data play no role. -/
theorem C17_conv_batch_predictions (m np n : Nat) (e : Exec ConvBlock) (data : List (List Nat))
    (h : Ready n (ConvBlockOK m np n) e) (hx : ∀ x ∈ data, Binary x ∧ x.length = np * m) :
    ∃ ks, (Exec.evalPredict convBackend data data.length e).2 = some ks ∧ ks.length = data.length ∧
      ∀ (i : Nat) (x : List Nat) (k : Nat), data[i]? = some x → ks[i]? = some k →
        LowestMax (convModelVotes m np n (convModel e) x) k := by
  obtain ⟨ks, h1, h2, h3⟩ := predictions_of (be := convBackend) (CE.conv_keeps m np n).eval
    (fun x => Binary x ∧ x.length = np * m) (fun b x k => convFiringSum m np (b.clauses.map fun c => learned c.base) x k)
    (fun b x k hb hx hk => CE.conv_block_votes m np n b x k hb hx hk)
    (fun b y _ => by simp only [convBackend, ConvBlock.apply, List.map_map]; rfl) data hx e h
  refine ⟨ks, h1, h2, fun i x k hi hk => ?_⟩
  have := h3 i x k hi hk
  simp only [CE.convFiringSum_flat] at this
  exact this

/-- C14 for the convolutional executor: predictions do not depend on how the clauses are split into blocks, nor on the
order of clauses and blocks, nor on scratch data, configuration or random streams. -/
theorem C14_conv_block_split_invariance (m np n : Nat) (e e' : Exec ConvBlock) (data : List (List Nat))
    (h : Ready n (ConvBlockOK m np n) e) (h' : Ready n (ConvBlockOK m np n) e')
    (hp : (convModel e).Perm (convModel e')) (hx : ∀ x ∈ data, Binary x ∧ x.length = np * m) :
    (Exec.evalPredict convBackend data data.length e).2 = (Exec.evalPredict convBackend data data.length e').2 := by
  obtain ⟨ks, a1, a2, a3⟩ := C17_conv_batch_predictions m np n e data h hx
  obtain ⟨ks', b1, b2, b3⟩ := C17_conv_batch_predictions m np n e' data h' hx
  rw [a1, b1, same_predictions a2 b2 a3 b3]
  intro x _
  unfold convModelVotes
  exact List.map_congr_left fun k _ => by rw [CE.convFiringSum_perm m np hp]

/-- C15 for convolutional blocks of both backends: multi-threaded training and evaluation end as the single-threaded ones
do, whatever the interleaving. -/
theorem C15_conv_schedule_independent (m np n : Nat) (smp : List Rat → Rat → Nat) :
    (∀ e e' : Exec ConvBlock, Ready n (ConvBlockOK m np n) e →
      (∀ ds, TrainMT convBackend smp ds e e' ↔ e' = trainAll convBackend smp ds e) ∧
      (∀ xs ks, EvalMT convBackend xs e e' ks ↔ (e', ks) = Exec.evalLoop convBackend xs e)) ∧
    (∀ e e' : Exec VConvBlock, Ready n (AvxConvBlockOK m np n) e →
      (∀ ds, TrainMT avxConvBackend smp ds e e' ↔ e' = trainAll avxConvBackend smp ds e) ∧
      (∀ xs ks, EvalMT avxConvBackend xs e e' ks ↔ (e', ks) = Exec.evalLoop avxConvBackend xs e)) :=
  ⟨fun e e' h => ⟨fun ds => trainMT_iff (CE.conv_keeps m np n) smp ds e e' h,
      fun xs ks => evalMT_iff (CE.conv_keeps m np n) xs e e' ks h⟩,
    fun e e' h => ⟨fun ds => trainMT_iff (CE.avxConv_keeps m np n) smp ds e e' h,
      fun xs ks => evalMT_iff (CE.avxConv_keeps m np n) xs e e' ks h⟩⟩

/-- C17: the convolutional executor stays usable: training on any examples keeps it set up, so that
`C17_conv_batch_predictions` applies after every history. -/
theorem C17_conv_after_training (m np n : Nat) (smp : List Rat → Rat → Nat) (e : Exec ConvBlock) (v : Exec VConvBlock)
    (ds : List (List Nat × Nat)) (vs : List (Mem × Nat)) (h : Ready n (ConvBlockOK m np n) e)
    (hv : Ready n (AvxConvBlockOK m np n) v) :
    Ready n (ConvBlockOK m np n) (trainAll convBackend smp ds e) ∧
      Ready n (AvxConvBlockOK m np n) (trainAll avxConvBackend smp vs v) :=
  ⟨ready_trainAll (CE.conv_keeps m np n) smp ds e h, ready_trainAll (CE.avxConv_keeps m np n) smp vs v hv⟩

/-- C16: one training example runs `train_example` and then `train_update` on every portable convolutional block, each once, in both cases with
this very example, and the update with the feedback computed from the votes of all blocks. No block is left out. -/
theorem C16_conv_every_block_learns (smp : List Rat → Rat → Nat) (e : Exec (ConvBlock)) (x : List Nat) (label : Nat) :
    (Exec.trainOne convBackend smp e x label).blocks = e.blocks.map fun b =>
      (b.apply (.trainExample x)).apply (.trainUpdate x (Exec.trainOne convBackend smp e x label).fb.feedback) := by
  simp [Exec.trainOne, exampleLoop_blocks, convBackend]

/-- C16: one training example runs `train_example` and then `train_update` on every AVX2 convolutional block, each once, in both cases with
this very example, and the update with the feedback computed from the votes of all blocks. No block is left out. -/
theorem C16_avx2_conv_every_block_learns (smp : List Rat → Rat → Nat) (e : Exec (VConvBlock)) (x : Mem) (label : Nat) :
    (Exec.trainOne avxConvBackend smp e x label).blocks = e.blocks.map fun b =>
      (b.apply (.trainExample x)).apply (.trainUpdate x (Exec.trainOne avxConvBackend smp e x label).fb.feedback) := by
  simp [Exec.trainOne, exampleLoop_blocks, avxConvBackend]

/-- C16: one training example runs `train_example` and then `train_update` on every NEON block, each once, in both cases with
this very example, and the update with the feedback computed from the votes of all blocks. No block is left out. -/
theorem C16_neon_every_block_learns (smp : List Rat → Rat → Nat) (e : Exec (Option NBlock)) (x : Mem) (label : Nat) :
    (Exec.trainOne neonBackend smp e x label).blocks = e.blocks.map fun b =>
      (b.bind (·.apply (.trainExample x))).bind (·.apply (.trainUpdate x (Exec.trainOne neonBackend smp e x label).fb.feedback)) := by
  simp [Exec.trainOne, exampleLoop_blocks, neonBackend]

/-- C18 for the convolutional executor: a call of `eval_predict` changes nothing that was learned, no active patch, no
stored literal count, no random stream, no configuration, no training counter; later training does exactly what it would
have done without it; and a wrong output length changes nothing at all. -/
theorem C18_conv_eval_invisible (m np n : Nat) (smp : List Rat → Rat → Nat) (e : Exec ConvBlock) (ys : List (List Nat))
    (outLen : Nat) (h : Ready n (ConvBlockOK m np n) e) :
    (Exec.evalPredict convBackend ys outLen e).1.blocks.map (fun b =>
        (b.cfg, b.counts, b.fast, b.rng, b.clauses.map fun c => (learned c.base, c.base.cnt, c.patch))) =
      e.blocks.map (fun b =>
        (b.cfg, b.counts, b.fast, b.rng, b.clauses.map fun c => (learned c.base, c.base.cnt, c.patch))) ∧
    (Exec.evalPredict convBackend ys outLen e).1.index = e.index ∧
    (∃ votes, (Exec.evalPredict convBackend ys outLen e).1.fb = { e.fb with votes := votes }) ∧
    (∀ d ds, trainAll convBackend smp (d :: ds) (Exec.evalPredict convBackend ys outLen e).1 =
      trainAll convBackend smp (d :: ds) e) ∧
    (outLen ≠ ys.length → Exec.evalPredict convBackend ys outLen e = (e, none)) :=
  eval_invisible_of (CE.conv_keeps m np n) (CE.conv_scratch _ fun b y h => ((CE.conv_keeps m np n).eval b y h).1) _
    (fun b y _ => by simp only [convBackend, ConvBlock.apply, List.map_map]; rfl) smp e ys outLen h

/-! Two blocks for two patches of three literals and two classes; the second holds a clause with other weights. -/

def exConvExec : Exec ConvBlock :=
  ⟨FB.new 2 5 exRng,
    [⟨3, 2, 2, exConvCfg, [⟨⟨[5, -1, -1], [-1, -1, -1], [1, -2], 0, 0⟩, 7⟩], fun _ => 9, [0, 0], exRng, exRng⟩,
     ⟨3, 2, 2, exConvCfg, [⟨⟨[-1, 5, 5], [-1, -1, -1], [-4, 3], 0, 0⟩, 0⟩], fun _ => 0, [7, 7], exRng, exRng⟩], []⟩

/-- The same clauses in one block, in the other order, with other scratch data. -/
def exConvExec' : Exec ConvBlock :=
  ⟨FB.new 2 5 exRng,
    [⟨3, 2, 2, exConvCfg, [⟨⟨[-1, 5, 5], [-1, -1, -1], [-4, 3], 1, 4⟩, 1⟩, ⟨⟨[5, -1, -1], [-1, -1, -1], [1, -2], 1, 1⟩, 0⟩],
      fun _ => 1, [5, 5], exRng, exRng⟩], []⟩

example : Ready 2 (ConvBlockOK 3 2 2) exConvExec ∧ Ready 2 (ConvBlockOK 3 2 2) exConvExec' ∧
    (convModel exConvExec).Perm (convModel exConvExec') := by
  refine ⟨⟨by decide, rfl, rfl, ?_⟩, ⟨by decide, rfl, rfl, ?_⟩, ?_⟩
  · simp [exConvExec, ConvBlockOK, Shaped]
  · simp [exConvExec', ConvBlockOK, Shaped]
  · simp only [convModel, exConvExec, exConvExec', learned, List.flatMap_cons, List.flatMap_nil, List.map_cons, List.map_nil,
      List.append_nil, List.cons_append, List.nil_append]
    exact List.Perm.swap _ _ _

example : (Exec.evalPredict convBackend [[1, 0, 0, 0, 0, 1], [0, 1, 0, 0, 1, 1], [1, 1, 1, 0, 0, 0]] 3 exConvExec).2 =
    some [0, 1, 1] := by decide +kernel
example : (Exec.evalPredict convBackend [[1, 0, 0, 0, 0, 1], [0, 1, 0, 0, 1, 1], [1, 1, 1, 0, 0, 0]] 3 exConvExec').2 =
    some [0, 1, 1] := by decide +kernel

/-! ### Convolutional blocks, AVX2 backend -/

/-- C17 for the convolutional executor of the AVX2 backend, as `C17_conv_batch_predictions`, provided its reads of the
literals succeed (C76); whatever the padding lanes hold. -/
theorem C17_avx2_conv_batch_predictions (m np n : Nat) (e : Exec VConvBlock) (data : List Mem)
    (h : Ready n (AvxConvBlockOK m np n) e) (hx : ∀ x ∈ data, Binary (unpadExample (np * m) x)) :
    ∃ ks, (Exec.evalPredict avxConvBackend data data.length e).2 = some ks ∧ ks.length = data.length ∧
      ∀ (i : Nat) (x : Mem) (k : Nat), data[i]? = some x → ks[i]? = some k →
        LowestMax (convModelVotes m np n (avxConvModel e) (unpadExample (np * m) x)) k := by
  obtain ⟨ks, h1, h2, h3⟩ := predictions_of (be := avxConvBackend) (CE.avxConv_keeps m np n).eval
    (fun x => Binary (unpadExample (np * m) x))
    (fun b x k => convFiringSum m np (b.clauses.map fun c => learned (unpad b.cfg.nLits c.base)) (unpadExample (np * m) x) k)
    (fun b x k hb hx hk => CE.avxConv_block_votes m np n b x k hb hx hk)
    (fun b y _ => by simp only [avxConvBackend, VConvBlock.apply, List.map_map]; rfl) data hx e h
  refine ⟨ks, h1, h2, fun i x k hi hk => ?_⟩
  have := h3 i x k hi hk
  simp only [CE.convFiringSum_flat] at this
  exact this

/-- C14: an AVX2 convolutional executor predicts what a portable one with the same clauses predicts, however either
splits and orders them. -/
theorem C14_conv_backend_invariance (m np n : Nat) (e : Exec VConvBlock) (e' : Exec ConvBlock) (data : List Mem)
    (h : Ready n (AvxConvBlockOK m np n) e) (h' : Ready n (ConvBlockOK m np n) e')
    (hp : (avxConvModel e).Perm (convModel e')) (hx : ∀ x ∈ data, Binary (unpadExample (np * m) x)) :
    (Exec.evalPredict avxConvBackend data data.length e).2 =
      (Exec.evalPredict convBackend (data.map (unpadExample (np * m))) data.length e').2 := by
  obtain ⟨ks, a1, a2, a3⟩ := C17_avx2_conv_batch_predictions m np n e data h hx
  obtain ⟨ks', b1, b2, b3⟩ := C17_conv_batch_predictions m np n e' (data.map (unpadExample (np * m))) h' (by
    intro x hx'
    obtain ⟨y, hy, rfl⟩ := List.mem_map.mp hx'
    exact ⟨hx y hy, by simp [unpadExample]⟩)
  rw [List.length_map] at b1 b2
  rw [a1, b1]
  congr 1
  refine same_predictions (v' := fun x => convModelVotes m np n (convModel e') (unpadExample (np * m) x)) a2 b2 a3 ?_ ?_
  · intro i x k hi hk
    exact b3 i (unpadExample (np * m) x) k (by simp [hi]) hk
  · intro x _
    unfold convModelVotes
    exact List.map_congr_left fun k _ => by rw [CE.convFiringSum_perm m np hp]

/-- C18 for the convolutional executor of the AVX2 backend, as `C18_conv_eval_invisible`. -/
theorem C18_avx2_conv_eval_invisible (m np n : Nat) (smp : List Rat → Rat → Nat) (e : Exec VConvBlock) (ys : List Mem)
    (outLen : Nat) (h : Ready n (AvxConvBlockOK m np n) e) :
    (Exec.evalPredict avxConvBackend ys outLen e).1.blocks.map (fun b =>
        (b.cfg, b.counts, b.fast, b.rng, b.vrng, b.clauses.map fun c => (c.base.row, c.base.w, c.base.cnt, c.patch))) =
      e.blocks.map (fun b =>
        (b.cfg, b.counts, b.fast, b.rng, b.vrng, b.clauses.map fun c => (c.base.row, c.base.w, c.base.cnt, c.patch))) ∧
    (Exec.evalPredict avxConvBackend ys outLen e).1.index = e.index ∧
    (∃ votes, (Exec.evalPredict avxConvBackend ys outLen e).1.fb = { e.fb with votes := votes }) ∧
    (∀ d ds, trainAll avxConvBackend smp (d :: ds) (Exec.evalPredict avxConvBackend ys outLen e).1 =
      trainAll avxConvBackend smp (d :: ds) e) ∧
    (outLen ≠ ys.length → Exec.evalPredict avxConvBackend ys outLen e = (e, none)) :=
  eval_invisible_of (CE.avxConv_keeps m np n) (CE.avxConv_scratch _ fun b y h => ((CE.avxConv_keeps m np n).eval b y h).1) _
    (fun b y _ => by simp only [avxConvBackend, VConvBlock.apply, List.map_map]; rfl) smp e ys outLen h

/-! The clauses of `exConvExec` in one AVX2 block, the padding lanes holding other values. -/

def exVConvRow (p q : Nat) : Mem := fun a => if a = p ∨ a = q then 5#8 else if a < 3 ∨ (32 ≤ a ∧ a < 35) then 0xFF#8 else 77#8
def exVConvExec : Exec VConvBlock :=
  ⟨FB.new 2 5 exRng,
    [⟨2, 2, ⟨3, some 1, false, 0x80#8⟩, [⟨⟨exVConvRow 0 0, [1, -2], 0, 0⟩, 7⟩, ⟨⟨exVConvRow 1 2, [-4, 3], 0, 0⟩, 0⟩], fun _ => 9,
      [0, 0], exRng, exRng, ⟨fun _ _ => 0#8, 0⟩⟩], []⟩

example : Ready 2 (AvxConvBlockOK 3 2 2) exVConvExec ∧ (avxConvModel exVConvExec).Perm (convModel exConvExec) := by
  refine ⟨⟨by decide, rfl, rfl, ?_⟩, ?_⟩
  · simp [exVConvExec, AvxConvBlockOK]
  · have : avxConvModel exVConvExec = convModel exConvExec := by decide +kernel
    rw [this]

/-! ### NEON blocks -/

/-- C17 for the NEON executor, history independence: two executors whose blocks hold the same rows and weights in the
same order make the same prediction for an example, whatever came before, whatever else is in the batches, and whatever
their scratch data, random streams and budgets. -/
theorem C17_neon_history_independent (m n : Nat) (e e' : Exec (Option NBlock)) (data data' : List Mem)
    (h : Ready n (NeonBlockOK m n) e) (h' : Ready n (NeonBlockOK m n) e')
    (hr : e.blocks.map neonRows = e'.blocks.map neonRows) :
    ∃ ks ks', (Exec.evalPredict neonBackend data data.length e).2 = some ks ∧ ks.length = data.length ∧
      (Exec.evalPredict neonBackend data' data'.length e').2 = some ks' ∧ ks'.length = data'.length ∧
      ∀ (i j : Nat) (x : Mem), data[i]? = some x → data'[j]? = some x → ks[i]? = ks'[j]? := by
  obtain ⟨ks, a1, a2, a3⟩ := predictions_of (be := neonBackend) (CE.neon_keepsEval m n) (fun _ => True) CE.neonSum
    (fun b x k hb _ hk => CE.neon_block_votes m n b x k hb hk) (fun b y _ => CE.neonSum_eval b y) data (fun _ _ => trivial) e h
  obtain ⟨ks', b1, b2, b3⟩ := predictions_of (be := neonBackend) (CE.neon_keepsEval m n) (fun _ => True) CE.neonSum
    (fun b x k hb _ hk => CE.neon_block_votes m n b x k hb hk) (fun b y _ => CE.neonSum_eval b y) data' (fun _ _ => trivial) e' h'
  refine ⟨ks, ks', a1, a2, b1, b2, ?_⟩
  intro i j x hi hj
  have hsum : ∀ k, e.blocks.map (CE.neonSum · x k) = e'.blocks.map (CE.neonSum · x k) := by
    intro k
    have hb := h.blocks
    have hb' := h'.blocks
    revert hr hb hb'
    generalize e.blocks = bs
    generalize e'.blocks = bs'
    intro hr hb hb'
    induction bs generalizing bs' with
    | nil => rw [Fresh.map_eq_nil hr]
    | cons b bs ih =>
      cases bs' with
      | nil => simp at hr
      | cons b' bs' =>
        simp only [List.map_cons, List.cons.injEq] at hr ⊢
        refine ⟨?_, ih bs' hr.2 (fun c hc => hb c (by simp [hc])) (fun c hc => hb' c (by simp [hc]))⟩
        rw [CE.neonSum_congr m n b b' (hb b (by simp)) (hb' b' (by simp)) hr.1]
  have hi' : i < ks.length := by
    have := (List.getElem?_eq_some_iff.mp hi).1
    omega
  have hj' : j < ks'.length := by
    have := (List.getElem?_eq_some_iff.mp hj).1
    omega
  have hA := a3 i x ks[i] hi (List.getElem?_eq_getElem hi')
  have hB := b3 j x ks'[j] hj (List.getElem?_eq_getElem hj')
  simp only [hsum] at hA
  rw [List.getElem?_eq_getElem hi', List.getElem?_eq_getElem hj', lowestMax_unique hA hB]

/-- C17 for the NEON executor, more than the property asks, for machines without an empty clause: the prediction is the
lowest-numbered class with the most votes, where the votes are those of the clauses that hold. (With an empty clause this
is false, see C42 and `C14_neon_split_matters`.) -/
theorem C17_neon_votes_without_empty_clauses (m n : Nat) (e : Exec (Option NBlock)) (data : List Mem)
    (h : Ready n (NeonBlockOK m n) e) (hne : ∀ c ∈ neonModel e, ¬ EmptyClause c.1 c.2.1)
    (hx : ∀ x ∈ data, Binary (unpadExample m x)) :
    ∃ ks, (Exec.evalPredict neonBackend data data.length e).2 = some ks ∧ ks.length = data.length ∧
      ∀ (i : Nat) (x : Mem) (k : Nat), data[i]? = some x → ks[i]? = some k →
        LowestMax (modelVotes n (neonModel e) (unpadExample m x)) k := by
  have h' : Ready n (fun b => NeonBlockOK m n b ∧ CE.NonEmptyNeon m b) e := by
    refine ⟨h.classes, h.fbClasses, h.fbVotes, fun b hb => ⟨h.blocks b hb, ?_⟩⟩
    obtain ⟨d, rfl, -, hl, -, -⟩ := h.blocks b hb
    intro d' hd' c hc
    obtain rfl := Option.some.inj hd'
    refine hne (learned (neonUnpad m c)) ?_
    refine List.mem_flatMap.mpr ⟨some d, hb, ?_⟩
    simp only [Option.map_some, Option.getD_some, hl]
    exact List.mem_map_of_mem hc
  obtain ⟨ks, h1, h2, h3⟩ := predictions_of (be := neonBackend) (CE.nonEmpty_eval m n) (fun x => Binary (unpadExample m x))
    CE.neonSum (fun b x k hb _ hk => CE.neon_block_votes m n b x k hb.1 hk) (fun b y _ => CE.neonSum_eval b y) data hx e h'
  refine ⟨ks, h1, h2, fun i x k hi hk => ?_⟩
  have hx' := hx x (List.mem_of_getElem? hi)
  have := h3 i x k hi hk
  have e1 : ∀ k, e.blocks.map (CE.neonSum · x k) = e.blocks.map fun b => firingSum
      ((b.map fun b => b.clauses.map fun c => learned (neonUnpad b.cfg.nLits c)).getD []) (unpadExample m x) k := by
    intro k
    exact List.map_congr_left fun b hb =>
      CE.neonSum_nonEmpty m n b x k (h'.blocks b hb).1 (h'.blocks b hb).2 hx'
  simp only [e1, CE.firingSum_flat] at this
  exact this

/-- C14 for the NEON executor, for machines without an empty clause. -/
theorem C14_neon_block_split_invariance_partial (m n : Nat) (e e' : Exec (Option NBlock)) (data : List Mem)
    (h : Ready n (NeonBlockOK m n) e) (h' : Ready n (NeonBlockOK m n) e')
    (hne : ∀ c ∈ neonModel e, ¬ EmptyClause c.1 c.2.1) (hp : (neonModel e).Perm (neonModel e'))
    (hx : ∀ x ∈ data, Binary (unpadExample m x)) :
    (Exec.evalPredict neonBackend data data.length e).2 = (Exec.evalPredict neonBackend data data.length e').2 := by
  obtain ⟨ks, a1, a2, a3⟩ := C17_neon_votes_without_empty_clauses m n e data h hne hx
  obtain ⟨ks', b1, b2, b3⟩ := C17_neon_votes_without_empty_clauses m n e' data h'
    (fun c hc => hne c (hp.mem_iff.mpr hc)) hx
  rw [a1, b1, same_predictions a2 b2 a3 b3]
  intro x _
  unfold modelVotes
  exact List.map_congr_left fun k _ => by rw [firingSum_perm hp]

/-- Executors over NEON blocks with the given clauses, for three literals and two classes. -/
def exNExec (bs : List (List VClause)) : Exec (Option NBlock) :=
  ⟨FB.new 2 5 exRng, bs.map fun cs => some (exNBlock cs (some 5)), []⟩

/-- An empty clause with a large vote for class 1. -/
def exNLoud : VClause := ⟨exNEmpty.row, [0, 9], 1, 0⟩

/-- C14 is false for NEON blocks when there is an empty clause: the same two clauses predict class 1 in one block, and
class 0 when each has its own block, or when they change places. -/
theorem C14_neon_split_matters :
    Ready 2 (NeonBlockOK 3 2) (exNExec [[exNClause, exNLoud]]) ∧
    Ready 2 (NeonBlockOK 3 2) (exNExec [[exNClause], [exNLoud]]) ∧
    Ready 2 (NeonBlockOK 3 2) (exNExec [[exNLoud, exNClause]]) ∧
    neonModel (exNExec [[exNClause, exNLoud]]) = neonModel (exNExec [[exNClause], [exNLoud]]) ∧
    (neonModel (exNExec [[exNClause, exNLoud]])).Perm (neonModel (exNExec [[exNLoud, exNClause]])) ∧
    Binary (unpadExample 3 exLits) ∧
    (Exec.evalPredict neonBackend [exLits] 1 (exNExec [[exNClause, exNLoud]])).2 = some [1] ∧
    (Exec.evalPredict neonBackend [exLits] 1 (exNExec [[exNClause], [exNLoud]])).2 = some [0] ∧
    (Exec.evalPredict neonBackend [exLits] 1 (exNExec [[exNLoud, exNClause]])).2 = some [0] := by
  have hok : ∀ cs : List VClause, (∀ c ∈ cs, c.w.length = 2) → NeonBlockOK 3 2 (some (exNBlock cs (some 5))) :=
    fun cs h => ⟨_, rfl, by decide, rfl, rfl, h⟩
  refine ⟨⟨by decide, rfl, rfl, ?_⟩, ⟨by decide, rfl, rfl, ?_⟩, ⟨by decide, rfl, rfl, ?_⟩, rfl, ?_, by decide +kernel,
    by decide +kernel, by decide +kernel, by decide +kernel⟩
  · intro b hb
    simp only [exNExec, List.map_cons, List.map_nil, List.mem_cons, List.not_mem_nil, or_false] at hb
    subst hb
    exact hok _ (by simp [exNClause, exNLoud])
  · intro b hb
    simp only [exNExec, List.map_cons, List.map_nil, List.mem_cons, List.not_mem_nil, or_false] at hb
    rcases hb with rfl | rfl
    · exact hok _ (by simp [exNClause])
    · exact hok _ (by simp [exNLoud])
  · intro b hb
    simp only [exNExec, List.map_cons, List.map_nil, List.mem_cons, List.not_mem_nil, or_false] at hb
    subst hb
    exact hok _ (by simp [exNClause, exNLoud])
  · exact List.Perm.swap _ _ _

example : ∀ c ∈ neonModel (exNExec [[exNClause], [exNClause]]), ¬ EmptyClause c.1 c.2.1 := by
  intro c hc
  have : c = learned (neonUnpad 3 exNClause) := by
    simpa [neonModel, exNExec, exNBlock] using hc
  subst this
  intro h
  exact h.1 0 ⟨5, by decide +kernel, by decide⟩

/-- C15 for NEON blocks with a literal budget: multi-threaded training and evaluation end as the single-threaded ones do.
(Without a budget training crashes, `C42_train_without_budget_crashes`.) -/
theorem C15_neon_schedule_independent (m n : Nat) (smp : List Rat → Rat → Nat) (e e' : Exec (Option NBlock))
    (h : Ready n (NeonBudgetOK m n) e) :
    (∀ ds, TrainMT neonBackend smp ds e e' ↔ e' = trainAll neonBackend smp ds e) ∧
    (∀ xs ks, EvalMT neonBackend xs e e' ks ↔ (e', ks) = Exec.evalLoop neonBackend xs e) :=
  ⟨fun ds => trainMT_iff (CE.neon_keeps m n) smp ds e e' h, fun xs ks => evalMT_iff (CE.neon_keeps m n) xs e e' ks h⟩

/-- C15: evaluation on NEON blocks, with or without a budget. -/
theorem C15_neon_evaluation_schedule_independent (m n : Nat) (e e' : Exec (Option NBlock)) (xs : List Mem) (ks : List Nat)
    (h : Ready n (NeonBlockOK m n) e) : EvalMT neonBackend xs e e' ks ↔ (e', ks) = Exec.evalLoop neonBackend xs e := by
  rw [← evalMT_evalOnly, ← evalLoop_evalOnly]
  exact evalMT_iff (keeps_evalOnly (CE.neon_keepsEval m n)) xs e e' ks h

/-- C18 for the NEON executor with a literal budget, as `C18_conv_eval_invisible`. -/
theorem C18_neon_eval_invisible (m n : Nat) (smp : List Rat → Rat → Nat) (e : Exec (Option NBlock)) (ys : List Mem)
    (outLen : Nat) (h : Ready n (NeonBudgetOK m n) e) :
    (Exec.evalPredict neonBackend ys outLen e).1.blocks.map (Option.map fun b =>
        (b.cfg, b.fast, b.vrng, b.clauses.map fun c => (c.row, c.w, c.cnt))) =
      e.blocks.map (Option.map fun b => (b.cfg, b.fast, b.vrng, b.clauses.map fun c => (c.row, c.w, c.cnt))) ∧
    (Exec.evalPredict neonBackend ys outLen e).1.index = e.index ∧
    (∃ votes, (Exec.evalPredict neonBackend ys outLen e).1.fb = { e.fb with votes := votes }) ∧
    (∀ d ds, trainAll neonBackend smp (d :: ds) (Exec.evalPredict neonBackend ys outLen e).1 =
      trainAll neonBackend smp (d :: ds) e) ∧
    (outLen ≠ ys.length → Exec.evalPredict neonBackend ys outLen e = (e, none)) :=
  eval_invisible_of (CE.neon_keeps m n) (CE.neon_scratch m n) _
    (fun b y _ => by
      cases b with
      | none => rfl
      | some d => simp only [neonBackend, NBlock.apply, Option.bind_some, Option.map_some, CE.neonEvals_rows]) smp e ys outLen h

example : Ready 2 (NeonBudgetOK 3 2) (exNExec [[exNClause], [exNLoud]]) := by
  refine ⟨by decide, rfl, rfl, ?_⟩
  intro b hb
  simp only [exNExec, List.map_cons, List.map_nil, List.mem_cons, List.not_mem_nil, or_false] at hb
  rcases hb with rfl | rfl
  · exact ⟨⟨_, rfl, by decide, rfl, rfl, by simp [exNBlock, exNClause]⟩, by rintro d ⟨⟩; simp [exNBlock]⟩
  · exact ⟨⟨_, rfl, by decide, rfl, rfl, by simp [exNBlock, exNLoud]⟩, by rintro d ⟨⟩; simp [exNBlock]⟩

end GT

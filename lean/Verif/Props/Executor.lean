import Verif.Lemmas.ExecutorDense

/-!
# Properties of the executor (C14 - C18)
-/

namespace GT
open Spec

/-! A concrete executor with two blocks, two literals and two classes. -/

def exBlock1 : DBlock :=
  ⟨2, 2, exCfg, [⟨[5, -3], [-2, 0], [4, -1], 0, 0⟩], [0, 0], exRng, exRng⟩
def exBlock2 : DBlock :=
  ⟨2, 2, exCfg, [⟨[-5, -3], [-2, -7], [4, 9], 0, 0⟩, ⟨[0, -1], [-1, -1], [-2, 3], 0, 0⟩], [0, 0], exRng, exRng⟩
def exFB : FB := FB.new 2 5 exRng
def exExec : Exec DBlock := ⟨exFB, [exBlock1, exBlock2], []⟩
/-- The same clauses in one block, in another order. -/
def exExec' : Exec DBlock :=
  ⟨exFB, [⟨2, 2, exCfg, [⟨[-5, -3], [-2, -7], [4, 9], 1, 3⟩, ⟨[5, -3], [-2, 0], [4, -1], 1, 0⟩,
    ⟨[0, -1], [-1, -1], [-2, 3], 0, 0⟩], [7, 7], exRng, exRng⟩], []⟩

theorem exExec_setUp : SetUp 2 2 exExec ∧ SetUp 2 2 exExec' := by
  constructor
  · refine ⟨by decide, rfl, rfl, ?_⟩
    simp [exExec, exBlock1, exBlock2, Shaped]
  · refine ⟨by decide, rfl, rfl, ?_⟩
    simp [exExec', Shaped]

/-! ## C17 -/

/-- C17: in a batch of any length, the prediction for every example is the lowest-numbered class with the
most votes, where the votes are those the learned clauses give to this very example. The other examples of
the batch, earlier calls and left-over outputs, counts and votes play no role. -/
theorem C17_batch_predictions (m n : Nat) (e : Exec DBlock) (data : List (List Nat)) (h : SetUp m n e)
    (hx : ∀ x ∈ data, Binary x ∧ x.length = m) :
    ∃ ks, (Exec.evalPredict denseBackend data data.length e).2 = some ks ∧ ks.length = data.length ∧
      ∀ (i : Nat) (x : List Nat) (k : Nat), data[i]? = some x → ks[i]? = some k →
        LowestMax (modelVotes n (model e) x) k := by
  suffices hs : (Exec.evalLoop denseBackend data e).2.length = data.length ∧
      ∀ (i : Nat) (x : List Nat) (k : Nat), data[i]? = some x →
        (Exec.evalLoop denseBackend data e).2[i]? = some k → LowestMax (modelVotes n (model e) x) k by
    exact ⟨_, by simp [Exec.evalPredict], hs.1, hs.2⟩
  induction data generalizing e with
  | nil => exact ⟨rfl, by intro i x k h; simp at h⟩
  | cons y data ih =>
    obtain ⟨hb, hm⟩ := hx y (by simp)
    obtain ⟨a, b⟩ := ih (e.evalOne denseBackend y).1 (dense_eval_setUp e y h)
      (fun x hx' => hx x (by simp [hx']))
    rw [dense_eval_model] at b
    refine ⟨by simp [Exec.evalLoop, a], ?_⟩
    intro i x k hi hk
    cases i with
    | zero =>
      simp [Exec.evalLoop] at hi hk
      subst hi hk
      have hv := dense_eval_votes e y h hb hm
      rw [← hv]
      have : (e.evalOne denseBackend y).2 = (e.evalOne denseBackend y).1.fb.predict := rfl
      rw [this]
      apply predict_lowestMax
      intro h0
      rw [hv] at h0
      have := h.classes
      simp [modelVotes] at h0
      omega
    | succ i =>
      simp [Exec.evalLoop] at hi hk
      exact b i x k hi hk

example : ∀ x ∈ [[1, 0], [0, 1], [0, 0]], Binary x ∧ x.length = 2 := by
  intro x hx
  simp at hx
  rcases hx with rfl | rfl | rfl <;> simp [Binary]

example : (Exec.evalPredict denseBackend [[1, 0], [0, 1], [0, 0]] 3 exExec).2 = some [0, 0, 0] := by decide +kernel

/-- C17 for the AVX2 executor: the same specification, read off the unpadded states. -/
theorem C17_avx2_batch_predictions (m n : Nat) (e : Exec VBlock) (data : List Mem) (h : AvxSetUp m n e)
    (hx : ∀ x ∈ data, Binary (unpadExample m x)) :
    ∃ ks, (Exec.evalPredict avxBackend data data.length e).2 = some ks ∧ ks.length = data.length ∧
      ∀ (i : Nat) (x : Mem) (k : Nat), data[i]? = some x → ks[i]? = some k →
        LowestMax (modelVotes n (avxModel e) (unpadExample m x)) k := by
  suffices hs : (Exec.evalLoop avxBackend data e).2.length = data.length ∧
      ∀ (i : Nat) (x : Mem) (k : Nat), data[i]? = some x →
        (Exec.evalLoop avxBackend data e).2[i]? = some k →
        LowestMax (modelVotes n (avxModel e) (unpadExample m x)) k by
    exact ⟨_, by simp [Exec.evalPredict], hs.1, hs.2⟩
  induction data generalizing e with
  | nil => exact ⟨rfl, by intro i x k h; simp at h⟩
  | cons y data ih =>
    have hb := hx y (by simp)
    obtain ⟨a, b⟩ := ih (e.evalOne avxBackend y).1 (avx_eval_setUp e y h)
      (fun x hx' => hx x (by simp [hx']))
    rw [avx_eval_model e y h] at b
    refine ⟨by simp [Exec.evalLoop, a], ?_⟩
    intro i x k hi hk
    cases i with
    | zero =>
      simp [Exec.evalLoop] at hi hk
      subst hi hk
      have hv := avx_eval_votes e y h hb
      rw [← hv]
      have : (e.evalOne avxBackend y).2 = (e.evalOne avxBackend y).1.fb.predict := rfl
      rw [this]
      apply predict_lowestMax
      intro h0
      rw [hv] at h0
      have := h.classes
      simp [modelVotes] at h0
      omega
    | succ i =>
      simp [Exec.evalLoop] at hi hk
      exact b i x k hi hk

/-- An AVX2 executor with one block of three literals and two classes. -/
def exAvxExec : Exec VBlock :=
  ⟨exFB, [⟨2, { nLits := 3, budget := none, boost := false, cmpS := 0 },
    [⟨fun a => if a = 0 then 0 else 0xFF#8, [3, -1], 0, 0⟩], [0, 0], exRng, ⟨fun _ _ => 0, 0⟩⟩], []⟩

example : AvxSetUp 3 2 exAvxExec ∧ Binary (unpadExample 3 (fun a => if a = 1 then 1#8 else 0#8)) := by
  refine ⟨⟨by decide, by decide, rfl, rfl, ?_⟩, by decide⟩
  simp [exAvxExec]

/-! ## C14 -/

/-- C14: predictions do not depend on how the clauses are split into blocks or in which order they and the
blocks come, nor on the backend's scratch data, configuration, random streams or threads. -/
theorem C14_block_split_invariance (m n : Nat) (e e' : Exec DBlock) (data : List (List Nat))
    (h : SetUp m n e) (h' : SetUp m n e') (hp : (model e).Perm (model e'))
    (hx : ∀ x ∈ data, Binary x ∧ x.length = m) :
    (Exec.evalPredict denseBackend data data.length e).2 =
      (Exec.evalPredict denseBackend data data.length e').2 := by
  obtain ⟨ks, a1, a2, a3⟩ := C17_batch_predictions m n e data h hx
  obtain ⟨ks', b1, b2, b3⟩ := C17_batch_predictions m n e' data h' hx
  rw [a1, b1]
  congr 1
  apply List.ext_getElem (a2.trans b2.symm)
  intro i h1 h2
  have hi : i < data.length := by omega
  have hv : modelVotes n (model e) data[i] = modelVotes n (model e') data[i] := by
    unfold modelVotes
    apply List.map_congr_left
    intro k _
    rw [firingSum_perm hp]
  have hA := a3 i data[i] ks[i] (List.getElem?_eq_getElem hi) (List.getElem?_eq_getElem h1)
  have hB := b3 i data[i] ks'[i] (List.getElem?_eq_getElem hi) (List.getElem?_eq_getElem h2)
  rw [hv] at hA
  exact lowestMax_unique hA hB

example : (model exExec).Perm (model exExec') := by
  simp only [model, exExec, exExec', exBlock1, exBlock2, List.flatMap_cons, List.flatMap_nil,
    List.append_nil, List.cons_append, List.nil_append, List.map_cons, List.map_nil, learned]
  exact List.Perm.swap _ _ _

/-- C14 across backends: an AVX2 executor and a portable executor that hold the same clauses, however
split and ordered, predict the same on the same examples. -/
theorem C14_backend_invariance (m n : Nat) (e : Exec VBlock) (e' : Exec DBlock) (data : List Mem)
    (h : AvxSetUp m n e) (h' : SetUp m n e') (hp : (avxModel e).Perm (model e'))
    (hx : ∀ x ∈ data, Binary (unpadExample m x)) :
    (Exec.evalPredict avxBackend data data.length e).2 =
      (Exec.evalPredict denseBackend (data.map (unpadExample m)) data.length e').2 := by
  obtain ⟨ks, a1, a2, a3⟩ := C17_avx2_batch_predictions m n e data h hx
  obtain ⟨ks', b1, b2, b3⟩ := C17_batch_predictions m n e' (data.map (unpadExample m)) h' (by
    intro x hx'
    obtain ⟨y, hy, rfl⟩ := List.mem_map.mp hx'
    exact ⟨hx y hy, by simp [unpadExample]⟩)
  rw [List.length_map] at b1 b2
  rw [a1, b1]
  congr 1
  apply List.ext_getElem (a2.trans b2.symm)
  intro i h1 h2
  have hi : i < data.length := by omega
  have hv : modelVotes n (avxModel e) (unpadExample m data[i]) =
      modelVotes n (model e') (unpadExample m data[i]) := by
    unfold modelVotes
    apply List.map_congr_left
    intro k _
    rw [firingSum_perm hp]
  have hA := a3 i data[i] ks[i] (List.getElem?_eq_getElem hi) (List.getElem?_eq_getElem h1)
  have hB := b3 i (unpadExample m data[i]) ks'[i] (by simp [hi]) (List.getElem?_eq_getElem h2)
  rw [hv] at hA
  exact lowestMax_unique hA hB

/-! ## C18 -/

/-- C18: a call of `eval_predict` changes nothing that was learned, no random stream, no configuration, not
the training counters and not the example order; and with an output array of the wrong length it changes
nothing at all and gives no predictions. -/
theorem C18_eval_changes_nothing (e : Exec DBlock) (data : List (List Nat)) (outLen : Nat) :
    model (Exec.evalPredict denseBackend data outLen e).1 = model e ∧
    (Exec.evalPredict denseBackend data outLen e).1.index = e.index ∧
    (∃ votes, (Exec.evalPredict denseBackend data outLen e).1.fb = { e.fb with votes := votes }) ∧
    (Exec.evalPredict denseBackend data outLen e).1.blocks.map (fun b => (b.cfg, b.fast, b.rng)) =
      e.blocks.map (fun b => (b.cfg, b.fast, b.rng)) ∧
    (outLen ≠ data.length → Exec.evalPredict denseBackend data outLen e = (e, none)) := by
  suffices hs : ∀ (data : List (List Nat)) (e : Exec DBlock),
      model (Exec.evalLoop denseBackend data e).1 = model e ∧
      (Exec.evalLoop denseBackend data e).1.index = e.index ∧
      (∃ votes, (Exec.evalLoop denseBackend data e).1.fb = { e.fb with votes := votes }) ∧
      (Exec.evalLoop denseBackend data e).1.blocks.map (fun b => (b.cfg, b.fast, b.rng)) =
        e.blocks.map (fun b => (b.cfg, b.fast, b.rng)) by
    unfold Exec.evalPredict
    by_cases h : outLen = data.length
    · simp only [h, ne_eq, not_true, if_false]
      exact ⟨(hs data e).1, (hs data e).2.1, (hs data e).2.2.1, (hs data e).2.2.2, fun h => h.elim⟩
    · simp only [h, ne_eq, not_false_eq_true, if_true]
      exact ⟨trivial, trivial, ⟨e.fb.votes, rfl⟩, trivial, fun _ => trivial⟩
  clear data outLen e
  intro data
  induction data with
  | nil => intro e; exact ⟨rfl, rfl, ⟨e.fb.votes, rfl⟩, rfl⟩
  | cons y data ih =>
    intro e
    obtain ⟨a, b, ⟨v, c⟩, d⟩ := ih (e.evalOne denseBackend y).1
    refine ⟨a.trans (dense_eval_model e y), b, ⟨v, ?_⟩, d.trans ?_⟩
    · refine c.trans ?_
      have := exampleLoop_frame (denseBackend.evalExample · y) denseBackend.votes e.blocks e.fb.reset
      show { (exampleLoop (denseBackend.evalExample · y) denseBackend.votes e.blocks e.fb.reset).2 with
        votes := v } = _
      rw [this]
      rfl
    · simp only [Exec.evalOne, exampleLoop_blocks, List.map_map]
      rfl

/-- C18 seen from later training: evaluating any batch in between does not change what training on any
non-empty sequence of examples does, to the last bit of state. -/
theorem C18_eval_invisible_to_training (m n : Nat) (smp : List Rat → Rat → Nat) (e : Exec DBlock)
    (ys : List (List Nat)) (outLen : Nat) (d : List Nat × Nat) (ds : List (List Nat × Nat))
    (h : SetUp m n e) :
    trainAll denseBackend smp (d :: ds) (Exec.evalPredict denseBackend ys outLen e).1 =
      trainAll denseBackend smp (d :: ds) e := by
  have hs : ∀ (ys : List (List Nat)) (e : Exec DBlock), SetUp m n e →
      (Exec.evalLoop denseBackend ys e).1.trainOne denseBackend smp d.1 d.2 =
        e.trainOne denseBackend smp d.1 d.2 := by
    intro ys
    induction ys with
    | nil => intro e _; rfl
    | cons y ys ih =>
      intro e h
      exact (ih _ (dense_eval_setUp e y h)).trans
        (train_after_eval dense_scratch (dense_keeps n) smp e y d.1 d.2 (fun _ _ => trivial) (setUp_ready h))
  unfold Exec.evalPredict trainAll
  simp only [List.foldl_cons]
  split
  · rfl
  · rw [hs ys e h]

/-- C18 for the AVX2 executor. -/
theorem C18_avx2_eval_invisible_to_training (m n : Nat) (smp : List Rat → Rat → Nat) (e : Exec VBlock)
    (ys : List Mem) (outLen : Nat) (d : Mem × Nat) (ds : List (Mem × Nat)) (h : AvxSetUp m n e) :
    trainAll avxBackend smp (d :: ds) (Exec.evalPredict avxBackend ys outLen e).1 =
      trainAll avxBackend smp (d :: ds) e ∧
    avxModel (Exec.evalPredict avxBackend ys outLen e).1 = avxModel e := by
  have hs : ∀ (ys : List Mem) (e : Exec VBlock), AvxSetUp m n e →
      (Exec.evalLoop avxBackend ys e).1.trainOne avxBackend smp d.1 d.2 =
        e.trainOne avxBackend smp d.1 d.2 ∧
      avxModel (Exec.evalLoop avxBackend ys e).1 = avxModel e := by
    intro ys
    induction ys with
    | nil => intro e _; exact ⟨rfl, rfl⟩
    | cons y ys ih =>
      intro e h
      have hi := ih _ (avx_eval_setUp e y h)
      refine ⟨hi.1.trans (train_after_eval avx_scratch (avx_keeps n) smp e y d.1 d.2
        (fun b hb => ?_) (avxSetUp_ready h)), hi.2.trans (avx_eval_model e y h)⟩
      show 0 < b.cfg.nLits
      rw [(h.blocks b hb).2.1]
      exact h.lits
  unfold Exec.evalPredict trainAll
  simp only [List.foldl_cons]
  split
  · exact ⟨rfl, rfl⟩
  · simp only
    rw [(hs ys e h).1]
    exact ⟨rfl, (hs ys e h).2⟩

/-! ## C16 -/

/-- C16: one epoch trains on every example exactly once, in the shuffled order, and the reported accuracy is
the fraction of examples whose label was, when their turn came and before the update, the lowest-numbered
class with the most votes (0 without examples). `shuffle` may be any function that permutes the indices. -/
theorem C16_epoch {B E : Type} (be : Backend B E) (n : Nat) (P : B → Prop) (hk : Keeps be n P)
    (smp : List Rat → Rat → Nat) (shuffle : List Nat → List Nat) (data : List (E × Nat)) (e : Exec B)
    (hr : Ready n P e)
    (hs : (shuffle (List.range data.length)).Perm (List.range data.length)) :
    ∃ order : List (E × Nat), order.Perm data ∧
      (∀ i : Nat, order[i]? = (shuffle (List.range data.length))[i]?.bind (data[·]?)) ∧
      let e0 : Exec B := { e with fb := e.fb.resetCounter, index := shuffle (List.range data.length) }
      (Exec.trainEpoch be smp shuffle data e).1 = trainAll be smp order e0 ∧
      (Exec.trainEpoch be smp shuffle data e).2 =
        if data = [] then 0 else (hits be smp order e0 : Rat) / data.length := by
  have hlen : (shuffle (List.range data.length)).length = data.length := by simpa using hs.length_eq
  have hmem : ∀ i ∈ shuffle (List.range data.length), i < data.length := by
    intro i hi
    simpa using hs.subset hi
  refine ⟨(shuffle (List.range data.length)).filterMap (fun i => data[i]?), ?_, ?_, ?_⟩
  · have := hs.filterMap (fun i => data[i]?)
    rwa [filterMap_range] at this
  · revert hmem
    generalize shuffle (List.range data.length) = l
    intro hmem i
    induction l generalizing i with
    | nil => rfl
    | cons a l ih =>
      have ha := hmem a (by simp)
      have ih := ih (fun i hi => hmem i (by simp [hi]))
      rw [List.filterMap_cons, List.getElem?_eq_getElem ha]
      cases i with
      | zero => simp [ha]
      | succ i => simpa using ih i
  · dsimp only
    have he : (Exec.trainEpoch be smp shuffle data e).1 =
        trainAll be smp ((shuffle (List.range data.length)).filterMap (fun i => data[i]?))
          { e with fb := e.fb.resetCounter, index := shuffle (List.range data.length) } := by
      unfold Exec.trainEpoch Exec.trainSlice
      dsimp only
      rw [trainIndices_eq]
      simp only [if_true, List.drop_zero]
      rw [List.take_of_length_le (Nat.le_of_eq hlen)]
    refine ⟨he, ?_⟩
    have hc := trainAll_counts hk smp ((shuffle (List.range data.length)).filterMap (fun i => data[i]?))
      { e with fb := e.fb.resetCounter, index := shuffle (List.range data.length) }
      ⟨hr.classes, hr.fbClasses, hr.fbVotes, hr.blocks⟩
    have hl2 : ((shuffle (List.range data.length)).filterMap (fun i => data[i]?)).length = data.length := by
      have := (hs.filterMap (fun i => data[i]?)).length_eq
      rwa [filterMap_range] at this
    rw [hl2] at hc
    show (Exec.trainEpoch be smp shuffle data e).1.fb.accuracy = _
    rw [he]
    unfold FB.accuracy
    rw [hc.1, hc.2]
    simp only [FB.resetCounter, Nat.zero_add]
    cases data with
    | nil => simp
    | cons d ds => simp

example : Ready 2 (DenseBlockOK 2) exExec := setUp_ready exExec_setUp.1

/-- C16, what the accuracy counts: when an example's turn comes, the votes its label is compared with are the sums of the weights of
the clauses that hold on it, over all blocks, in the state the clauses have at that moment. -/
theorem C16_training_votes (m n : Nat) (e : Exec DBlock) (x : List Nat) (h : SetUp m n e) (hx : Binary x) (hm : x.length = m) :
    trainVotes denseBackend e x = trainingVotes n (model e) x := dense_train_votes e x h hx hm

/-- The same for the AVX2 executor. -/
theorem C16_avx2_training_votes (m n : Nat) (e : Exec VBlock) (x : Mem) (h : AvxSetUp m n e) (hx : Binary (unpadExample m x)) :
    trainVotes avxBackend e x = trainingVotes n (avxModel e) (unpadExample m x) := avx_train_votes e x h hx

example : SetUp 2 2 exExec ∧ Binary [1, 0] ∧ trainVotes denseBackend exExec [1, 0] = [6, 11] :=
  ⟨exExec_setUp.1, by simp [Binary], by decide +kernel⟩

/-- C16: one training example runs `train_example` and then `train_update` on every dense block, each once, in both cases with
this very example, and the update with the feedback computed from the votes of all blocks. No block is left out. -/
theorem C16_every_block_learns (smp : List Rat → Rat → Nat) (e : Exec (DBlock)) (x : List Nat) (label : Nat) :
    (Exec.trainOne denseBackend smp e x label).blocks = e.blocks.map fun b =>
      (b.apply (.trainExample x)).apply (.trainUpdate x (Exec.trainOne denseBackend smp e x label).fb.feedback) := by
  simp [Exec.trainOne, exampleLoop_blocks, denseBackend]

example : (Exec.trainOne denseBackend (fun _ _ => 1) exExec [1, 0] 0).blocks.map (fun b => b.clauses.map fun c => (c.pos, c.neg, c.w)) =
    [[([4, -4], [-2, 0], [4, -1])], [([-5, -2], [-1, -7], [4, 8]), ([0, 0], [0, -1], [-2, 2])]] := by decide +kernel

/-- C16: one training example runs `train_example` and then `train_update` on every AVX2 block, each once, in both cases with
this very example, and the update with the feedback computed from the votes of all blocks. No block is left out. -/
theorem C16_avx2_every_block_learns (smp : List Rat → Rat → Nat) (e : Exec (VBlock)) (x : Mem) (label : Nat) :
    (Exec.trainOne avxBackend smp e x label).blocks = e.blocks.map fun b =>
      (b.apply (.trainExample x)).apply (.trainUpdate x (Exec.trainOne avxBackend smp e x label).fb.feedback) := by
  simp [Exec.trainOne, exampleLoop_blocks, avxBackend]

/-- C16 for slices: training positions `0..k` and then `k..n` of an epoch is the same as training the whole
epoch. -/
theorem C16_slices_compose {B E : Type} (be : Backend B E) (smp : List Rat → Rat → Nat)
    (shuffle : List Nat → List Nat) (data : List (E × Nat)) (e : Exec B) (k stop : Nat) (hk : k ≠ 0)
    (hks : k ≤ stop) :
    Exec.trainSlice be smp shuffle data k stop (Exec.trainSlice be smp shuffle data 0 k e) =
      Exec.trainSlice be smp shuffle data 0 stop e := by
  have h0 : ∀ stop e, Exec.trainSlice be smp shuffle data 0 stop e = trainAll be smp
      (((shuffle (List.range data.length)).take stop).filterMap (fun i => data[i]?))
      { e with index := shuffle (List.range data.length) } := by
    intro stop e
    simp [Exec.trainSlice, trainIndices_eq]
  have h1 : ∀ e, Exec.trainSlice be smp shuffle data k stop e = trainAll be smp
      (((e.index.take stop).drop k).filterMap (fun i => data[i]?)) e := by
    intro e
    simp [Exec.trainSlice, trainIndices_eq, hk]
  rw [h1, h0, h0, trainAll_index, ← trainAll_append, ← List.filterMap_append]
  have : ∀ (l : List Nat), l.take k ++ (l.take stop).drop k = l.take stop := by
    intro l
    conv_rhs => rw [← List.take_append_drop k (l.take stop), List.take_take, Nat.min_eq_left hks]
  rw [this]

/-! ## C15 -/

/-- C15, training: every multi-threaded run, whatever the interleaving of the tasks, ends in exactly the
state that single-threaded training reaches; and there is such a run. -/
theorem C15_training_schedule_independent {B E : Type} (be : Backend B E) (n : Nat) (P : B → Prop)
    (hk : Keeps be n P) (smp : List Rat → Rat → Nat) (ds : List (E × Nat)) (e e' : Exec B)
    (hr : Ready n P e) : TrainMT be smp ds e e' ↔ e' = trainAll be smp ds e :=
  trainMT_iff hk smp ds e e' hr

/-- C15, evaluation: same predictions and same final state as single-threaded evaluation. -/
theorem C15_evaluation_schedule_independent {B E : Type} (be : Backend B E) (n : Nat) (P : B → Prop)
    (hk : Keeps be n P) (xs : List E) (e e' : Exec B) (ks : List Nat) (hr : Ready n P e) :
    EvalMT be xs e e' ks ↔ (e', ks) = Exec.evalLoop be xs e :=
  evalMT_iff hk xs e e' ks hr

/-- C15: the theorems above apply to the portable and to the AVX2 backend. -/
theorem C15_backends_qualify (n : Nat) :
    Keeps denseBackend n (DenseBlockOK n) ∧ Keeps avxBackend n (AvxBlockOK n) :=
  ⟨dense_keeps n, avx_keeps n⟩

/-- C15: no schedule deadlocks. From every point any partial schedule can reach, either all tasks are done
or some task can move; and no schedule makes more than `2n+3` moves per block, so every fair run ends. -/
theorem C15_no_deadlock {B : Type} (f : B → B) (bv : B → List Int) (n : Nat) (bs : List B) (sch : List Nat)
    (p : Phase B) (h : Phase.run f bv n sch (Phase.init (List.replicate n 0) bs) = some p) :
    (p.finished ∨ ∃ t p', p.step f bv n t = some p') ∧ sch.length ≤ (2 * n + 3) * bs.length := by
  have hi := pinv_init f bv n n bs (Nat.le_refl n)
  have hp := pinv_run f bv n n bs (Nat.le_refl n) sch _ p hi h
  refine ⟨?_, ?_⟩
  · by_cases hf : p.finished
    · exact Or.inl hf
    · exact Or.inr (step_enabled f bv n n bs p hp hf)
  · have := run_length f bv n n bs (Nat.le_refl n) sch _ p hi h
    have h0 : totalRemaining n (Phase.init (List.replicate n 0) bs) = (2 * n + 3) * bs.length := by
      unfold totalRemaining Phase.init
      simp only [List.map_map]
      show (bs.map fun _ => 2 * n + 3).sum = _
      clear hi hp this h
      induction bs with
      | nil => rfl
      | cons b bs ih =>
        simp only [List.map_cons, List.sum_cons, List.length_cons, ih, Nat.mul_succ]
        omega
    omega

/-- C15: two tasks are never inside the vote registration at the same time. -/
theorem C15_mutual_exclusion {B : Type} (f : B → B) (bv : B → List Int) (n : Nat) (bs : List B)
    (sch : List Nat) (p : Phase B)
    (h : Phase.run f bv n sch (Phase.init (List.replicate n 0) bs) = some p) (t t' : Nat) (k k' : Task B)
    (ht : p.tasks[t]? = some k) (ht' : p.tasks[t']? = some k')
    (hk : (∃ i, k.pc = .adding i) ∨ ∃ i v, k.pc = .loaded i v)
    (hk' : (∃ i, k'.pc = .adding i) ∨ ∃ i v, k'.pc = .loaded i v) : t = t' := by
  have hi := pinv_init f bv n n bs (Nat.le_refl n)
  have hp := pinv_run f bv n n bs (Nat.le_refl n) sch _ p hi h
  have hin : ∀ {k : Task B}, ((∃ i, k.pc = .adding i) ∨ ∃ i v, k.pc = .loaded i v) → k.pc.inside := by
    rintro k (⟨i, h⟩ | ⟨i, v, h⟩) <;> rw [h] <;> trivial
  have a := hp.owner t k ht (hin hk)
  have b := hp.owner t' k' ht' (hin hk')
  rw [a] at b
  exact Option.some.inj b

/-- A concrete interleaved schedule of two tasks over one class runs to the end. -/
example : ∃ p, Phase.run (fun b : Nat => b + 1) (fun b => [(b : Int)]) 1
    [0, 1, 1, 1, 1, 1, 0, 0, 0, 0] (Phase.init [0] [10, 20]) = some p ∧ p.votes = [32] := by
  refine ⟨_, rfl, by decide⟩

end GT

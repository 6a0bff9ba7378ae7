import Verif.Lemmas.SparseExec
import Verif.Props.Sparse
import Verif.Props.Executor

/-!
# C14, C15, C17, C18, C37: the executor over sparse blocks
-/

namespace GT
open Spec

/-- C17 for the sparse executor: in a batch of any length of sorted examples, the prediction for every example is the
lowest-numbered class with the most votes, where the votes are those the learned clauses give to this very example
(when a sparse clause fires is `SFires`, compared to the dense clause in C37). The other examples, earlier calls and
left-over scratch data play no role. -/
theorem C17_sparse_batch_predictions (n : Nat) (e : Exec SBlock) (data : List (List Nat)) (h : SSetUp n e)
    (hx : ∀ x ∈ data, SortedEx x) :
    ∃ ks, (Exec.evalPredict sparseBackend data data.length e).2 = some ks ∧ ks.length = data.length ∧
      ∀ (i : Nat) (x : List Nat) (k : Nat), data[i]? = some x → ks[i]? = some k →
        LowestMax (sModelVotes n (sModel e) x) k := by
  suffices hs : (Exec.evalLoop sparseBackend data e).2.length = data.length ∧
      ∀ (i : Nat) (x : List Nat) (k : Nat), data[i]? = some x →
        (Exec.evalLoop sparseBackend data e).2[i]? = some k → LowestMax (sModelVotes n (sModel e) x) k by
    exact ⟨_, by simp [Exec.evalPredict], hs.1, hs.2⟩
  induction data generalizing e with
  | nil => exact ⟨rfl, by intro i x k h; simp at h⟩
  | cons y data ih =>
    obtain ⟨a, b⟩ := ih (e.evalOne sparseBackend y).1 (ready_eval (sparse_keeps n) e y h)
      (fun x hx' => hx x (by simp [hx']))
    rw [sparse_eval_model] at b
    refine ⟨by simp [Exec.evalLoop, a], ?_⟩
    intro i x k hi hk
    cases i with
    | zero =>
      simp [Exec.evalLoop] at hi hk
      subst hi hk
      have hv := sparse_eval_votes e y h (hx y (by simp))
      rw [← hv]
      have : (e.evalOne sparseBackend y).2 = (e.evalOne sparseBackend y).1.fb.predict := rfl
      rw [this]
      apply predict_lowestMax
      intro h0
      rw [hv] at h0
      have := h.classes
      simp [sModelVotes] at h0
      omega
    | succ i =>
      simp [Exec.evalLoop] at hi hk
      exact b i x k hi hk

/-- A sparse executor with two blocks and two classes. -/
def exSExec : Exec SBlock :=
  ⟨FB.new 2 5 exQuarter,
    [⟨6, 2, exSCfg, [⟨[(0, 3), (4, 2)], [(1, 5)], [1, -4], 0, 0⟩], [([], 0), ([], 0)], [0, 0], exQuarter⟩,
     ⟨6, 2, exSCfg, [⟨[(2, 1)], [(3, 0)], [-2, 3], 1, 0⟩, ⟨[(2, 1)], [], [9, 0], 1, 0⟩], [([], 0), ([], 0)], [7, 7],
      exQuarter⟩], []⟩

example : SSetUp 2 exSExec := by
  refine ⟨by decide, rfl, rfl, ?_⟩
  simp [exSExec, SparseBlockOK]

example : (Exec.evalPredict sparseBackend [[0, 4], [2], [1, 2]] 3 exSExec).2 = some [0, 1, 1] := by decide +kernel

/-- C14 for the sparse executor: predictions do not depend on how the clauses are split into blocks or in which order
they and the blocks come, nor on scratch data, configuration, active literals or random streams. -/
theorem C14_sparse_block_split_invariance (n : Nat) (e e' : Exec SBlock) (data : List (List Nat))
    (h : SSetUp n e) (h' : SSetUp n e') (hp : (sModel e).Perm (sModel e')) (hx : ∀ x ∈ data, SortedEx x) :
    (Exec.evalPredict sparseBackend data data.length e).2 =
      (Exec.evalPredict sparseBackend data data.length e').2 := by
  obtain ⟨ks, a1, a2, a3⟩ := C17_sparse_batch_predictions n e data h hx
  obtain ⟨ks', b1, b2, b3⟩ := C17_sparse_batch_predictions n e' data h' hx
  rw [a1, b1]
  congr 1
  apply List.ext_getElem (a2.trans b2.symm)
  intro i h1 h2
  have hi : i < data.length := by omega
  have hv : sModelVotes n (sModel e) data[i] = sModelVotes n (sModel e') data[i] := by
    unfold sModelVotes
    apply List.map_congr_left
    intro k _
    rw [sFiringSum_perm hp]
  have hA := a3 i data[i] ks[i] (List.getElem?_eq_getElem hi) (List.getElem?_eq_getElem h1)
  have hB := b3 i data[i] ks'[i] (List.getElem?_eq_getElem hi) (List.getElem?_eq_getElem h2)
  rw [hv] at hA
  exact lowestMax_unique hA hB

/-- C15: the schedule-independence theorems apply to the sparse backend: multi-threaded training and evaluation end as
the single-threaded ones do, whatever the interleaving. -/
theorem C15_sparse_schedule_independent (n : Nat) (smp : List Rat → Rat → Nat) (e e' : Exec SBlock)
    (h : SSetUp n e) :
    (∀ ds, TrainMT sparseBackend smp ds e e' ↔ e' = trainAll sparseBackend smp ds e) ∧
    (∀ xs ks, EvalMT sparseBackend xs e e' ks ↔ (e', ks) = Exec.evalLoop sparseBackend xs e) :=
  ⟨fun ds => trainMT_iff (sparse_keeps n) smp ds e e' h, fun xs ks => evalMT_iff (sparse_keeps n) xs e e' ks h⟩

/-- C16: one training example runs `train_example` and then `train_update` on every sparse block, each once, in both cases with
this very example, and the update with the feedback computed from the votes of all blocks. No block is left out. -/
theorem C16_sparse_every_block_learns (smp : List Rat → Rat → Nat) (e : Exec (SBlock)) (x : List Nat) (label : Nat) :
    (Exec.trainOne sparseBackend smp e x label).blocks = e.blocks.map fun b =>
      (b.apply (.trainExample x)).apply (.trainUpdate x (Exec.trainOne sparseBackend smp e x label).fb.feedback) := by
  simp [Exec.trainOne, exampleLoop_blocks, sparseBackend]

/-- C18 for the sparse executor: a call of `eval_predict` changes nothing that was learned, no active literals, no
random stream, no configuration, no training counter; later training on any non-empty sequence of examples does
exactly what it would have done without it; and a wrong output length changes nothing at all. -/
theorem C18_sparse_eval_invisible (n : Nat) (smp : List Rat → Rat → Nat) (e : Exec SBlock) (ys : List (List Nat))
    (outLen : Nat) (h : SSetUp n e) :
    sModel (Exec.evalPredict sparseBackend ys outLen e).1 = sModel e ∧
    (Exec.evalPredict sparseBackend ys outLen e).1.blocks.map (fun b => (b.cfg, b.al, b.fast)) =
      e.blocks.map (fun b => (b.cfg, b.al, b.fast)) ∧
    (Exec.evalPredict sparseBackend ys outLen e).1.index = e.index ∧
    (∃ votes, (Exec.evalPredict sparseBackend ys outLen e).1.fb = { e.fb with votes := votes }) ∧
    (∀ d ds, trainAll sparseBackend smp (d :: ds) (Exec.evalPredict sparseBackend ys outLen e).1 =
      trainAll sparseBackend smp (d :: ds) e) ∧
    (outLen ≠ ys.length → Exec.evalPredict sparseBackend ys outLen e = (e, none)) := by
  suffices hs : ∀ (ys : List (List Nat)) (e : Exec SBlock), SSetUp n e →
      sModel (Exec.evalLoop sparseBackend ys e).1 = sModel e ∧
      (Exec.evalLoop sparseBackend ys e).1.blocks.map (fun b => (b.cfg, b.al, b.fast)) =
        e.blocks.map (fun b => (b.cfg, b.al, b.fast)) ∧
      (Exec.evalLoop sparseBackend ys e).1.index = e.index ∧
      (∃ votes, (Exec.evalLoop sparseBackend ys e).1.fb = { e.fb with votes := votes }) ∧
      (∀ d : List Nat × Nat, (Exec.evalLoop sparseBackend ys e).1.trainOne sparseBackend smp d.1 d.2 =
        e.trainOne sparseBackend smp d.1 d.2) by
    unfold Exec.evalPredict
    by_cases hl : outLen = ys.length
    · simp only [hl, ne_eq, not_true, if_false]
      obtain ⟨a, b, c, d, f⟩ := hs ys e h
      refine ⟨a, b, c, d, ?_, fun h => h.elim⟩
      intro d ds
      simp only [trainAll, List.foldl_cons]
      rw [f d]
    · simp only [hl, ne_eq, not_false_eq_true, if_true]
      exact ⟨trivial, trivial, trivial, ⟨e.fb.votes, rfl⟩, fun _ _ => trivial, fun _ => trivial⟩
  clear ys outLen h e
  intro ys
  induction ys with
  | nil => intro e _; exact ⟨rfl, rfl, rfl, ⟨e.fb.votes, rfl⟩, fun _ => rfl⟩
  | cons y ys ih =>
    intro e h
    obtain ⟨a, b, c, ⟨v, d⟩, f⟩ := ih (e.evalOne sparseBackend y).1 (ready_eval (sparse_keeps n) e y h)
    refine ⟨a.trans (sparse_eval_model e y), b.trans ?_, c, ⟨v, ?_⟩, ?_⟩
    · simp only [Exec.evalOne, exampleLoop_blocks, List.map_map]
      rfl
    · refine d.trans ?_
      have := exampleLoop_frame (sparseBackend.evalExample · y) sparseBackend.votes e.blocks e.fb.reset
      show { (exampleLoop (sparseBackend.evalExample · y) sparseBackend.votes e.blocks e.fb.reset).2 with
        votes := v } = _
      rw [this]
      rfl
    · intro d
      exact (f d).trans
        (train_after_eval sparse_scratch (sparse_keeps n) smp e y d.1 d.2 (fun _ _ => trivial) h)

/-- C37, whole machine: a sparse executor whose clauses meet the conditions of `C37_eval_same_as_dense_partial` on the
examples predicts what the portable dense executor with the same included literals and weights predicts. Missing from
the full claim: the clauses of the counterexamples in `Verif.Props.Sparse`. -/
theorem C37_machine_same_as_dense_partial (m n : Nat) (e : Exec SBlock) (e' : Exec DBlock) (data : List (List Nat))
    (h : SSetUp n e) (h' : SetUp m n e')
    (hm : model e' = (e.blocks.flatMap (·.clauses)).map (fun c => learned (denseClause m c)))
    (hx : ∀ x ∈ data, SortedEx x)
    (hc : ∀ b ∈ e.blocks, ∀ c ∈ b.clauses, SortedHalf c.pos ∧ SortedHalf c.neg ∧ LitsBelow m c ∧
      c.pos ≠ [] ∧ c.neg ≠ [] ∧ (∃ t, On c.pos t ∨ On c.neg t) ∧
      ∀ x ∈ data, ∀ t, IsLast c.pos t → On c.pos t ∨ ∃ l ∈ x, t ≤ l) :
    (Exec.evalPredict sparseBackend data data.length e).2 =
      (Exec.evalPredict denseBackend (data.map (denseEx m)) data.length e').2 := by
  obtain ⟨ks, a1, a2, a3⟩ := C17_sparse_batch_predictions n e data h hx
  obtain ⟨ks', b1, b2, b3⟩ := C17_batch_predictions m n e' (data.map (denseEx m)) h' (by
    intro x hx'
    obtain ⟨y, hy, rfl⟩ := List.mem_map.mp hx'
    exact ⟨denseEx_binary m y, by simp [denseEx]⟩)
  rw [List.length_map] at b1 b2
  rw [a1, b1]
  congr 1
  apply List.ext_getElem (a2.trans b2.symm)
  intro i h1 h2
  have hi : i < data.length := by omega
  have hd : data[i] ∈ data := List.getElem_mem hi
  generalize hxi : data[i] = x at hd
  have hv : sModelVotes n (sModel e) x = modelVotes n (model e') (denseEx m x) := by
    unfold sModelVotes modelVotes
    apply List.map_congr_left
    intro k _
    rw [hm]
    unfold sModel
    have hall : ∀ c ∈ e.blocks.flatMap (·.clauses), SFires x (sLearned c) ↔
        Fires (denseEx m x) (learned (denseClause m c)) := by
      intro c hcm
      obtain ⟨b, hb, hcb⟩ := List.mem_flatMap.mp hcm
      obtain ⟨p1, p2, p3, p4, p5, p6, p7⟩ := hc b hb c hcb
      have q1 := (C37_eval_exact x c (hx x hd)).1
      have q2 := (C05_eval_output (denseEx m x) (denseClause m c) (denseEx_binary m x) (denseClause_shaped m x c)).1
      rw [C37_eval_same_as_dense_partial m x c (hx x hd) p1 p2 p3 (p7 x hd) p4 p5 p6] at q1
      exact q1.symm.trans q2
    generalize e.blocks.flatMap (·.clauses) = cs at hall
    congr 1
    clear a1 a2 a3 b1 b2 b3 hc hm
    induction cs with
    | nil => rfl
    | cons c cs ih =>
      classical
      rw [List.map_cons, List.map_cons, sFiringSum_cons, firingSum_cons,
        ih (fun c hc => hall c (List.mem_cons_of_mem _ hc))]
      congr 1
      simp only [hall c (by simp)]
      rfl
  have hA := a3 i x ks[i] (by rw [← hxi]; exact List.getElem?_eq_getElem hi) (List.getElem?_eq_getElem h1)
  have hB := b3 i (denseEx m x) ks'[i] (by simp [hi, hxi]) (List.getElem?_eq_getElem h2)
  rw [hv] at hA
  exact lowestMax_unique hA hB

end GT

import Verif.Lemmas.RowOrder
import Verif.Lemmas.SparseTrainer
import Verif.Lemmas.ConvExec
import Verif.Model.NeonTrainer
import Mathlib.Tactic.Ring

/-! # C102: the order of the rows does not matter -/

namespace GT
open Spec

/-- C102 (shuffles). Which visiting orders correspond: each order of the original rows has one order of the rearranged ones that visits the same
examples, and each order of the rearranged rows is the one of exactly one order of the original. So the shuffles of the two trainings are
equally likely. -/
theorem C102_shuffles {α : Type} (p : RowOrder) (data : List α) (hp : p.Of data.length) :
    (∀ is, is.Perm (List.range data.length) → (p.visit is).Perm (List.range data.length) ∧
      (p.visit is).map ((p.rows data)[·]?) = is.map (data[·]?)) ∧
    (∀ is js, is.Perm (List.range data.length) → js.Perm (List.range data.length) → p.visit is = p.visit js → is = js) ∧
    (∀ js, js.Perm (List.range data.length) → ∃ is, is.Perm (List.range data.length) ∧ p.visit is = js) := by
  have hl : p.order.length = data.length := by simpa using hp.length_eq
  have hnd : p.order.Nodup := hp.nodup_iff.2 List.nodup_range
  refine ⟨fun is h => ⟨Rows.visit_perm hp h, ?_⟩, fun is js hi hj h => ?_, fun js hj => ?_⟩
  · simp only [RowOrder.visit, List.map_map]
    exact List.map_congr_left fun i _ => Rows.rows_place hp i
  · have hm : ∀ {ks : List Nat}, ks.Perm (List.range data.length) → (p.visit ks).map (fun j => p.order.getD j 0) = ks := by
      intro ks hks
      rw [RowOrder.visit, List.map_map]
      conv_rhs => rw [← List.map_id ks]
      refine List.map_congr_left fun k hk => ?_
      have hk' : k ∈ p.order := hp.mem_iff.2 (hks.mem_iff.1 hk)
      simp [RowOrder.place, List.getElem_idxOf, List.idxOf_lt_length_of_mem hk']
    rw [← hm hi, ← hm hj, h]
  · refine ⟨js.map fun j => p.order.getD j 0, ?_, ?_⟩
    · refine (hj.map _).trans ?_
      have : (List.range data.length).map (fun j => p.order.getD j 0) = p.order := by
        apply List.ext_getElem (by simp [hl])
        intro i h1 h2
        simp [h2]
      rw [this]
      exact hp
    · rw [RowOrder.visit, List.map_map]
      conv_rhs => rw [← List.map_id js]
      refine List.map_congr_left fun j hj' => ?_
      have hlt : j < p.order.length := by rw [hl]; simpa using hj.mem_iff.1 hj'
      simp only [Function.comp, RowOrder.place, List.getD_eq_getElem?_getD, List.getElem?_eq_getElem hlt, Option.getD_some, id]
      exact hnd.idxOf_getElem j hlt

/-- C102 (default score). The accuracy does not depend on the order in which labels and predictions are listed. -/
theorem C102_accuracy : ScoresPairs accuracyScore := by
  intro p ys ks hl hp
  have hpz : p.Of (ys.zip ks).length := by simpa [hl] using hp
  have h1 : ys = (ys.zip ks).map (·.1) := (List.map_fst_zip (by omega)).symm
  have h2 : ks = (ys.zip ks).map (·.2) := (List.map_snd_zip (by omega)).symm
  have hz : (p.rows ys).zip (p.rows ks) = p.rows (ys.zip ks) := by
    have e1 : p.rows ys = (p.rows (ys.zip ks)).map (·.1) := (congrArg p.rows h1).trans (Rows.rows_map p _ _)
    have e2 : p.rows ks = (p.rows (ys.zip ks)).map (·.2) := (congrArg p.rows h2).trans (Rows.rows_map p _ _)
    rw [e1, e2, List.zip_map']
    exact List.map_id _
  unfold accuracyScore
  rw [hz, Rows.rows_length hp, ((Rows.rows_perm hpz).filter _).length_eq]

/-- C102 (portable backend). Training on the rows in another order, and evaluating on rows in another order, gives the same results and leaves
the same state in the trainer and in the machine, when the examples are visited in the same order. -/
theorem C102_dense {n : Nat} (init : Option (List (List Int × List Int × List Int)) → Exec DBlock) (smp : List Rat → Rat → Nat)
    (shuffle : Nat → List Nat → List Nat) (metric : List Nat → List Nat → Rat) (hm : ScoresPairs metric)
    (tr ev : List (List Nat × Nat)) (p q : RowOrder) (hp : p.Of tr.length) (hq : q.Of ev.length)
    (t : Trainer (List (List Int × List Int × List Int))) (tm : Option (List (List Int × List Int × List Int)))
    (hi : Ready n (DenseBlockOK n) (init tm)) :
    t.trainInner (execEnv init smp (p.shuffles shuffle) metric (p.rows tr) (q.rows ev)) tm =
    t.trainInner (execEnv init smp shuffle metric tr ev) tm :=
  Rows.inner_eq (dense_keeps n) (fun b y h => ⟨((dense_keeps n).eval b y h).1, (dense_scratch b y trivial).2⟩)
    (F := fun b => b.clauses.map learned)
    (fun b y _ => by
      simp only [denseBackend, DBlock.apply, DBlock.countVotes, DBlock.evalSetOutput, List.map_map]
      rfl) _
    (fun e e' h => by
      have : ∀ e : Exec DBlock, (e.blocks.flatMap (·.clauses)).map learned = (e.blocks.map fun b => b.clauses.map learned).flatten := by
        intro e
        rw [List.map_flatMap, List.flatMap_def]
      show (e.blocks.flatMap (·.clauses)).map learned = (e'.blocks.flatMap (·.clauses)).map learned
      rw [this, this, h])
    init smp shuffle hm hp hq t tm hi

/-- C102 (AVX2 backend). -/
theorem C102_avx2 {n : Nat} (init : Option (List (List Int × List Int × List Int)) → Exec VBlock) (smp : List Rat → Rat → Nat)
    (shuffle : Nat → List Nat → List Nat) (metric : List Nat → List Nat → Rat) (hm : ScoresPairs metric)
    (tr ev : List (Mem × Nat)) (p q : RowOrder) (hp : p.Of tr.length) (hq : q.Of ev.length)
    (t : Trainer (List (List Int × List Int × List Int))) (tm : Option (List (List Int × List Int × List Int)))
    (hi : Ready n (AvxBlockOK n) (init tm)) :
    t.trainInner (avxEnv init smp (p.shuffles shuffle) metric (p.rows tr) (q.rows ev)) tm =
    t.trainInner (avxEnv init smp shuffle metric tr ev) tm :=
  Rows.inner_eq (avx_keeps n) (fun b y h => ⟨((avx_keeps n).eval b y h).1, (avx_scratch b y h.2.1).2⟩)
    (F := fun b => b.clauses.map fun c => learned (unpad b.cfg.nLits c))
    (fun b y h => by
      simp only [avxBackend, VBlock.apply, List.map_map]
      apply List.map_congr_left
      intro c _
      obtain ⟨_, _, h1, h2, _⟩ := avxEvalClause_spec b.cfg y c h.2.1
      simp only [Function.comp, learned, unpad, h1, h2]) _
    (fun e e' h => by
      show e.blocks.flatMap (fun b => b.clauses.map fun c => learned (unpad b.cfg.nLits c)) =
        e'.blocks.flatMap fun b => b.clauses.map fun c => learned (unpad b.cfg.nLits c)
      rw [List.flatMap_def, List.flatMap_def, h])
    init smp shuffle hm hp hq t tm hi

/-- C102 (sparse machine). -/
theorem C102_sparse {n nLits nClauses : Nat} (init : Option SparseSt → Exec SBlock) (smp : List Rat → Rat → Nat)
    (shuffle : Nat → List Nat → List Nat) (metric : List Nat → List Nat → Rat) (hm : ScoresPairs metric)
    (tr ev : List (List Nat × Nat)) (p q : RowOrder) (hp : p.Of tr.length) (hq : q.Of ev.length)
    (t : Trainer SparseSt) (tm : Option SparseSt) (hi : Ready n (SparseBlockOK n) (init tm)) :
    t.trainInner (sparseEnv nLits nClauses n init smp (p.shuffles shuffle) metric (p.rows tr) (q.rows ev)) tm =
    t.trainInner (sparseEnv nLits nClauses n init smp shuffle metric tr ev) tm :=
  Rows.inner_eq (sparse_keeps n) (fun b y h => ⟨((sparse_keeps n).eval b y h).1, (sparse_scratch b y trivial).2⟩)
    (F := fun b => (b.clauses.map sLearned, b.al)) (fun b y _ => STrain.eval_kept b y) _
    (fun _ _ h => STrain.sLoadLoop_congr _ _ h _ _)
    init smp shuffle hm hp hq t tm hi

/-- C102 (portable convolutional backend); a snapshot is what the clauses have learned. -/
theorem C102_conv {m np n : Nat} (init : Option (List (List Int × List Int × List Int)) → Exec ConvBlock) (smp : List Rat → Rat → Nat)
    (shuffle : Nat → List Nat → List Nat) (metric : List Nat → List Nat → Rat) (hm : ScoresPairs metric)
    (tr ev : List (List Nat × Nat)) (p q : RowOrder) (hp : p.Of tr.length) (hq : q.Of ev.length)
    (t : Trainer (List (List Int × List Int × List Int))) (tm : Option (List (List Int × List Int × List Int)))
    (hi : Ready n (ConvBlockOK m np n) (init tm)) :
    t.trainInner (backendEnv convBackend convModel init smp (p.shuffles shuffle) metric (p.rows tr) (q.rows ev)) tm =
    t.trainInner (backendEnv convBackend convModel init smp shuffle metric tr ev) tm :=
  Rows.inner_eq (CE.conv_keeps m np n) (CE.conv_scratch _ fun b y h => ((CE.conv_keeps m np n).eval b y h).1)
    (F := fun b => b.clauses.map fun c => learned c.base)
    (fun b y _ => by simp only [convBackend, ConvBlock.apply, List.map_map]; rfl) _
    (fun e e' h => by
      show e.blocks.flatMap (fun b => b.clauses.map fun c => learned c.base) = e'.blocks.flatMap fun b => b.clauses.map fun c => learned c.base
      rw [List.flatMap_def, List.flatMap_def, h])
    init smp shuffle hm hp hq t tm hi

/-- C102 (AVX2 convolutional backend). -/
theorem C102_avx2_conv {m np n : Nat} (init : Option (List (List Int × List Int × List Int)) → Exec VConvBlock) (smp : List Rat → Rat → Nat)
    (shuffle : Nat → List Nat → List Nat) (metric : List Nat → List Nat → Rat) (hm : ScoresPairs metric)
    (tr ev : List (Mem × Nat)) (p q : RowOrder) (hp : p.Of tr.length) (hq : q.Of ev.length)
    (t : Trainer (List (List Int × List Int × List Int))) (tm : Option (List (List Int × List Int × List Int)))
    (hi : Ready n (AvxConvBlockOK m np n) (init tm)) :
    t.trainInner (backendEnv avxConvBackend avxConvModel init smp (p.shuffles shuffle) metric (p.rows tr) (q.rows ev)) tm =
    t.trainInner (backendEnv avxConvBackend avxConvModel init smp shuffle metric tr ev) tm :=
  Rows.inner_eq (CE.avxConv_keeps m np n) (CE.avxConv_scratch _ fun b y h => ((CE.avxConv_keeps m np n).eval b y h).1)
    (F := fun b => b.clauses.map fun c => learned (unpad b.cfg.nLits c.base))
    (fun b y _ => by simp only [avxConvBackend, VConvBlock.apply, List.map_map]; rfl) _
    (fun e e' h => by
      show e.blocks.flatMap (fun b => b.clauses.map fun c => learned (unpad b.cfg.nLits c.base)) =
        e'.blocks.flatMap fun b => b.clauses.map fun c => learned (unpad b.cfg.nLits c.base)
      rw [List.flatMap_def, List.flatMap_def, h])
    init smp shuffle hm hp hq t tm hi

/-- C102 (NEON backend), with a literal budget; without one the backend crashes (C42). -/
theorem C102_neon {m n : Nat} (init : Option (List (List Int × List Int × List Int)) → Exec (Option NBlock)) (smp : List Rat → Rat → Nat)
    (shuffle : Nat → List Nat → List Nat) (metric : List Nat → List Nat → Rat) (hm : ScoresPairs metric)
    (tr ev : List (Mem × Nat)) (p q : RowOrder) (hp : p.Of tr.length) (hq : q.Of ev.length)
    (t : Trainer (List (List Int × List Int × List Int))) (tm : Option (List (List Int × List Int × List Int)))
    (hi : Ready n (NeonBudgetOK m n) (init tm)) :
    t.trainInner (neonEnv init smp (p.shuffles shuffle) metric (p.rows tr) (q.rows ev)) tm =
    t.trainInner (neonEnv init smp shuffle metric tr ev) tm :=
  Rows.inner_eq (CE.neon_keeps m n) (CE.neon_scratch m n)
    (F := fun b => (b.map fun b => b.clauses.map fun c =>
      ((List.range b.cfg.nLits).map fun i => (c.row i).toInt,
       (List.range b.cfg.nLits).map fun i => (c.row (neonMem b.cfg.nLits + i)).toInt, c.w)).getD [])
    (fun b y _ => by
      cases b with
      | none => rfl
      | some d =>
        have h := congrArg (List.map fun (p : Mem × List Int × Nat) => ((List.range d.cfg.nLits).map fun i => (p.1 i).toInt,
          (List.range d.cfg.nLits).map fun i => (p.1 (neonMem d.cfg.nLits + i)).toInt, p.2.1)) (CE.neonEvals_rows d.cfg y d.clauses false)
        simp only [List.map_map] at h
        exact h) _
    (fun e e' h => by
      simp only [List.flatMap_def]
      rw [h])
    init smp shuffle hm hp hq t tm hi

/-- C102 (predictions). The predictions for the rows in another order are the predictions for the rows, in that order; on every backend. -/
theorem C102_predictions {m np n : Nat} (q : RowOrder) (outLen : Nat) :
    (∀ (data : List (List Nat)) (e : Exec DBlock), q.Of data.length → Ready n (DenseBlockOK n) e →
      (Exec.evalPredict denseBackend (q.rows data) outLen e).2 = (Exec.evalPredict denseBackend data outLen e).2.map q.rows) ∧
    (∀ (data : List Mem) (e : Exec VBlock), q.Of data.length → Ready n (AvxBlockOK n) e →
      (Exec.evalPredict avxBackend (q.rows data) outLen e).2 = (Exec.evalPredict avxBackend data outLen e).2.map q.rows) ∧
    (∀ (data : List (List Nat)) (e : Exec SBlock), q.Of data.length → Ready n (SparseBlockOK n) e →
      (Exec.evalPredict sparseBackend (q.rows data) outLen e).2 = (Exec.evalPredict sparseBackend data outLen e).2.map q.rows) ∧
    (∀ (data : List (List Nat)) (e : Exec ConvBlock), q.Of data.length → Ready n (ConvBlockOK m np n) e →
      (Exec.evalPredict convBackend (q.rows data) outLen e).2 = (Exec.evalPredict convBackend data outLen e).2.map q.rows) ∧
    (∀ (data : List Mem) (e : Exec VConvBlock), q.Of data.length → Ready n (AvxConvBlockOK m np n) e →
      (Exec.evalPredict avxConvBackend (q.rows data) outLen e).2 = (Exec.evalPredict avxConvBackend data outLen e).2.map q.rows) ∧
    (∀ (data : List Mem) (e : Exec (Option NBlock)), q.Of data.length → Ready n (NeonBudgetOK m n) e →
      (Exec.evalPredict neonBackend (q.rows data) outLen e).2 = (Exec.evalPredict neonBackend data outLen e).2.map q.rows) :=
  ⟨fun _ _ hq h => Rows.predictions_eq (dense_keeps n) (fun b y h => ⟨((dense_keeps n).eval b y h).1, (dense_scratch b y trivial).2⟩) hq h outLen,
   fun _ _ hq h => Rows.predictions_eq (avx_keeps n) (fun b y h => ⟨((avx_keeps n).eval b y h).1, (avx_scratch b y h.2.1).2⟩) hq h outLen,
   fun _ _ hq h => Rows.predictions_eq (sparse_keeps n) (fun b y h => ⟨((sparse_keeps n).eval b y h).1, (sparse_scratch b y trivial).2⟩) hq h outLen,
   fun _ _ hq h => Rows.predictions_eq (CE.conv_keeps m np n) (CE.conv_scratch _ fun b y h => ((CE.conv_keeps m np n).eval b y h).1) hq h outLen,
   fun _ _ hq h => Rows.predictions_eq (CE.avxConv_keeps m np n) (CE.avxConv_scratch _ fun b y h => ((CE.avxConv_keeps m np n).eval b y h).1) hq h
     outLen,
   fun _ _ hq h => Rows.predictions_eq (CE.neon_keeps m n) (CE.neon_scratch m n) hq h outLen⟩

/-! A machine of two literals and two classes with one clause, and three examples. -/

def rowMachine : Exec DBlock :=
  ⟨FB.new 2 20 ⟨fun i => if i % 2 = 0 then 1 / 3 else 3 / 4, 0⟩,
    [⟨2, 2, ⟨some 4, true, 1 / 3, 2 / 3⟩, [⟨[1, -1], [-1, -1], [1, -1], 0, 0⟩], [0, 0],
      ⟨fun _ => 1 / 4, 0⟩, ⟨fun i => if i % 3 = 0 then 9 / 10 else 1 / 5, 0⟩⟩], []⟩
def rowData : List (List Nat × Nat) := [([1, 0], 0), ([0, 1], 1), ([1, 1], 1)]
def rowTurn : RowOrder := ⟨[2, 0, 1]⟩

/-- The same visiting order is not the same examples: with the same seed, and so the same shuffles, training on the rows in another order gives
another machine. -/
theorem C102_same_shuffle_differs :
    rowTurn.Of rowData.length ∧ Ready 2 (DenseBlockOK 2) rowMachine ∧
    (Trainer.trainInner (execEnv (fun _ => rowMachine) discreteSample (fun _ l => l) accuracyScore (rowTurn.rows rowData) rowData)
      ⟨2, 2, false, none, none⟩ none).2 ≠
    (Trainer.trainInner (execEnv (fun _ => rowMachine) discreteSample (fun _ l => l) accuracyScore rowData rowData)
      ⟨2, 2, false, none, none⟩ none).2 := by
  refine ⟨List.isPerm_iff.1 (by decide), ⟨by decide, rfl, rfl, ?_⟩, by decide +kernel⟩
  intro b hb
  simp only [rowMachine, List.mem_singleton] at hb
  subst hb
  exact ⟨rfl, by simp⟩

/-- The hypotheses are met and training does something: three examples, two epochs. -/
example : rowTurn.rows rowData = [([1, 1], 1), ([1, 0], 0), ([0, 1], 1)] ∧ rowTurn.visit [0, 1, 2] = [1, 2, 0] ∧
    (Trainer.trainInner (execEnv (fun _ => rowMachine) discreteSample (fun _ l => l) accuracyScore rowData rowData)
      ⟨2, 2, false, none, none⟩ none).2 ≠ some [([1, -1], [-1, -1], [1, -1])] := by
  decide +kernel

end GT

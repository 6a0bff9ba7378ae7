import Verif.Lemmas.SparseTrainer
import Verif.Spec.SparseTrainer

/-! # From training a sparse machine to the delivered predictor and program (C69, C31) -/

namespace GT
open Spec STrain

section
variable (m nClauses n : Nat) (init : Option SparseSt → Exec SBlock) (smp : List Rat → Rat → Nat)
  (shuffle : Nat → List Nat → List Nat) (metric : List Nat → List Nat → Rat) (tr ev : List (List Nat × Nat))
  (t : Trainer SparseSt) (tm : Option SparseSt)

/-- C31: with a sparse machine, loading data and evaluating change nothing of the state that is kept. -/
theorem C31_sparse_read_only : ReadOnly (sparseEnv m nClauses n init smp shuffle metric tr ev) :=
  ⟨fun _ _ => rfl, fun s =>
    sLoadLoop_congr _ _ (map_evalPredict (fun b : SBlock => (b.clauses.map sLearned, b.al)) eval_kept
      (s.data.map Prod.fst) (ev.map Prod.snd).length s.e) 0 _⟩

/-- C31: the state of a sparse machine after training holds the clauses and weights the blocks had at the end of the
epoch with the best score, or of the last epoch without `load_best_state`. -/
theorem C31_sparse_state_partial (hcount : ((init tm).blocks.flatMap (·.clauses)).length = nClauses)
    (hn : 1 ≤ t.nEpochs) (r : Results)
    (hr : (t.trainInner (sparseEnv m nClauses n init smp shuffle metric tr ev) tm).1.results = some r)
    (hs : t.loadBest = false ∨ ∃ v ∈ r.evalLog, -1 < v) :
    ∃ (k : Nat) (st : SparseSt), (t.trainInner (sparseEnv m nClauses n init smp shuffle metric tr ev) tm).2 = some st ∧
      StateHolds st (sModel (afterTrain (sparseEnv m nClauses n init smp shuffle metric tr ev)
        ((sparseEnv m nClauses n init smp shuffle metric tr ev).start tm) k).e) ∧
      st.nLits = some m ∧
      (t.loadBest = true → r.bestScore = scoreOf (sparseEnv m nClauses n init smp shuffle metric tr ev)
        ((sparseEnv m nClauses n init smp shuffle metric tr ev).start tm) k) ∧
      (t.loadBest = false → r.evalLog.getLast? = some (scoreOf (sparseEnv m nClauses n init smp shuffle metric tr ev)
        ((sparseEnv m nClauses n init smp shuffle metric tr ev).start tm) k)) := by
  have hholds : ∀ k, StateHolds ((sparseEnv m nClauses n init smp shuffle metric tr ev).snap
      (afterTrain (sparseEnv m nClauses n init smp shuffle metric tr ev)
        ((sparseEnv m nClauses n init smp shuffle metric tr ev).start tm) k))
      (sModel (afterTrain (sparseEnv m nClauses n init smp shuffle metric tr ev)
        ((sparseEnv m nClauses n init smp shuffle metric tr ev).start tm) k).e) ∧
      ((sparseEnv m nClauses n init smp shuffle metric tr ev).snap
      (afterTrain (sparseEnv m nClauses n init smp shuffle metric tr ev)
        ((sparseEnv m nClauses n init smp shuffle metric tr ev).start tm) k)).nLits = some m := by
    intro k
    have hcl := map_afterTrain (snapOf := fun e => sLoad m nClauses n e.blocks) (init := init) (smp := smp)
      (shuffle := shuffle) (metric := metric) (tr := tr) (ev := ev) (fun b : SBlock => b.clauses.length) eval_clauses
      train_clauses update_clauses ⟨init tm, [], 0⟩ k
    have hl : ((afterTrain (sparseEnv m nClauses n init smp shuffle metric tr ev)
        ((sparseEnv m nClauses n init smp shuffle metric tr ev).start tm) k).e.blocks.flatMap (·.clauses)).length =
        nClauses := by
      rw [count_sum]
      exact (congrArg List.sum hcl).trans ((count_sum _).symm.trans hcount)
    refine ⟨holds_load m nClauses n _ hl, ?_⟩
    show (sLoad m nClauses n _).nLits = _
    rw [sLoad_eq m nClauses n _ hl]
  have hro := C31_sparse_read_only m nClauses n init smp shuffle metric tr ev
  by_cases hl : t.loadBest = true
  · obtain ⟨k, h1, h2⟩ := reported_epoch _ hro t tm hn hl r hr (hs.resolve_left (by simp [hl]))
    exact ⟨k, _, h1, (hholds k).1, (hholds k).2, fun _ => h2, fun h => by rw [hl] at h; cases h⟩
  · have hl : t.loadBest = false := by simpa using hl
    obtain ⟨k, h1, h2⟩ := last_epoch _ hro t tm hn hl r hr
    exact ⟨k, _, h1, (hholds k).1, (hholds k).2, (fun h => by rw [hl] at h; cases h), fun _ => h2⟩

/-- C69, sparse backend, for trainings with a score above -1: the predictor made from the sparse machine after `train()`
with `load_best_state` and the C program exported from it reproduce the reported best score on the evaluation data
(given to them as dense rows). Missing: trainings without such a score (`C31_low_scores_no_state`), and states with
clauses that are not agreeable, for which it is false (`C69_sparse_not_reproduced`). -/
theorem C69_sparse_best_score_partial (hi : SSetUp n (init tm))
    (hcount : ((init tm).blocks.flatMap (·.clauses)).length = nClauses) (hx : ∀ d ∈ ev, SortedEx d.1)
    (hn : 1 ≤ t.nEpochs) (hl : t.loadBest = true) (r : Results)
    (hr : (t.trainInner (sparseEnv m nClauses n init smp shuffle metric tr ev) tm).1.results = some r)
    (hs : ∃ v ∈ r.evalLog, -1 < v) (st : SparseSt)
    (hst : (t.trainInner (sparseEnv m nClauses n init smp shuffle metric tr ev) tm).2 = some st)
    (rs : Rules) (p : Predictor) (hd : SDeliveredFrom m n st (ev.map (·.1)) rs p) :
    Reproduces n metric (ev.map fun d => (denseEx m d.1, d.2)) p (simpleC rs) r.bestScore := by
  obtain ⟨k, h1, h2⟩ := reported_epoch _ (C31_sparse_read_only m nClauses n init smp shuffle metric tr ev) t tm hn hl r
    hr hs
  rw [h1, Option.some.injEq] at hst
  rw [h2]
  exact sparse_reproduces m nClauses n init smp shuffle metric tr ev tm hi hcount hx k st hst rs p hd

/-- C69, sparse backend, without `load_best_state`: predictor and program reproduce the last score of the evaluation
log. Missing: states with clauses that are not agreeable. -/
theorem C69_sparse_last_score_partial (hi : SSetUp n (init tm))
    (hcount : ((init tm).blocks.flatMap (·.clauses)).length = nClauses) (hx : ∀ d ∈ ev, SortedEx d.1)
    (hn : 1 ≤ t.nEpochs) (hl : t.loadBest = false) (r : Results)
    (hr : (t.trainInner (sparseEnv m nClauses n init smp shuffle metric tr ev) tm).1.results = some r) (st : SparseSt)
    (hst : (t.trainInner (sparseEnv m nClauses n init smp shuffle metric tr ev) tm).2 = some st)
    (rs : Rules) (p : Predictor) (hd : SDeliveredFrom m n st (ev.map (·.1)) rs p) :
    ∃ score, r.evalLog.getLast? = some score ∧
      Reproduces n metric (ev.map fun d => (denseEx m d.1, d.2)) p (simpleC rs) score := by
  obtain ⟨k, h1, h2⟩ := last_epoch _ (C31_sparse_read_only m nClauses n init smp shuffle metric tr ev) t tm hn hl r hr
  rw [h1, Option.some.injEq] at hst
  exact ⟨_, h2, sparse_reproduces m nClauses n init smp shuffle metric tr ev tm hi hcount hx k st hst rs p hd⟩

end

/-- C69, sparse backend: the executors `train()` starts with are set up - with fresh blocks, and with fresh blocks into
which a state whose weight rows have an entry per class was transferred without an error. -/
theorem C69_sparse_start (m n : Nat) (h0 : 0 < n) (thr : Int) (g : Rng) (bs : List SBlock)
    (hb : ∀ b ∈ bs, ∃ k cfg fastOf junk seed, initSparse m k n cfg fastOf junk seed = some b) :
    SSetUp n ⟨FB.new n thr g, bs, []⟩ ∧
    ∀ (st : SparseSt) (bs' : List SBlock), (∀ w ∈ st.w, w.length = n) → sSave st bs = (bs', .ok ()) →
      SSetUp n ⟨FB.new n thr g, bs', []⟩ ∧ (bs'.flatMap (·.clauses)).length = (bs.flatMap (·.clauses)).length := by
  have hfresh : ∀ b ∈ bs, SparseBlockOK n b := by
    intro b hb'
    obtain ⟨k, cfg, fastOf, junk, seed, h⟩ := hb b hb'
    exact fresh_ok m k n cfg fastOf junk seed b h
  refine ⟨⟨h0, rfl, by simp [FB.new], hfresh⟩, ?_⟩
  intro st bs' hw hsv
  obtain ⟨h1, h2⟩ := save_ok n st hw bs 0 0 bs' hfresh hsv
  exact ⟨⟨h0, rfl, by simp [FB.new], h1⟩, by rw [count_sum, count_sum, h2]⟩

/-! ### A training that meets the hypotheses, and one that shows what they exclude -/

/-- With two classes the sampled negative class is the other one. -/
def otherClass (ws : List Rat) (_ : Rat) : Nat := if ws.getD 0 0 = 0 then 1 else 0

def exSparseEnv (tr ev : List (List Nat × Nat)) : Env (ExecS SBlock (List Nat)) SparseSt :=
  sparseEnv 6 1 2 (fun _ => exRun []) otherClass (fun _ l => l) halves tr ev

def exSparseTrainer : Trainer SparseSt := ⟨1, 2, true, none, none⟩

def exSparseEval : List (List Nat × Nat) := [([0], 0), ([1], 1)]

def exSparseState : SparseSt := ⟨some 6, [[0, -2]], [⟨[-2, 1], [0, 0], [0, 1, 2]⟩], [[[0], []]]⟩

/-- Three training examples: the state holds a clause that is agreeable on the evaluation data. -/
example : SSetUp 2 (exRun []) ∧ ((exRun []).blocks.flatMap (·.clauses)).length = 1 ∧
    (∀ d ∈ exSparseEval, SortedEx d.1) ∧
    (∃ r, (exSparseTrainer.trainInner (exSparseEnv [([0], 1), ([0], 0), ([], 0)] exSparseEval) none).1.results = some r ∧
      r.bestScore = 1 / 2 ∧ r.evalLog = [1 / 2]) ∧
    (exSparseTrainer.trainInner (exSparseEnv [([0], 1), ([0], 0), ([], 0)] exSparseEval) none).2 = some exSparseState ∧
    ∃ rs p, SDeliveredFrom 6 2 exSparseState (exSparseEval.map (·.1)) rs p := by
  refine ⟨⟨by decide, rfl, rfl, ?_⟩, rfl, by decide, ⟨_, rfl, by decide +kernel, by decide +kernel⟩, by decide +kernel,
    ⟨6, 2, false, [[6]], [[0, -2]]⟩, _, ⟨false, "none", false, _, [], by decide +kernel, rfl, rfl⟩, rfl,
    [([(0, -2)], [(0, 1)], [0, -2])], ⟨[[([(0, -2)], [(0, 1)], [0, -2])]], rfl, rfl, rfl, ?_⟩, ?_, ?_, ?_⟩
  · intro b hb
    rw [List.mem_singleton.mp hb]
    exact ⟨rfl, by decide +kernel⟩
  · intro i a part h1 h2
    cases i with
    | zero =>
      simp only [exSparseState, List.getElem?_cons_zero, Option.some.injEq] at h1 h2
      subst h1 h2
      exact ⟨rfl, rfl, rfl, by decide⟩
    | succ i => simp [exSparseState] at h1
  · intro c hc
    rw [List.mem_singleton.mp hc]
    refine ⟨by decide, by decide, rfl, by simp, ⟨0, Or.inr ⟨1, by simp, by decide⟩⟩, by decide, ?_⟩
    intro x hx t ht
    simp [IsLast] at ht
    subst ht
    refine Or.inr ?_
    revert x
    decide
  · intro r j hj
    have h1 := filter_sum_natAbs (fun c : Half × Half × List Int => @decide (ListsAbove 6 c r) (Classical.propDecidable _))
      (fun c => c.2.2.getD j 0) [([(0, -2)], [(0, 1)], [0, -2])]
    have h2 : ∀ j < 2, (([([(0, -2)], [(0, 1)], [0, -2])] : List (Half × Half × List Int)).map fun c =>
      (c.2.2.getD j 0).natAbs).sum ≤ 2 := by decide
    have h3 := h2 j hj
    unfold aboveSame
    omega
  · intro x _ k hk
    have h1 := filter_sum_natAbs (fun c : Half × Half × List Int => @decide (SFires x c) (Classical.propDecidable _))
      (fun c => c.2.2.getD k 0) [([(0, -2)], [(0, 1)], [0, -2])]
    have h2 : ∀ j < 2, (([([(0, -2)], [(0, 1)], [0, -2])] : List (Half × Half × List Int)).map fun c =>
      (c.2.2.getD j 0).natAbs).sum ≤ 2 := by decide
    have h3 := h2 k hk
    unfold sFiringSum
    omega

/-- C69 is false for a sparse machine without the conditions: after three training examples the machine gets the
evaluation example right, the delivered predictor gets it wrong. -/
theorem C69_sparse_not_reproduced :
    ∃ (st : SparseSt) (rs : Rules) (p : Predictor) (r : Results) (tr ev : List (List Nat × Nat)),
      SSetUp 2 (exRun []) ∧ (∀ d ∈ tr ++ ev, SortedEx d.1) ∧
      (exSparseTrainer.trainInner (exSparseEnv tr ev) none).1.results = some r ∧
      (exSparseTrainer.trainInner (exSparseEnv tr ev) none).2 = some st ∧
      compileSparse false 2 st = .ok rs ∧ Predictor.fromRuleset rs "none" false = .ok p ∧
      ¬ Reproduces 2 halves (ev.map fun d => (denseEx 6 d.1, d.2)) p (simpleC rs) r.bestScore := by
  refine ⟨⟨some 6, [[-2, 0]], [⟨[1], [0], [0, 0, 1]⟩], [[[0], []]]⟩, ⟨6, 2, false, [[6]], [[-2, 0]]⟩, _, _,
    [([0], 1), ([0], 0), ([], 1)], [([], 0)], ⟨by decide, rfl, rfl, ?_⟩, by decide, rfl, by decide +kernel,
    by decide +kernel, rfl, ?_⟩
  · intro b hb
    rw [List.mem_singleton.mp hb]
    exact ⟨rfl, by decide +kernel⟩
  · rintro ⟨ks, h1, h2, h3⟩
    obtain ⟨k, e1, e2, -⟩ := h2 0 _ rfl
    have hk : k = 1 := by
      have := (Except.ok.inj e2)
      cases this
      rfl
    subst hk
    obtain ⟨k', rfl⟩ := List.length_eq_one_iff.mp h1
    obtain rfl : k' = 1 := by simpa using e1
    revert h3
    decide +kernel

end GT

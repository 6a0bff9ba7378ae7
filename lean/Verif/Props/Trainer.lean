import Verif.Lemmas.Trainer
import Verif.Props.Executor

/-! # Properties of training (C30-C33) -/

namespace GT
open Spec

variable {S St : Type}

/-! Scores 0.2, 0.5, 0.5, 0.1, ... of a machine whose state counts the training epochs. -/
def toyScore (n : Nat) : Rat := if n = 1 then 1 / 5 else if n = 2 then 1 / 2 else if n = 3 then 1 / 2 else 1 / 10

def toyEnv (score : Nat → Rat) : Env (Nat × DataSet) Nat where
  start st := (st.getD 0, .eval)
  load d s := (s.1, d)
  train s := ((if s.2 = .train then s.1 + 1 else s.1, s.2), (s.1 : Rat))
  eval s := (s, if s.2 = .eval then score s.1 else 7)
  snap s := s.1

def toyTrainer (n : Int) : Trainer Nat := ⟨n, 1, true, none, none⟩

example : ((toyTrainer 4).trainInner (toyEnv toyScore) none).1.results =
    some ⟨1 / 2, 1, 4, [0, 1, 2, 3], [1 / 5, 1 / 2, 1 / 2, 1 / 10], false⟩ ∧
    ((toyTrainer 4).trainInner (toyEnv toyScore) none).2 = some 2 := by decide +kernel

/-- C30: the logs have one entry per epoch run, each epoch having trained on the training data and evaluated on the
evaluation data; all epochs ran unless an evaluation reached the early-exit score, and then it was the last one. -/
theorem C30_logs (env : Env S St) (t : Trainer St) (tm : Option St) (hn : 1 ≤ t.nEpochs) :
    ∃ r, (t.trainInner env tm).1.results = some r ∧
      r.trainLog = (List.range r.nEpochs).map (accOf env (env.start tm)) ∧
      r.evalLog = (List.range r.nEpochs).map (scoreOf env (env.start tm)) ∧
      RanEpochs t.nEpochs t.earlyAcc (scoreOf env (env.start tm)) r.nEpochs r.early := by
  obtain ⟨r, b, h1, h2, h3, h4, -⟩ := trainInner_spec env t tm hn
  exact ⟨r, by rw [h1], h2, h3, h4⟩

/-- C30, for score sequences with a score above -1: the reported best score is the largest in the evaluation log
and the reported epoch the first that attained it. Missing: sequences without such a score, for which it is false
(`C30_low_scores_not_reported`). -/
theorem C30_best_partial (env : Env S St) (t : Trainer St) (tm : Option St) (hn : 1 ≤ t.nEpochs)
    (r : Results) (hr : (t.trainInner env tm).1.results = some r) (hs : ∃ v ∈ r.evalLog, -1 < v) :
    ∃ k : Nat, r.bestEpoch = k ∧ FirstBest (scoreOf env (env.start tm)) r.nEpochs k ∧
      r.evalLog[k]? = some r.bestScore ∧ ∀ v ∈ r.evalLog, v ≤ r.bestScore := by
  obtain ⟨r', b, h1, h2, h3, h4, h5⟩ := trainInner_spec env t tm hn
  rw [h1] at hr
  obtain rfl : r' = r := Option.some.inj hr
  obtain ⟨v, hv, hv1⟩ := hs
  rcases h5 with ⟨-, -, hlow, -⟩ | ⟨k, e1, e2, e3, -⟩
  · rw [h3] at hv
    obtain ⟨j, hj, rfl⟩ := List.mem_map.mp hv
    exact absurd hv1 (not_lt.mpr (hlow j (List.mem_range.mp hj)))
  · refine ⟨k, e1, e2, ?_, ?_⟩
    · rw [h3, List.getElem?_map, List.getElem?_range e2.1, e3]; rfl
    · intro v hv
      rw [h3] at hv
      obtain ⟨j, hj, rfl⟩ := List.mem_map.mp hv
      rw [e3]
      exact e2.2.1 j (List.mem_range.mp hj)

/-- C30 is false of a metric whose values are all -1 or less (a negated loss, say): -1 is reported as the best
score and -1 as its epoch. -/
theorem C30_low_scores_not_reported :
    ∃ (env : Env (Nat × DataSet) Nat) (t : Trainer Nat) (r : Results), 1 ≤ t.nEpochs ∧
      (t.trainInner env none).1.results = some r ∧ r.evalLog = [-3, -3] ∧ r.bestScore = -1 ∧ r.bestEpoch = -1 :=
  ⟨toyEnv fun _ => -3, toyTrainer 2, ⟨-1, -1, 2, [0, 1], [-3, -3], false⟩, by decide, by decide +kernel, rfl, rfl, rfl⟩

/-- C30: asked for no epochs, `train` changes neither the machine nor the results. -/
theorem C30_no_epochs (env : Env S St) (t : Trainer St) (tm : Option St) (hn : t.nEpochs < 1) :
    t.trainInner env tm = (t, tm) := by
  simp [Trainer.trainInner, hn]

/-! ### The machine's state -/

/-- C31, for score sequences with a score above -1: with `load_best_state` the machine's state afterwards is the one
right after the training of the reported best epoch. Missing: sequences without such a score, for which it is false
(`C31_low_scores_no_state`). -/
theorem C31_best_state_partial (env : Env S St) (hro : ReadOnly env) (t : Trainer St) (tm : Option St)
    (hn : 1 ≤ t.nEpochs) (hl : t.loadBest = true) (r : Results) (hr : (t.trainInner env tm).1.results = some r)
    (hs : ∃ v ∈ r.evalLog, -1 < v) :
    ∃ k : Nat, r.bestEpoch = k ∧ FirstBest (scoreOf env (env.start tm)) r.nEpochs k ∧
      (t.trainInner env tm).2 = some (env.snap (afterTrain env (env.start tm) k)) := by
  obtain ⟨r', b, h1, h2, h3, h4, h5⟩ := trainInner_spec env t tm hn
  rw [h1] at hr ⊢
  obtain rfl : r' = r := Option.some.inj hr
  obtain ⟨v, hv, hv1⟩ := hs
  rcases h5 with ⟨-, -, hlow, -⟩ | ⟨k, e1, e2, -, -, e3⟩
  · rw [h3] at hv
    obtain ⟨j, hj, rfl⟩ := List.mem_map.mp hv
    exact absurd hv1 (not_lt.mpr (hlow j (List.mem_range.mp hj)))
  · refine ⟨k, e1, e2, ?_⟩
    rw [hl] at e3 ⊢
    simp only [if_true] at e3 ⊢
    rw [e3, snap_afterEval env hro]

/-- C31: without `load_best_state` the machine's state is the one after the last epoch run. -/
theorem C31_last_state (env : Env S St) (hro : ReadOnly env) (t : Trainer St) (tm : Option St)
    (hn : 1 ≤ t.nEpochs) (hl : t.loadBest = false) :
    ∃ r, (t.trainInner env tm).1.results = some r ∧ 1 ≤ r.nEpochs ∧
      (t.trainInner env tm).2 = some (env.snap (afterTrain env (env.start tm) (r.nEpochs - 1))) := by
  obtain ⟨r, b, h1, -, -, h4, -⟩ := trainInner_spec env t tm hn
  have hpos : 1 ≤ r.nEpochs := by
    rcases h4 with ⟨-, e, -⟩ | ⟨-, e, -⟩ <;> omega
  refine ⟨r, by rw [h1], hpos, ?_⟩
  rw [h1, hl, ← snap_afterEval env hro, Nat.sub_add_cancel hpos]
  rfl

/-- C31 is false when no score exceeds -1: the trained machine is left without any state, although it has trained. -/
theorem C31_low_scores_no_state :
    ∃ (env : Env (Nat × DataSet) Nat) (t : Trainer Nat), ReadOnly env ∧ 1 ≤ t.nEpochs ∧ t.loadBest = true ∧
      (t.trainInner env none).2 = none ∧ (t.trainInner env (some 9)).2 = none :=
  ⟨toyEnv fun _ => -3, toyTrainer 2, ⟨fun _ _ => rfl, fun _ => rfl⟩, by decide, rfl, by decide +kernel, by decide +kernel⟩

/-- The environment of the portable backend evaluates read-only, so C31 applies to it. -/
theorem C31_portable_read_only (init : Option (List (List Int × List Int × List Int)) → Exec DBlock)
    (smp : List Rat → Rat → Nat) (shuffle : Nat → List Nat → List Nat) (metric : List Nat → List Nat → Rat)
    (trainData evalData : List (List Nat × Nat)) : ReadOnly (execEnv init smp shuffle metric trainData evalData) :=
  ⟨fun _ _ => rfl, fun s =>
    (C18_eval_changes_nothing s.e (s.data.map Prod.fst) (evalData.map Prod.snd).length).1⟩

/-- A run of the real loop on the portable backend meets the hypotheses of C30 and C31. -/
example : ∃ r, ((⟨2, 2, true, none, none⟩ : Trainer (List (List Int × List Int × List Int))).trainInner
    (execEnv (fun _ => exExec) (fun _ _ => 0) (fun _ l => l) (fun ys ks => if ys = ks then 1 else 0)
      [([1, 0], 0), ([0, 1], 1)] [([1, 0], 0)]) none).1.results = some r ∧ ∃ v ∈ r.evalLog, -1 < v :=
  ⟨_, rfl, by decide +kernel⟩

/-! ### Training again -/

/-- C32, for calls in which some score exceeds -1 or `load_best_state` is off: whatever the trainer and the machine
held before, the state afterwards is one that an epoch of this call produced. Missing: calls without such a score,
for which it is false (`C32_old_state_returns`). -/
theorem C32_fresh_state_partial (env : Env S St) (hro : ReadOnly env) (t : Trainer St) (tm : Option St)
    (hn : 1 ≤ t.nEpochs) (r : Results) (hr : (t.trainInner env tm).1.results = some r)
    (hs : t.loadBest = false ∨ ∃ v ∈ r.evalLog, -1 < v) :
    ∃ k : Nat, k < r.nEpochs ∧ (t.trainInner env tm).2 = some (env.snap (afterTrain env (env.start tm) k)) := by
  by_cases hl : t.loadBest = true
  · rcases hs with hs | hs
    · rw [hl] at hs; exact absurd hs (by decide)
    · obtain ⟨k, -, h2, h3⟩ := C31_best_state_partial env hro t tm hn hl r hr hs
      exact ⟨k, h2.1, h3⟩
  · obtain ⟨r', h1, h2, h3⟩ := C31_last_state env hro t tm hn (by simpa using hl)
    rw [h1] at hr
    obtain rfl : r' = r := Option.some.inj hr
    exact ⟨r'.nEpochs - 1, by omega, h3⟩

/-- C32 is false in general: a second `train()` whose scores stay at -1 or below puts back the best state of the
first call (2), though the machine had been trained on from there. -/
theorem C32_old_state_returns :
    ∃ (env1 env2 : Env (Nat × DataSet) Nat) (t : Trainer Nat),
      (t.trainInner env1 none).2 = some 2 ∧
      ((t.trainInner env1 none).1.trainInner env2 (t.trainInner env1 none).2).2 = some 2 ∧
      ∀ k, env2.snap (afterTrain env2 (env2.start (some 2)) k) ≠ 2 := by
  refine ⟨toyEnv toyScore, toyEnv fun _ => -3, toyTrainer 4, by decide +kernel, by decide +kernel, ?_⟩
  have h : ∀ k, afterEval (toyEnv fun _ => -3) ((toyEnv fun _ => -3).start (some 2)) k = (2 + k, .eval) := by
    intro k
    induction k with
    | zero => rfl
    | succ k ih =>
      rw [afterEval, ih]
      simp [toyEnv]
      omega
  intro k
  rw [afterTrain, h]
  simp [toyEnv]
  omega

/-! ### Cross-validation -/

/-- C33, first half: with the splits `StratifiedKFold` promises, every sample is evaluated in exactly one fold and
trained on in exactly the others. -/
theorem C33_folds_cover (n : Nat) (split : List (List Nat × List Nat)) (h : IsSplit n split) (i : Nat) (hi : i < n) :
    ∃ j, j < split.length ∧ ∀ (j' : Nat) (f : List Nat × List Nat), split[j']? = some f →
      (i ∈ f.2 ↔ j' = j) ∧ (i ∈ f.1 ↔ j' ≠ j) := by
  have hcompl : ∀ f ∈ split, (i ∈ f.1 ↔ i ∉ f.2) := by
    intro f hf
    have hp := h.complement f hf
    have hnd : (f.1 ++ f.2).Nodup := hp.symm.nodup List.nodup_range
    have hmem : i ∈ f.1 ++ f.2 := hp.symm.subset (List.mem_range.mpr hi)
    rw [List.nodup_append] at hnd
    rw [List.mem_append] at hmem
    constructor
    · intro h1 h2; exact hnd.2.2 i h1 i h2 rfl
    · intro h1; exact hmem.resolve_right h1
  have hmem : i ∈ split.flatMap (·.2) := h.evalParts.symm.subset (List.mem_range.mpr hi)
  obtain ⟨f0, hf0, hi0⟩ := List.mem_flatMap.mp hmem
  obtain ⟨j, hj, hjf⟩ := List.getElem_of_mem hf0
  have hnd : (split.flatMap (·.2)).Nodup := h.evalParts.symm.nodup List.nodup_range
  have huniq : ∀ (j' : Nat) (f : List Nat × List Nat), split[j']? = some f → (i ∈ f.2 ↔ j' = j) := by
    intro j' f hf
    constructor
    · intro hif
      rw [List.nodup_flatMap] at hnd
      by_contra hne
      obtain ⟨hj', hf'⟩ := List.getElem?_eq_some_iff.mp hf
      have hpw := List.pairwise_iff_getElem.mp hnd.2
      rcases Nat.lt_or_gt_of_ne hne with hlt | hlt
      · have := hpw j' j hj' hj hlt
        rw [hf', hjf] at this
        exact this hif hi0
      · have := hpw j j' hj hj' hlt
        rw [hf', hjf] at this
        exact this hi0 hif
    · rintro rfl
      rw [List.getElem?_eq_getElem hj, hjf] at hf
      obtain rfl := Option.some.inj hf
      exact hi0
  refine ⟨j, hj, fun j' f hf => ⟨huniq j' f hf, ?_⟩⟩
  rw [hcompl f (List.mem_of_getElem? hf), huniq j' f hf]

/-- C33: the samples evaluated over all folds are the stacked training and evaluation data, each once, and in each
fold the training samples are all the others. -/
theorem C33_fold_samples {D : Type} (x : List D) (split : List (List Nat × List Nat)) (h : IsSplit x.length split) :
    (split.flatMap fun f => gather x f.2).Perm x ∧
      ∀ f ∈ split, (gather x f.1 ++ gather x f.2).Perm x := by
  constructor
  · have := gather_perm x _ _ h.evalParts
    rw [gather_range] at this
    refine List.Perm.trans (List.Perm.of_eq ?_) this
    unfold gather
    rw [List.filterMap_flatMap]
  · intro f hf
    have := gather_perm x _ _ (h.complement f hf)
    rw [gather_range] at this
    refine List.Perm.trans (List.Perm.of_eq ?_) this
    simp [gather]

/-- C33, what holds of the second half: the logs are those of the folds, in order, each fold training on its training
samples and evaluating on its evaluation samples, the first from the machine's own state. Missing: the later folds
do not start afresh (`C33_folds_leak`). -/
theorem C33_fold_logs_partial {D : Type} (mk : List D → List D → Env S St) (xTrain xEval : List D)
    (split : List (List Nat × List Nat)) (kFolds : Int) (t : Trainer St) (tm : Option St) (hn : 1 ≤ t.nEpochs) :
    ∃ (t' : Trainer St) (tm' : Option St) (r : FoldResults) (starts : List (Option St × Nat)),
      t.trainFolds mk xTrain xEval split kFolds tm = .ok (t', tm', r) ∧ r.kFolds = kFolds ∧
      starts.length = split.length ∧ (∀ st, starts.head? = some st → st.1 = tm) ∧
      (∀ st ∈ starts, 1 ≤ st.2 ∧ (st.2 : Int) ≤ t.nEpochs) ∧
      r.evalLog = (List.zipWith (fun (f : List Nat × List Nat) (st : Option St × Nat) =>
        let env := mk (gather (xTrain ++ xEval) f.1) (gather (xTrain ++ xEval) f.2)
        (List.range st.2).map (scoreOf env (env.start st.1))) split starts).flatten ∧
      r.trainLog = (List.zipWith (fun (f : List Nat × List Nat) (st : Option St × Nat) =>
        let env := mk (gather (xTrain ++ xEval) f.1) (gather (xTrain ++ xEval) f.2)
        (List.range st.2).map (accOf env (env.start st.1))) split starts).flatten := by
  obtain ⟨t', tm', r', starts, h1, h2, h3, h4, h5, h6, h7⟩ :=
    foldLoop_spec mk (xTrain ++ xEval) split t tm ⟨-1, kFolds, [], []⟩ hn
  exact ⟨t', tm', r', starts, h1, h5, h2, h3, h4, by simpa using h6, by simpa using h7⟩

/-- C33: the best score reported for a cross-validation is the largest evaluation score of any epoch of any fold,
when one exceeds -1. -/
theorem C33_best_of_all_folds {D : Type} (mk : List D → List D → Env S St) (xTrain xEval : List D)
    (split : List (List Nat × List Nat)) (kFolds : Int) (t : Trainer St) (tm : Option St) (hn : 1 ≤ t.nEpochs)
    (t' : Trainer St) (tm' : Option St) (r : FoldResults)
    (hr : t.trainFolds mk xTrain xEval split kFolds tm = .ok (t', tm', r)) :
    (∀ v ∈ r.evalLog, v ≤ r.bestScore) ∧ ((∃ v ∈ r.evalLog, -1 < v) → r.bestScore ∈ r.evalLog) := by
  obtain ⟨h1, h2⟩ := foldLoop_best mk (xTrain ++ xEval) split t tm ⟨-1, kFolds, [], []⟩ hn (le_refl _)
    (by simp) (Or.inl rfl) t' tm' r hr
  refine ⟨h1, ?_⟩
  rintro ⟨v, hv, hlt⟩
  rcases h2 with e | e
  · have := h1 v hv
    rw [e] at this
    exact absurd hlt (not_lt.mpr this)
  · exact e

/-! Samples 0, 1, 2, 3 in two folds. -/
def exSplit : List (List Nat × List Nat) := [([2, 3], [0, 1]), ([0, 1], [2, 3])]

example : IsSplit 4 exSplit := by
  refine ⟨by decide, ?_⟩
  intro f hf
  simp only [exSplit, List.mem_cons, List.not_mem_nil, or_false] at hf
  rcases hf with rfl | rfl <;> decide

/-- A machine that remembers the samples it has trained on, and scores the share of evaluation samples among them. -/
def memoEnv (tr ev : List Nat) : Env (List Nat) (List Nat) where
  start st := st.getD []
  load _ s := s
  train s := (s ++ tr, 0)
  eval s := (s, ((ev.filter (s.contains ·)).length : Rat) / ev.length)
  snap s := s

/-- C33 is false as to independence: the second fold starts from the machine the first fold trained, which has seen
the second fold's evaluation samples. Run alone the fold scores 0, after the first fold it scores 1. -/
theorem C33_folds_leak :
    ∃ (t : Trainer (List Nat)) (t1 t2 : Trainer (List Nat) × Option (List Nat) × FoldResults),
      t.trainFolds memoEnv [10, 11] [12, 13] exSplit 2 none = .ok t1 ∧ t1.2.2.evalLog = [0, 1] ∧
      t.trainFolds memoEnv [10, 11] [12, 13] (exSplit.drop 1) 2 none = .ok t2 ∧ t2.2.2.evalLog = [0] :=
  ⟨⟨1, 2, true, none, none⟩, _, _, rfl, by decide +kernel, rfl, by decide +kernel⟩

/-- C33: the folds are independent if the machine's state is ignored when blocks are allocated. -/
theorem C33_independent_if_cold {D : Type} (mk : List D → List D → Env S St) (hcold : ∀ a b st, (mk a b).start st = (mk a b).start none)
    (t : Trainer St) (tm tm' : Option St) (tr ev : List D) :
    (t.trainInner (mk tr ev) tm).1.results = (t.trainInner (mk tr ev) tm').1.results := by
  unfold Trainer.trainInner
  by_cases h : t.nEpochs < 1
  · simp [h]
  · simp only [h, if_false, hcold tr ev tm, hcold tr ev tm']

end GT

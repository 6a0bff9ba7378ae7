import Verif.Lemmas.NeonTrainer

/-! # From training on the NEON backend to the delivered predictor and program (C69, C31) -/

namespace GT
open Spec NTrain

section
variable (m n : Nat) (init : Option (List (List Int × List Int × List Int)) → Exec (Option NBlock))
  (smp : List Rat → Rat → Nat) (shuffle : Nat → List Nat → List Nat) (metric : List Nat → List Nat → Rat)
  (tr ev : List (Mem × Nat)) (t : Trainer (List (List Int × List Int × List Int)))
  (tm : Option (List (List Int × List Int × List Int)))

/-- C31: on the NEON backend, loading data and evaluating change nothing of the state that is kept. -/
theorem C31_neon_read_only : ReadOnly (neonEnv init smp shuffle metric tr ev) :=
  ⟨fun _ _ => rfl, fun s => model_congr _ _ (STrain.map_evalPredict
    (Option.map fun b : NBlock => (b.cfg, b.clauses.map fun c => (c.row, c.w))) eval_kept
      (s.data.map Prod.fst) (ev.map Prod.snd).length s.e)⟩

/-- C69, NEON backend with a literal budget, for trainings with a score above -1 that leave no clause empty: as
`C69_best_score_partial`. Missing: states with an empty clause, for which it is false (`C69_neon_not_reproduced`);
without a budget training crashes (`C42_train_without_budget_crashes`). -/
theorem C69_neon_best_score_partial (hi : Ready n (NeonBudgetOK m n) (init tm))
    (hx : ∀ d ∈ ev, Binary (unpadExample m d.1)) (hn : 1 ≤ t.nEpochs) (hl : t.loadBest = true) (r : Results)
    (hr : (t.trainInner (neonEnv init smp shuffle metric tr ev) tm).1.results = some r)
    (hs : ∃ v ∈ r.evalLog, -1 < v) (cls : List (List Int × List Int × List Int))
    (hcls : (t.trainInner (neonEnv init smp shuffle metric tr ev) tm).2 = some cls)
    (hne : ∀ c ∈ cls, ¬ EmptyClause c.1 c.2.1)
    (rs : Rules) (p : Predictor) (hd : DeliveredFrom m n cls (ev.map fun d => unpadExample m d.1) rs p) :
    Reproduces n metric (ev.map fun d => (unpadExample m d.1, d.2)) p (simpleC rs) r.bestScore := by
  obtain ⟨k, h1, h2⟩ := reported_epoch _ (C31_neon_read_only init smp shuffle metric tr ev) t tm hn hl r hr hs
  rw [h1, Option.some.injEq] at hcls
  rw [h2]
  exact neon_reproduces m n init smp shuffle metric tr ev tm hi hx k cls hcls hne rs p hd

/-- C69, NEON backend with a literal budget, without `load_best_state`, for trainings that leave no clause empty: as
`C69_last_score`. Missing: states with an empty clause. -/
theorem C69_neon_last_score_partial (hi : Ready n (NeonBudgetOK m n) (init tm))
    (hx : ∀ d ∈ ev, Binary (unpadExample m d.1)) (hn : 1 ≤ t.nEpochs) (hl : t.loadBest = false) (r : Results)
    (hr : (t.trainInner (neonEnv init smp shuffle metric tr ev) tm).1.results = some r)
    (cls : List (List Int × List Int × List Int))
    (hcls : (t.trainInner (neonEnv init smp shuffle metric tr ev) tm).2 = some cls)
    (hne : ∀ c ∈ cls, ¬ EmptyClause c.1 c.2.1)
    (rs : Rules) (p : Predictor) (hd : DeliveredFrom m n cls (ev.map fun d => unpadExample m d.1) rs p) :
    ∃ score, r.evalLog.getLast? = some score ∧
      Reproduces n metric (ev.map fun d => (unpadExample m d.1, d.2)) p (simpleC rs) score := by
  obtain ⟨k, h1, h2⟩ := last_epoch _ (C31_neon_read_only init smp shuffle metric tr ev) t tm hn hl r hr
  rw [h1, Option.some.injEq] at hcls
  exact ⟨_, h2, neon_reproduces m n init smp shuffle metric tr ev tm hi hx k cls hcls hne rs p hd⟩

end

/-- C69, NEON backend: the executor `train()` starts from, with fresh blocks that have a budget, is one the theorems above apply
to. -/
theorem C69_neon_start (m n : Nat) (h0 : 0 < n) (hm : 0 < m) (thr : Int) (g : Rng) (bs : List (Option NBlock))
    (hb : ∀ b ∈ bs, ∃ d, b = some d ∧ ∃ k cfg fastOf rngOf vrngOf junk junkCnt seed,
      cfg.nLits = m ∧ cfg.budget ≠ none ∧ neonInit k n cfg fastOf rngOf vrngOf junk junkCnt seed = some d) :
    Ready n (NeonBudgetOK m n) ⟨FB.new n thr g, bs, []⟩ := by
  refine ⟨h0, rfl, by simp [FB.new], ?_⟩
  intro b hb'
  obtain ⟨d, rfl, k, cfg, fastOf, rngOf, vrngOf, junk, junkCnt, seed, h1, h2, h3⟩ := hb b hb'
  unfold neonInit at h3
  split at h3
  · cases h3
  · simp only [Option.some.injEq] at h3
    subst h3
    refine ⟨⟨_, rfl, hm, h1, rfl, ?_⟩, fun d' hd' => ?_⟩
    · intro c hc
      obtain ⟨i, hi, rfl⟩ := List.mem_mapIdx.mp hc
      have hmem := (List.of_mem_zip (List.getElem_mem hi)).2
      obtain ⟨-, b2, b3⟩ := Start.neonAllWeights_spec n k (neonInitRows cfg.nLits junk k (rngOf seed)).2
      obtain ⟨j, hj, e⟩ := List.mem_iff_getElem.mp hmem
      obtain ⟨w, w1, w2, -⟩ := b3 j (by omega)
      rw [List.getElem?_eq_getElem hj, Option.some.injEq] at w1
      exact (congrArg List.length (e.symm.trans w1)).trans w2
    · obtain rfl := Option.some.inj hd'
      exact h2

/-! ### A training that meets the hypotheses, and one that shows what they exclude -/

def exNeonEnv (bs : List (List VClause)) (tr ev : List (Mem × Nat)) :
    Env (ExecS (Option NBlock) Mem) (List (List Int × List Int × List Int)) :=
  neonEnv (fun _ => exNExec bs) (fun _ _ => 1) (fun _ l => l) (fun ys ks => if ys = ks then 1 else 0) tr ev

def exNeonTrainer : Trainer (List (List Int × List Int × List Int)) := ⟨1, 2, true, none, none⟩

/-- The clause a training step on two examples makes of `exNClause`. -/
def exNeonClauses : List (List Int × List Int × List Int) := [([7, -2, -2], [-2, 2, -1], [5, -1])]

/-- A training on two examples: the hypotheses of `C69_neon_best_score_partial` are met. -/
example : Ready 2 (NeonBudgetOK 3 2) (exNExec [[exNClause]]) ∧ Binary (unpadExample 3 exLits) ∧
    (∃ r, (exNeonTrainer.trainInner (exNeonEnv [[exNClause]] [(exLits, 0), (exLits, 1)] [(exLits, 0)]) none).1.results =
      some r ∧ r.bestScore = 1 ∧ r.evalLog = [1]) ∧
    (exNeonTrainer.trainInner (exNeonEnv [[exNClause]] [(exLits, 0), (exLits, 1)] [(exLits, 0)]) none).2 =
      some exNeonClauses ∧
    (∀ c ∈ exNeonClauses, ¬ EmptyClause c.1 c.2.1) ∧
    ∃ rs p, DeliveredFrom 3 2 exNeonClauses [unpadExample 3 exLits] rs p := by
  refine ⟨⟨by decide, rfl, rfl, ?_⟩, by decide +kernel, ⟨_, rfl, by decide +kernel, by decide +kernel⟩,
    by decide +kernel, ?_, ⟨3, 2, false, [[0, 4]], [[5, -1]]⟩, ?_⟩
  · intro b hb
    simp only [exNExec, List.map_cons, List.map_nil, List.mem_singleton] at hb
    subst hb
    refine ⟨⟨_, rfl, by decide, rfl, rfl, by simp [exNBlock, exNClause]⟩, fun d hd => ?_⟩
    obtain rfl := Option.some.inj hd
    simp [exNBlock]
  · intro c hc
    simp only [exNeonClauses, List.mem_singleton] at hc
    subst hc
    exact fun h => h.1 0 ⟨7, rfl, by decide⟩
  · refine ⟨_, ⟨⟨3, 2, [[7, -2, -2, -2, 2, -1]], [[5, -1]]⟩, false, "none", false, _, [], ⟨rfl, by decide, by decide⟩,
      rfl, rfl, rfl, mergesFit_of_bound _ (by decide), by decide +kernel, rfl, rfl⟩, rfl, ?_⟩
    intro x hx k hk
    have := firingSum_natAbs exNeonClauses x k
    have h2 : ∀ k < 2, ((exNeonClauses.map fun c => (c.2.2.getD k 0).natAbs).sum) ≤ 32767 := by decide
    have h3 := h2 k hk
    omega

/-- C69 is false on the NEON backend when the kept state has an empty clause: this training reports a perfect score on
an example that the delivered predictor gets wrong. -/
theorem C69_neon_not_reproduced :
    ∃ (st : DState) (rs : Rules) (p : Predictor) (r : Results),
      Ready 2 (NeonBudgetOK 3 2) (exNExec [[exNClause, exNLoud]]) ∧ Binary (unpadExample 3 exLits) ∧
      (exNeonTrainer.trainInner (exNeonEnv [[exNClause, exNLoud]] [] [(exLits, 1)]) none).1.results = some r ∧
      (exNeonTrainer.trainInner (exNeonEnv [[exNClause, exNLoud]] [] [(exLits, 1)]) none).2 = some (stateClauses st) ∧
      r.bestScore = 1 ∧ DeliveredFrom 3 2 (stateClauses st) [unpadExample 3 exLits] rs p ∧
      (p.predict (unpadExample 3 exLits)).2 = .ok (.idx 0) ∧
      ¬ Reproduces 2 (fun ys ks => if ys = ks then 1 else 0) [(unpadExample 3 exLits, 1)] p (simpleC rs) r.bestScore := by
  refine ⟨⟨3, 2, [[5, -3, -3, -3, 0, -3], [-3, -3, -3, -3, -3, -3]], [[4, -1], [0, 9]]⟩,
    ⟨3, 2, false, [[0, 4]], [[4, -1]]⟩, _, _, ⟨by decide, rfl, rfl, ?_⟩, by decide +kernel, rfl, by decide +kernel,
    by decide +kernel, ⟨⟨_, false, "none", false, _, [], ⟨rfl, by decide, by decide⟩, rfl, rfl, rfl,
      mergesFit_of_bound _ (by decide), by decide +kernel, rfl, rfl⟩, rfl, ?_⟩, rfl, ?_⟩
  · intro b hb
    simp only [exNExec, List.map_cons, List.map_nil, List.mem_singleton] at hb
    subst hb
    refine ⟨⟨_, rfl, by decide, rfl, rfl, by simp [exNBlock, exNClause, exNLoud]⟩, fun d hd => ?_⟩
    obtain rfl := Option.some.inj hd
    simp [exNBlock]
  · intro x hx k hk
    have := firingSum_natAbs [([5, -3, -3], [-3, 0, -3], [4, -1]), ([-3, -3, -3], [-3, -3, -3], [0, 9])] x k
    have h2 : ∀ k < 2, (([([5, -3, -3], [-3, 0, -3], [4, -1]), ([-3, -3, -3], [-3, -3, -3], [0, 9])] :
      List (List Int × List Int × List Int)).map fun c => (c.2.2.getD k 0).natAbs).sum ≤ 32767 := by decide
    have h3 := h2 k hk
    show -32768 ≤ firingSum [([5, -3, -3], [-3, 0, -3], [4, -1]), ([-3, -3, -3], [-3, -3, -3], [0, 9])] x k ∧
      firingSum [([5, -3, -3], [-3, 0, -3], [4, -1]), ([-3, -3, -3], [-3, -3, -3], [0, 9])] x k ≤ 32767
    omega
  · rintro ⟨ks, h1, h2, h3⟩
    obtain ⟨k, e1, e2, -⟩ := h2 0 _ rfl
    have hk : k = 0 := by
      have := (Except.ok.inj e2)
      cases this
      rfl
    subst hk
    obtain ⟨k', rfl⟩ := List.length_eq_one_iff.mp h1
    obtain rfl : k' = 0 := by simpa using e1
    revert h3
    decide +kernel

end GT

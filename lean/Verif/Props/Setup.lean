import Verif.Lemmas.Setup

/-!
# C55: starting a training run
-/

namespace GT

open Spec

/-- The machine of the examples: four literals, seven clauses in three blocks, budgets and `s` cyclic. -/
def setupTM : TM :=
  { nLiterals := 4, nClauses := 7, nClasses := 2, s := [2, 3], threshold := 10, budgets := [some 4],
    budgetList := none, boost := false, multiLabel := false, blockSizes := some [3, 2, 2], flags := none }

/-- A trainer that is ready, with a given seed. -/
def setupDemo (seed : Int) : TrainSetup :=
  { tm := setupTM, hasState := false, sparseBackend := false, xTrain := .dense, xEval := .dense, labels := 1,
    feedback := "focused_negative_sampling", nJobs := 2, nEpochs := 3, seed := seed }

theorem setupDemo_ready (seed : Int) : ReadySingle (setupDemo seed) [3, 2, 2] := by
  refine ⟨⟨⟨by simp [setupDemo], rfl⟩, by simp [setupDemo], by simp [setupDemo], rfl, by simp,
    by simp [setupDemo, setupTM], rfl, by simp [setupDemo, setupTM], ?_⟩, rfl, Or.inl rfl, rfl⟩
  intro b hb v hv
  simp [setupDemo, setupTM] at hb
  subst hb; cases hv; decide

/-- Outcome for a ready trainer, for every seed. -/
theorem start_ready (c : TrainSetup) (sizes : List Int) (h : ReadySingle c sizes) :
    (fitsInt c.seed = false ∧ c.start = .raises .typeError) ∨
    (fitsInt c.seed = true ∧ ∃ cbs : List BlockSetup, cbs.length = sizes.length ∧
      (∀ i, i < sizes.length → ∃ b, cbs[i]? = some b ∧ b.nClauses = sizes.getD i 0) ∧
      c.start = match initBlocks cbs c.seed with
        | .error e => .raises e
        | .ok blocks =>
          if c.hasState ∧ blocks.any (fun b => !blockInit b) then .crash
          else if blocks.any (fun b => !blockInit b) then .raises .runtimeError
          else .started blocks c.tm.nClasses (if c.seed = 0 then none else some c.seed) c.nJobs) := by
  have hL := inputLabels_same c sizes h.toConfigured
  rw [h.labels] at hL
  cases hf : fitsInt c.seed with
  | false =>
    left
    refine ⟨rfl, ?_⟩
    have hK : c.feedbackClasses = .error .typeError := by
      unfold TrainSetup.feedbackClasses
      rcases h.feedback with e | e <;> simp [e, hf, h.single]
    simp only [TrainSetup.start, if_neg h.data.1, hL, hK]
  | true =>
    right
    refine ⟨rfl, ?_⟩
    have hK : c.feedbackClasses = .ok c.tm.nClasses := by
      unfold TrainSetup.feedbackClasses
      rcases h.feedback with e | e <;> simp [e, hf, h.single]
    obtain ⟨cbs, h1, h2, h3, h4⟩ := start_eq c sizes h.toConfigured _ _ hL hK
    refine ⟨cbs, h1, h2, ?_⟩
    rw [h4]
    cases hi : initBlocks cbs c.seed with
    | error e => rfl
    | ok blocks =>
      have hlen : ¬ blocks.length < 1 := by
        have hne : cbs ≠ [] := by
          intro e; rw [e] at h1; exact h.blocks (List.eq_nil_of_length_eq_zero h1.symm)
        by_cases hr : 0 ≤ c.seed ∧ c.seed + cbs.length ≤ 4294967296
        · obtain ⟨b', hb', hl', _⟩ := initBlocks_get cbs c.seed hr.1 hr.2
          rw [hi] at hb'; cases hb'
          have := List.length_pos_iff.2 hne
          omega
        · rw [initBlocks_err cbs c.seed hne hr] at hi; cases hi
      have hl1 : ¬ ((if c.xTrain = .csr ∧ c.sparseBackend = true then (0 : Int) else 1) > 1) := by
        split <;> omega
      simp only [newExecutor, if_neg hlen, hl1, false_and, if_false]
      by_cases ha : blocks.any (fun b => !blockInit b) = true
      · simp only [ha, if_true, and_true]
      · simp only [ha]; simp

/-- C55 (partial): a trainer that has everything it needs starts training, with seed `seed + i` for block `i`
and the seed itself for the feedback block, exactly when the seed is at least 1 and the seeds fit the
backend's types.  Missing: seed 0, the default, and negative seeds (`C55_default_seed_fails`,
`C55_default_seed_crashes_on_retrain`, `C55_negative_seed`). -/
theorem C55_start_partial (c : TrainSetup) (sizes : List Int) (h : ReadySingle c sizes) :
    StartsSeeded c sizes ↔ 1 ≤ c.seed ∧ c.seed ≤ 2147483647 ∧ c.seed + sizes.length ≤ 4294967296 := by
  have hne : 0 < sizes.length := List.length_pos_iff.2 h.blocks
  rcases start_ready c sizes h with ⟨hf, hs⟩ | ⟨hf, cbs, h1, h2, hs⟩
  · constructor
    · rintro ⟨b, hb, _⟩; rw [hs] at hb; cases hb
    · intro hr; simp [fitsInt] at hf; omega
  · simp [fitsInt] at hf
    by_cases hr : 0 ≤ c.seed ∧ c.seed + cbs.length ≤ 4294967296
    · obtain ⟨blocks, hb, hl, hg⟩ := initBlocks_get cbs c.seed hr.1 hr.2
      rw [hb] at hs
      by_cases h0 : c.seed = 0
      · have hany : blocks.any (fun b => !blockInit b) = true := by
          obtain ⟨b, hb0, _⟩ := h2 0 hne
          have := hg 0
          rw [hb0] at this
          simp only [Option.map_some] at this
          rw [List.any_eq_true]
          exact ⟨_, List.mem_of_getElem? this, by simp [blockInit, h0]⟩
        simp only [hany, and_true, if_true] at hs
        constructor
        · rintro ⟨b, hb', _⟩; rw [hs] at hb'; split at hb' <;> cases hb'
        · intro; omega
      · have hany : blocks.any (fun b => !blockInit b) = false := by
          rw [List.any_eq_false]
          intro b hbm
          obtain ⟨i, hi⟩ := List.getElem?_of_mem hbm
          rw [hg i] at hi
          cases hc : cbs[i]? with
          | none => rw [hc] at hi; cases hi
          | some b' =>
            rw [hc] at hi
            cases hi
            simp [blockInit]; omega
        simp only [hany, Bool.false_eq_true, and_false, if_false, h0] at hs
        constructor
        · intro _; omega
        · intro _
          refine ⟨blocks, hs, by omega, ?_⟩
          intro i hi
          obtain ⟨b, hb', hn⟩ := h2 i hi
          exact ⟨b, by rw [hg i, hb']; rfl, hn⟩
    · have hcn : cbs ≠ [] := by intro e; rw [e] at h1; simp at h1; omega
      rw [initBlocks_err cbs c.seed hcn hr] at hs
      constructor
      · rintro ⟨b, hb, _⟩; rw [hs] at hb; cases hb
      · intro; omega

example : StartsSeeded (setupDemo 42) [3, 2, 2] :=
  (C55_start_partial _ _ (setupDemo_ready 42)).2 (by decide)

/-- For seed 0 the first block is left uninitialised. -/
theorem start_zero (c : TrainSetup) (sizes : List Int) (h : ReadySingle c sizes) (h0 : c.seed = 0)
    (hn : sizes.length ≤ 4294967296) :
    c.start = if c.hasState = true then .crash else .raises .runtimeError := by
  have hne : 0 < sizes.length := List.length_pos_iff.2 h.blocks
  rcases start_ready c sizes h with ⟨hf, hs⟩ | ⟨hf, cbs, h1, h2, hs⟩
  · rw [h0] at hf; simp [fitsInt] at hf
  · obtain ⟨blocks, hb, hl, hg⟩ := initBlocks_get cbs c.seed (by omega) (by omega)
    rw [hb] at hs
    have hany : blocks.any (fun b => !blockInit b) = true := by
      obtain ⟨b, hb0, _⟩ := h2 0 hne
      have := hg 0
      rw [hb0] at this
      simp only [Option.map_some] at this
      rw [List.any_eq_true]
      exact ⟨_, List.mem_of_getElem? this, by simp [blockInit, h0]⟩
    simp only [hany, and_true, if_true] at hs
    exact hs

/-- C55 is false for the default seed: nothing but the seed is wrong, and `train()` raises. -/
theorem C55_default_seed_fails (c : TrainSetup) (sizes : List Int) (h : ReadySingle c sizes) (h0 : c.seed = 0)
    (hs : c.hasState = false) (hn : sizes.length ≤ 4294967296) : c.start = .raises .runtimeError := by
  rw [start_zero c sizes h h0 hn, hs]; rfl

/-- C55 with a machine that already has a state (trained before, or loaded): the default seed makes the
state be copied into memory that was never allocated. -/
theorem C55_default_seed_crashes_on_retrain (c : TrainSetup) (sizes : List Int) (h : ReadySingle c sizes)
    (h0 : c.seed = 0) (hs : c.hasState = true) (hn : sizes.length ≤ 4294967296) : c.start = .crash := by
  rw [start_zero c sizes h h0 hn, hs]; rfl

/-- C55: a negative seed is refused with TypeError. -/
theorem C55_negative_seed (c : TrainSetup) (sizes : List Int) (h : ReadySingle c sizes) (h0 : c.seed < 0) :
    c.start = .raises .typeError := by
  have hne : 0 < sizes.length := List.length_pos_iff.2 h.blocks
  rcases start_ready c sizes h with ⟨hf, hs⟩ | ⟨hf, cbs, h1, h2, hs⟩
  · exact hs
  · have hcn : cbs ≠ [] := by intro e; rw [e] at h1; simp at h1; omega
    rw [initBlocks_err cbs c.seed hcn (by omega)] at hs
    exact hs

example : ReadySingle (setupDemo 0) [3, 2, 2] ∧ ReadySingle { setupDemo 0 with hasState := true } [3, 2, 2] ∧
    ReadySingle (setupDemo (-5)) [3, 2, 2] :=
  ⟨setupDemo_ready 0,
    ⟨⟨(setupDemo_ready 0).data, (setupDemo_ready 0).epochs, (setupDemo_ready 0).jobs, rfl, by simp,
      (setupDemo_ready 0).s, rfl, (setupDemo_ready 0).budgets⟩, rfl, Or.inl rfl, rfl⟩,
    setupDemo_ready (-5)⟩

/-- C55, multi-label with a dense or dense-output input block: training starts exactly when the labels have
as many columns as the machine has classes (before doubling); any other number of columns above one raises
RuntimeError. -/
theorem C55_multi_label (c : TrainSetup) (sizes : List Int) (n : Int) (h : ReadyMulti c sizes n)
    (hn : 2 ≤ n) (hs : ¬ (c.xTrain = .csr ∧ c.sparseBackend = true)) :
    (c.tm.nClasses = 2 * n → ∃ blocks, c.start = .started blocks n (some c.seed) c.nJobs) ∧
    (c.tm.nClasses ≠ 2 * n → c.start = .raises .runtimeError) := by
  have hL := inputLabels_same c sizes h.toConfigured
  rw [if_neg hs, h.labels] at hL
  have hsd := h.seed
  have hf : fitsInt c.seed = true := by simp [fitsInt]; omega
  have hK : c.feedbackClasses = .ok (Int.fdiv c.tm.nClasses 2) := by
    unfold TrainSetup.feedbackClasses
    simp [h.feedback, hf, h.multi]
  obtain ⟨cbs, h1, h2, h3, h4⟩ := start_eq c sizes h.toConfigured _ _ hL hK
  obtain ⟨blocks, hb, hl, hg⟩ := initBlocks_get cbs c.seed (by omega) (by omega)
  have hne : 0 < sizes.length := List.length_pos_iff.2 h.blocks
  have hlen : ¬ blocks.length < 1 := by omega
  have hget : ∀ b ∈ blocks, b.1.nClasses = c.tm.nClasses ∧ blockInit b = true := by
    intro b hbm
    obtain ⟨i, hi⟩ := List.getElem?_of_mem hbm
    rw [hg i] at hi
    cases hc : cbs[i]? with
    | none => rw [hc] at hi; cases hi
    | some b' =>
      rw [hc] at hi
      cases hi
      refine ⟨h3 b' (List.mem_of_getElem? hc), ?_⟩
      simp [blockInit]; omega
  have hany : blocks.any (fun b => !blockInit b) = false := by
    rw [List.any_eq_false]
    intro b hbm; simp [(hget b hbm).2]
  rw [hb] at h4
  simp only [hany, Bool.false_eq_true, and_false, if_false, newExecutor, if_neg hlen,
    if_neg (show ¬ c.seed = 0 by omega)] at h4
  have hd : Int.fdiv c.tm.nClasses 2 = c.tm.nClasses / 2 := Int.fdiv_eq_ediv_of_nonneg _ (by omega)
  rw [hd] at h4
  constructor
  · intro hc
    have hq : c.tm.nClasses / 2 = n := by omega
    rw [hq] at h4
    have hany2 : blocks.any (fun b => decide (b.1.nClasses ≠ n * 2)) = false := by
      rw [List.any_eq_false]
      intro b hbm
      have := (hget b hbm).1
      simp; omega
    rw [hany2] at h4
    simp at h4
    exact ⟨blocks, h4⟩
  · intro hc
    rw [h4]
    by_cases hq : n = c.tm.nClasses / 2
    · have hany2 : blocks.any (fun b => decide (b.1.nClasses ≠ n * 2)) = true := by
        rw [List.any_eq_true]
        have h0 : 0 < blocks.length := by omega
        refine ⟨blocks[0], List.getElem_mem h0, ?_⟩
        have := (hget _ (List.getElem_mem h0)).1
        simp; omega
      rw [hany2]
      simp [show n > 1 by omega, ← hq]
    · simp [show n > 1 by omega, hq]

/-- The same trainer with csr data and the sparse backend: the number of label columns is not looked at, so
a mismatch is accepted. -/
theorem C55_sparse_multi_label_unchecked (c : TrainSetup) (sizes : List Int) (n : Int)
    (h : ReadyMulti c sizes n) (hs : c.xTrain = .csr ∧ c.sparseBackend = true) :
    ∃ blocks, c.start = .started blocks (c.tm.nClasses / 2) (some c.seed) c.nJobs := by
  have hL := inputLabels_same c sizes h.toConfigured
  rw [if_pos hs] at hL
  have hsd := h.seed
  have hf : fitsInt c.seed = true := by simp [fitsInt]; omega
  have hK : c.feedbackClasses = .ok (Int.fdiv c.tm.nClasses 2) := by
    unfold TrainSetup.feedbackClasses
    simp [h.feedback, hf, h.multi]
  obtain ⟨cbs, h1, h2, h3, h4⟩ := start_eq c sizes h.toConfigured _ _ hL hK
  obtain ⟨blocks, hb, hl, hg⟩ := initBlocks_get cbs c.seed (by omega) (by omega)
  have hne : 0 < sizes.length := List.length_pos_iff.2 h.blocks
  have hlen : ¬ blocks.length < 1 := by omega
  have hany : blocks.any (fun b => !blockInit b) = false := by
    rw [List.any_eq_false]
    intro b hbm
    obtain ⟨i, hi⟩ := List.getElem?_of_mem hbm
    rw [hg i] at hi
    cases hc : cbs[i]? with
    | none => rw [hc] at hi; cases hi
    | some b' =>
      rw [hc] at hi
      cases hi
      simp [blockInit]; omega
  rw [hb] at h4
  have hd : Int.fdiv c.tm.nClasses 2 = c.tm.nClasses / 2 := Int.fdiv_eq_ediv_of_nonneg _ (by omega)
  rw [hd] at h4
  refine ⟨blocks, ?_⟩
  rw [h4]
  simp [hany, newExecutor, hlen, show ¬ c.seed = 0 by omega]

/-- A three-label trainer; with `csr`, the sparse backend is used. -/
def multiDemo (labels : Int) (csr : Bool) : TrainSetup :=
  { setupDemo 7 with
    tm := { setupTM with multiLabel := true, nClasses := 6 }
    labels := labels
    sparseBackend := csr
    xTrain := if csr then .csr else .dense
    xEval := if csr then .csr else .dense }

theorem multiDemo_ready (n : Int) (csr : Bool) : ReadyMulti (multiDemo n csr) [3, 2, 2] n := by
  have := (setupDemo_ready 7).budgets
  refine ⟨⟨⟨by cases csr <;> simp [multiDemo], rfl⟩, by simp [multiDemo, setupDemo],
    by simp [multiDemo, setupDemo], rfl, by simp,
    by simp [multiDemo, setupTM], rfl, this⟩, rfl, rfl, rfl, by simp [multiDemo, setupDemo]⟩

example : (∃ b, (multiDemo 3 false).start = .started b 3 (some 7) 2) ∧
    (multiDemo 4 false).start = .raises .runtimeError ∧
    (∃ b, (multiDemo 17 true).start = .started b 3 (some 7) 2) :=
  ⟨(C55_multi_label _ _ _ (multiDemo_ready 3 false) (by decide) (by decide)).1 rfl,
   (C55_multi_label _ _ _ (multiDemo_ready 4 false) (by decide) (by decide)).2 (by decide),
   C55_sparse_multi_label_unchecked _ _ _ (multiDemo_ready 17 true) (by decide)⟩

end GT

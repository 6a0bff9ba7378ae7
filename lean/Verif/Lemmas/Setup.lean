import Verif.Spec.Setup
import Verif.Lemmas.Config

/-!
# Lemmas about the start of training
-/

namespace GT

open Spec

theorem initBlocks_ok : ∀ (cbs : List BlockSetup) (seed : Int), 0 ≤ seed →
    seed + cbs.length ≤ 4294967296 →
    initBlocks cbs seed = .ok (cbs.zipIdx.map fun p => (p.1, seed + p.2)) := by
  intro cbs
  induction cbs with
  | nil => intro seed _ _; rfl
  | cons b bs ih =>
    intro seed h0 h1
    simp only [List.length_cons] at h1
    have h2 : fitsUint seed = true := by simp [fitsUint]; omega
    rw [initBlocks, if_pos h2, ih (seed + 1) (by omega) (by push_cast at h1; omega)]
    simp only [List.zipIdx_cons, List.map_cons, Except.ok.injEq, List.cons.injEq, Prod.mk.injEq, true_and]
    refine ⟨by simp, ?_⟩
    apply List.ext_getElem
    · simp
    · intro i h3 h4
      simp; omega

theorem initBlocks_err : ∀ (cbs : List BlockSetup) (seed : Int), cbs ≠ [] →
    ¬ (0 ≤ seed ∧ seed + cbs.length ≤ 4294967296) → initBlocks cbs seed = .error .typeError := by
  intro cbs
  induction cbs with
  | nil => intro seed h; exact absurd rfl h
  | cons b bs ih =>
    intro seed _ h1
    rw [initBlocks]
    by_cases h2 : fitsUint seed = true
    · rw [if_pos h2]
      simp [fitsUint] at h2
      by_cases hb : bs = []
      · subst hb; exfalso; apply h1; simp; omega
      · rw [ih (seed + 1) hb (by simp only [List.length_cons] at h1; push_cast at h1; omega)]
    · rw [if_neg h2]

theorem checkBlockBudgets_none : ∀ (cbs : List BlockSetup),
    (∀ b ∈ cbs, ∀ v, b.budget = some v → 0 ≤ v ∧ v ≤ 4294967295) → checkBlockBudgets cbs = none := by
  intro cbs
  induction cbs with
  | nil => intro _; rfl
  | cons b bs ih =>
    intro h
    have h1 := h b (by simp)
    have h2 := ih (fun b hb => h b (List.mem_cons_of_mem _ hb))
    rw [checkBlockBudgets]
    cases hb : b.budget with
    | none => exact h2
    | some v =>
      have := h1 v hb
      have hf : fitsUint v = true := by simpa [fitsUint] using this
      simp only [hf, if_true]
      exact h2

/-- Construction of the blocks for a valid layout. -/
theorem construct_ok (tm : TM) (sizes : List Int) (hl : tm.blockSizes = some sizes) (hs : tm.s ≠ [])
    (hf : tm.flags = none)
    (hb : tm.budgets ≠ [] ∧ ∀ b ∈ tm.budgets, ∀ v, b = some v → 0 ≤ v ∧ v ≤ 4294967295) :
    ∃ cbs, tm.constructClauseBlocks = .ok cbs ∧ cbs.length = sizes.length ∧ checkBlockBudgets cbs = none ∧
      (∀ i, i < sizes.length → ∃ b, cbs[i]? = some b ∧ b.nClauses = sizes.getD i 0) ∧
      ∀ b ∈ cbs, b.nClasses = tm.nClasses := by
  obtain ⟨u, hu⟩ : ∃ u, u = (match tm.budgets with | some _ :: _ => true | _ => false) := ⟨_, rfl⟩
  have hc : tm.constructClauseBlocks = .ok (buildBlocks tm u ⟨tm.s, tm.s⟩ ⟨tm.budgets, tm.budgets⟩ sizes
      (List.replicate sizes.length true)) := by
    simp only [TM.constructClauseBlocks, hl, hf, hu]; rfl
  obtain ⟨h1, h2⟩ := buildBlocks_get tm u sizes (List.replicate sizes.length true) (by simp) hs hb.1 0
    ⟨tm.s, tm.s⟩ ⟨tm.budgets, tm.budgets⟩ (by simp [CycleAt]) (by simp [CycleAt])
  have h3 : ∀ i, i < sizes.length → ∃ b s, (buildBlocks tm u ⟨tm.s, tm.s⟩ ⟨tm.budgets, tm.budgets⟩ sizes
      (List.replicate sizes.length true))[i]? = some
        { nLiterals := tm.nLiterals, nClauses := sizes.getD i 0, nClasses := tm.nClasses, s := s,
          budget := if u then b else none } ∧ b ∈ tm.budgets := by
    intro i hi
    obtain ⟨s, b, _, hb', hg⟩ := h2 i _ (List.getElem?_eq_getElem hi)
    refine ⟨b, s, ?_, List.mem_of_getElem? hb'⟩
    rw [hg]; simp [hi]
  refine ⟨_, hc, h1, ?_, ?_, ?_⟩
  · apply checkBlockBudgets_none
    intro b hbm v hv
    obtain ⟨i, hi⟩ := List.getElem?_of_mem hbm
    have hlt : i < sizes.length := by
      rcases Nat.lt_or_ge i sizes.length with h | h
      · exact h
      · rw [List.getElem?_eq_none (by omega)] at hi; cases hi
    obtain ⟨b', s, hg, hm⟩ := h3 i hlt
    rw [hi] at hg
    cases hg
    simp only at hv
    split at hv
    · exact hb.2 b' hm v hv
    · cases hv
  · intro i hi
    obtain ⟨b, s, hg, _⟩ := h3 i hi
    exact ⟨_, hg, rfl⟩
  · intro b hbm
    obtain ⟨i, hi⟩ := List.getElem?_of_mem hbm
    have hlt : i < sizes.length := by
      rcases Nat.lt_or_ge i sizes.length with h | h
      · exact h
      · rw [List.getElem?_eq_none (by omega)] at hi; cases hi
    obtain ⟨b', s, hg, hm⟩ := h3 i hlt
    rw [hi] at hg
    cases hg
    rfl

/-- What is left of `start` for a configured trainer. -/
theorem start_eq (c : TrainSetup) (sizes : List Int) (h : Configured c sizes) (L K : Int)
    (hL : c.inputLabels = .ok L) (hK : c.feedbackClasses = .ok K) :
    ∃ cbs : List BlockSetup, cbs.length = sizes.length ∧
      (∀ i, i < sizes.length → ∃ b, cbs[i]? = some b ∧ b.nClauses = sizes.getD i 0) ∧
      (∀ b ∈ cbs, b.nClasses = c.tm.nClasses) ∧
      c.start = match initBlocks cbs c.seed with
        | .error e => .raises e
        | .ok blocks =>
          if c.hasState ∧ blocks.any (fun b => !blockInit b) then .crash
          else
            match newExecutor L K blocks with
            | some e => .raises e
            | none => .started blocks K (if c.seed = 0 then none else some c.seed) c.nJobs := by
  obtain ⟨cbs, h1, h2, h3, h4, h5⟩ := construct_ok c.tm sizes h.layout h.s h.flags h.budgets
  refine ⟨cbs, h2, h4, h5, ?_⟩
  have hj : fitsInt c.nJobs = true := by
    have := h.jobs; simp [fitsInt]; omega
  have hne : cbs.length ≠ 0 := by
    rw [h2]; intro e; exact h.blocks (List.eq_nil_of_length_eq_zero e)
  have he : ¬ c.nEpochs < 1 := by have := h.epochs; omega
  have hj2 : ¬ c.nJobs < 0 := by have := h.jobs; omega
  simp only [TrainSetup.start, if_neg h.data.1, hL, hK, TM.ensureBlocks, h.layout, h1, h3, if_neg he,
    if_neg hne, hj, Bool.not_true, Bool.false_eq_true, if_false, if_neg hj2]
  rfl

/-- With a seed whose block seeds fit, the blocks are initialised with consecutive seeds. -/
theorem initBlocks_get (cbs : List BlockSetup) (seed : Int) (h0 : 0 ≤ seed)
    (h1 : seed + cbs.length ≤ 4294967296) :
    ∃ blocks, initBlocks cbs seed = .ok blocks ∧ blocks.length = cbs.length ∧
      ∀ i : Nat, blocks[i]? = cbs[i]?.map fun b => (b, seed + (i : Int)) := by
  refine ⟨_, initBlocks_ok cbs seed h0 h1, by simp, ?_⟩
  intro i
  simp only [List.getElem?_map, List.getElem?_zipIdx]
  cases cbs[i]? <;> simp

theorem inputLabels_same (c : TrainSetup) (sizes : List Int) (h : Configured c sizes) :
    c.inputLabels = .ok (if c.xTrain = .csr ∧ c.sparseBackend = true then 0 else c.labels) := by
  obtain ⟨h1, h2⟩ := h.data
  unfold TrainSetup.inputLabels
  rw [h2]
  cases hx : c.xTrain <;> simp_all

end GT

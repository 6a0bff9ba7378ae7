import Verif.Lemmas.Config

/-!
# Properties of the machine configuration (C01, C02, C03, C35)
-/

namespace GT
open Spec

def exTM : TM :=
  { nLiterals := 4, nClauses := 7, nClasses := 2, s := [2, 3], threshold := 10, budgets := [some 4],
    budgetList := none, boost := false, multiLabel := false, blockSizes := none, flags := none }

/-! ## C01 -/

/-- C01, int argument: the call succeeds exactly when `1 ≤ b ≤ n_clauses`, and then the stored sizes are
the even split, which is a partition of the clauses. -/
theorem C01_int_blocks (tm : TM) (b : Int) (hn : 0 ≤ tm.nClauses) :
    ((tm.setNumClauseBlocks (.int b)).2 = none ↔ 1 ≤ b ∧ b ≤ tm.nClauses) ∧
    ((tm.setNumClauseBlocks (.int b)).2 = none →
      ∃ sizes, (tm.setNumClauseBlocks (.int b)).1 = { tm with blockSizes := some sizes } ∧
        IsPartition tm.nClauses sizes ∧ EvenSplit tm.nClauses b.toNat sizes) := by
  unfold TM.setNumClauseBlocks
  dsimp only
  by_cases h0 : b = 0
  · simp [h0]
  rw [if_neg h0]
  by_cases hneg : b < 0
  · have : b.toNat = 0 := by omega
    simp only [this, List.replicate_zero]
    simp; omega
  · obtain ⟨k, hk⟩ : ∃ k : Nat, b = k + 1 := ⟨b.toNat - 1, by omega⟩
    have hb : b.toNat = k + 1 := by omega
    have hd : Int.fdiv tm.nClauses b = tm.nClauses / b := Int.fdiv_eq_ediv_of_nonneg _ (by omega)
    have hm : Int.fmod tm.nClauses b = tm.nClauses % b := Int.fmod_eq_emod_of_nonneg _ (by omega)
    simp only [hb, List.replicate_succ, hd, hm]
    have hdm := Int.mul_ediv_add_emod tm.nClauses b
    have hmn := Int.emod_nonneg tm.nClauses h0
    have hml := Int.emod_lt_of_pos tm.nClauses (show 0 < b by omega)
    have hdn : 0 ≤ tm.nClauses / b := Int.ediv_nonneg hn (by omega)
    have hiff : checkSizes ((tm.nClauses / b + tm.nClauses % b) :: List.replicate k (tm.nClauses / b))
        = none ↔ 1 ≤ b ∧ b ≤ tm.nClauses := by
      rw [checkSizes_none]
      simp only [List.mem_cons, List.mem_replicate]
      constructor
      · intro h
        refine ⟨by omega, ?_⟩
        by_cases hk0 : k = 0
        · have h1 := h _ (Or.inl rfl)
          have hb1 : b = 1 := by omega
          subst hb1
          simp at h1
          omega
        · have := h (tm.nClauses / b) (Or.inr ⟨hk0, rfl⟩)
          have h2 : b * 1 ≤ b * (tm.nClauses / b) := Int.mul_le_mul_of_nonneg_left this (by omega)
          omega
      · rintro ⟨h1, h2⟩ v hv
        have hd1 : 1 ≤ tm.nClauses / b := (Int.le_ediv_iff_mul_le (by omega)).mpr (by omega)
        rcases hv with rfl | ⟨_, rfl⟩ <;> omega
    refine ⟨hiff, fun hok => ⟨_, rfl, ⟨?_, ?_⟩, ?_, ?_, ?_⟩⟩
    · exact (checkSizes_none _).mp hok
    · simp only [List.sum_cons, sum_replicate_int]
      have : b * (tm.nClauses / b) = k * (tm.nClauses / b) + tm.nClauses / b := by
        rw [hk, Int.add_mul]; omega
      omega
    · simp
    · have hc : ((k + 1 : Nat) : Int) = b := by omega
      rw [hc]; rfl
    · intro i h1 h2
      have hc : ((k + 1 : Nat) : Int) = b := by omega
      obtain ⟨i, rfl⟩ : ∃ j, i = j + 1 := ⟨i - 1, by omega⟩
      rw [List.getElem?_cons_succ, List.getElem?_replicate, if_pos (by omega), hc]

/-- C01, int argument: which exception is raised. -/
theorem C01_int_errors (tm : TM) (b : Int) :
    (b = 0 → (tm.setNumClauseBlocks (.int b)).2 = some .zeroDivisionError) ∧
    (b < 0 → (tm.setNumClauseBlocks (.int b)).2 = some .indexError) ∧
    (0 < b → (tm.setNumClauseBlocks (.int b)).2 = none ∨
      (tm.setNumClauseBlocks (.int b)).2 = some .valueError) := by
  unfold TM.setNumClauseBlocks
  dsimp only
  refine ⟨fun h => by simp [h], fun h => ?_, fun h => ?_⟩
  · have : b.toNat = 0 := by omega
    rw [if_neg (by omega)]
    simp [this]
  · obtain ⟨k, hk⟩ : ∃ k : Nat, b.toNat = k + 1 := ⟨b.toNat - 1, by omega⟩
    rw [if_neg (by omega)]
    simp only [hk, List.replicate_succ, checkSizes]
    split <;> simp

/-- C01, list argument: the call succeeds exactly when the list is a partition of the clauses, and then
the list is stored; otherwise it raises ValueError. -/
theorem C01_list_blocks (tm : TM) (sizes : List Int) :
    ((tm.setNumClauseBlocks (.list sizes)).2 = none ↔ IsPartition tm.nClauses sizes) ∧
    ((tm.setNumClauseBlocks (.list sizes)).2 = none →
      (tm.setNumClauseBlocks (.list sizes)).1 = { tm with blockSizes := some sizes }) ∧
    ((tm.setNumClauseBlocks (.list sizes)).2 ≠ none →
      (tm.setNumClauseBlocks (.list sizes)).2 = some .valueError) := by
  unfold TM.setNumClauseBlocks IsPartition
  dsimp only
  by_cases h : sizes.sum ≠ tm.nClauses
  · rw [if_pos h]; simp; intro _ h'; exact absurd h' h
  · rw [if_neg h]
    refine ⟨?_, fun _ => rfl, ?_⟩
    · simp only [checkSizes_none]; simp only [ne_eq, Decidable.not_not] at h; simp [h]
    · simp only [checkSizes]; split <;> simp

example : (exTM.setNumClauseBlocks (.int 3)).2 = none ∧
    (exTM.setNumClauseBlocks (.int 3)).1.blockSizes = some [3, 2, 2] ∧
    (exTM.setNumClauseBlocks (.int 8)).2 = some .valueError ∧
    (exTM.setNumClauseBlocks (.list [3, 4])).2 = none := by decide

/-- C01, the trainer's default: with `n_jobs` between 1 and the number of clauses the trainer always
gets a legal layout with one block per job. -/
theorem C01_trainer_default (tm : TM) (nJobs : Int) (hnone : tm.blockSizes = none) (h1 : 1 ≤ nJobs)
    (h2 : nJobs ≤ tm.nClauses) :
    ∃ sizes, tm.ensureBlocks nJobs = ({ tm with blockSizes := some sizes }, none) ∧
      IsPartition tm.nClauses sizes ∧ sizes.length = nJobs.toNat := by
  have h := C01_int_blocks tm nJobs (by omega)
  have hok := h.1.mpr ⟨h1, h2⟩
  obtain ⟨sizes, e, hp, he⟩ := h.2 hok
  refine ⟨sizes, ?_, hp, he.1⟩
  simp only [TM.ensureBlocks, hnone]
  rw [← e, ← hok]

/-! ## C02 -/

/-- C02 (partial): with at least one `s` value and block sizes set, one block is built per block size, in
order; block `k` has that size and `s[k mod len(s)]`; and if an integer budget was set through
`set_literal_budget`, every block gets it.  Missing: budgets passed as a *list* are not dealt to the blocks
(see `C02_budget_list_is_ignored`), and the trainable flags never reach the blocks. -/
theorem C02_blocks_partial (tm : TM) (sizes : List Int) (hsz : tm.blockSizes = some sizes)
    (hfl : tm.flags = none) (hs : tm.s ≠ []) (b : Int) (hb : 1 ≤ b) :
    ∃ tm' blocks, tm.setLiteralBudget (.int b) = (tm', none) ∧
      tm'.constructClauseBlocks = .ok blocks ∧ blocks.length = sizes.length ∧
      ∀ k (n : Int), sizes[k]? = some n →
        ∃ s, tm.s[k % tm.s.length]? = some s ∧
          blocks[k]? = some { nLiterals := tm.nLiterals, nClauses := n, nClasses := tm.nClasses,
                              s := s, budget := some b } := by
  refine ⟨{ tm with budgets := [some b] },
    buildBlocks { tm with budgets := [some b] } true ⟨tm.s, tm.s⟩ ⟨[some b], [some b]⟩ sizes
      (List.replicate sizes.length true), ?_, ?_, ?_⟩
  · have : ¬ b < 1 := by omega
    simp [TM.setLiteralBudget, checkBudgets, this]
  · simp [TM.constructClauseBlocks, hsz, hfl]
  · obtain ⟨l, g⟩ := buildBlocks_get { tm with budgets := [some b] } true sizes
      (List.replicate sizes.length true) (by simp) hs (by simp) 0 ⟨tm.s, tm.s⟩
      ⟨[some b], [some b]⟩ ⟨rfl, by simp⟩ ⟨rfl, by simp⟩
    refine ⟨l, ?_⟩
    intro k n hk
    obtain ⟨s, b', h1, h2, h3⟩ := g k n hk
    simp [Nat.mod_one] at h2
    subst h2
    exact ⟨s, by simpa using h1, by simpa using h3⟩

/-- C02: without any budget, no block gets one. -/
theorem C02_no_budget (tm : TM) (sizes : List Int) (hsz : tm.blockSizes = some sizes)
    (hfl : tm.flags = none) (hs : tm.s ≠ []) (hb : tm.budgets = [none]) :
    ∃ blocks, tm.constructClauseBlocks = .ok blocks ∧ blocks.length = sizes.length ∧
      ∀ k (n : Int), sizes[k]? = some n →
        ∃ s, tm.s[k % tm.s.length]? = some s ∧
          blocks[k]? = some { nLiterals := tm.nLiterals, nClauses := n, nClasses := tm.nClasses,
                              s := s, budget := none } := by
  refine ⟨buildBlocks tm false ⟨tm.s, tm.s⟩ ⟨[none], [none]⟩ sizes
    (List.replicate sizes.length true), by simp [TM.constructClauseBlocks, hsz, hfl, hb], ?_⟩
  obtain ⟨l, g⟩ := buildBlocks_get tm false sizes
    (List.replicate sizes.length true) (by simp) hs (by simp [hb]) 0 ⟨tm.s, tm.s⟩
    ⟨tm.budgets, tm.budgets⟩ ⟨rfl, by simp⟩ ⟨rfl, by simp⟩
  rw [hb] at l g
  refine ⟨l, ?_⟩
  intro k n hk
  obtain ⟨s, b', h1, h2, h3⟩ := g k n hk
  exact ⟨s, by simpa using h1, by simpa using h3⟩

/-- The unchanged code violates C02: a list of budgets is accepted and has no effect on any block. -/
theorem C02_budget_list_is_ignored :
    ∃ (tm : TM) (bs : List Int), (tm.setLiteralBudget (.list bs)).2 = none ∧
      (∀ b ∈ bs, 1 ≤ b) ∧
      (tm.setLiteralBudget (.list bs)).1.constructClauseBlocks = tm.constructClauseBlocks ∧
      ∃ blocks, tm.constructClauseBlocks = .ok blocks ∧ blocks.length = 2 ∧
        ∀ k, blocks[k]?.map BlockSetup.budget ≠ bs[k]?.map some ∨ 2 ≤ k := by
  refine ⟨{ exTM with blockSizes := some [3, 4] }, [10, 20], by decide, by decide, rfl, _, rfl,
    by decide, ?_⟩
  rintro (_ | _ | k)
  · left; decide
  · left; decide
  · right; omega

/-- On a machine built without a budget, a list of budgets raises TypeError. -/
theorem C02_budget_list_type_error (tm : TM) (bs : List Int) (h : tm.budgets = [none]) :
    (tm.setLiteralBudget (.list bs)).2 = some .typeError := by
  simp [TM.setLiteralBudget, h, checkBudgets]

/-- `set_trainable_flags` never succeeds. -/
theorem C02_flags_never_settable (tm : TM) (fs : List Bool) :
    (tm.setTrainableFlags fs).2 ≠ none := by
  unfold TM.setTrainableFlags
  repeat' split
  all_goals simp

example : ∃ blocks, ({ exTM with blockSizes := some [3, 2, 2] } : TM).constructClauseBlocks = .ok blocks ∧
    blocks.map (fun b => (b.nClauses, b.s, b.budget)) =
      [(3, 2, some 4), (2, 3, some 4), (2, 2, some 4)] := ⟨_, rfl, by decide⟩

/-! ## C03 -/

/-- C03 (partial): construction succeeds iff every `s` is at least 1 and the threshold is at least 1, the
object then reports the given parameters, with doubled classes iff multi-label; otherwise ValueError.
Missing: the literal budget is not checked, see `C03_budget_not_checked`. -/
theorem C03_constructor_partial (nl ncl ncs : Int) (s : SArg) (t : Int) (budget : Option Int)
    (boost ml : Bool) :
    (((∀ v ∈ sValues s, 1 ≤ v) ∧ 1 ≤ t) →
      ∃ tm, TM.new nl ncl ncs s t budget boost ml = .ok tm ∧ tm.nLiterals = nl ∧ tm.nClauses = ncl ∧
        tm.nClasses = (if ml then 2 * ncs else ncs) ∧ tm.s = sValues s ∧ tm.threshold = t ∧
        tm.budgets = [budget] ∧ tm.boost = boost ∧ tm.multiLabel = ml ∧ tm.blockSizes = none) ∧
    (¬ ((∀ v ∈ sValues s, 1 ≤ v) ∧ 1 ≤ t) →
      TM.new nl ncl ncs s t budget boost ml = .error .valueError) := by
  have hany : ((sValues s).any (fun v => decide (v < 1)) = true) ↔ ¬ ∀ v ∈ sValues s, 1 ≤ v := by
    simp only [List.any_eq_true, decide_eq_true_eq]
    constructor
    · rintro ⟨v, hv, h1⟩ h
      exact absurd (h v hv) (Rat.not_le.mpr h1)
    · intro h
      simp only [Classical.not_forall] at h
      obtain ⟨v, hv, h1⟩ := h
      exact ⟨v, hv, Rat.not_le.mp h1⟩
  have hnew : TM.new nl ncl ncs s t budget boost ml =
      if (sValues s).any (fun s => s < 1) then .error .valueError
      else if t < 1 then .error .valueError
      else .ok
        { nLiterals := nl, nClauses := ncl, nClasses := if ml then ncs * 2 else ncs,
          s := sValues s, threshold := t, budgets := [budget], budgetList := none, boost := boost,
          multiLabel := ml, blockSizes := none, flags := none } := by
    cases s <;> rfl
  rw [hnew]
  constructor
  · rintro ⟨h1, h2⟩
    rw [if_neg (by rw [hany]; exact fun h => h h1), if_neg (by omega)]
    refine ⟨_, rfl, rfl, rfl, ?_, rfl, rfl, rfl, rfl, rfl, rfl⟩
    dsimp only; split <;> omega
  · intro h
    split
    · rfl
    · rename_i h1
      rw [hany, Classical.not_not] at h1
      have h2 : ¬ 1 ≤ t := fun h2 => h ⟨h1, h2⟩
      rw [if_pos (by omega)]

/-- The unchanged code violates C03: a machine with literal budget 0 is constructed (while
`set_literal_budget(0)` raises on the same machine). -/
theorem C03_budget_not_checked :
    ∃ tm, TM.new 4 5 2 (.float 3) 10 (some 0) false false = .ok tm ∧ tm.budgets = [some 0] ∧
      (tm.setLiteralBudget (.int 0)).2 = some .valueError := by
  refine ⟨_, rfl, rfl, ?_⟩
  decide

/-- An empty list of `s` values is accepted, and then no clause block is ever built. -/
theorem C03_empty_s_accepted :
    ∃ tm, TM.new 4 5 2 (.list []) 10 none false false = .ok tm ∧
      (tm.setNumClauseBlocks (.int 2)).2 = none ∧
      (tm.setNumClauseBlocks (.int 2)).1.constructClauseBlocks = .ok [] := by
  exact ⟨_, rfl, by decide, rfl⟩

example : (∀ v ∈ sValues (.list [1, 5 / 2]), 1 ≤ v) ∧ ¬ (∀ v ∈ sValues (.float (1 / 2)), 1 ≤ v) := by
  decide +kernel

/-! ## C35 -/

/-- C35 (partial): when the body ends normally, block `i` is initialised exactly once, with seed
`seed + i`, before the body runs, and cleaned up exactly once after it; different blocks get different
seeds.  Missing: clean-up when the body raises, see `C35_no_cleanup_on_exception`. -/
theorem C35_allocation_partial (n : Nat) (hn : 0 < n) (seed : Int) :
    ∃ inits cleanups, allocateClauseBlocks n seed .returns = .ok (inits ++ [.body] ++ cleanups) ∧
      inits.length = n ∧ cleanups.length = n ∧
      (∀ i, i < n → inits[i]? = some (.init i (seed + i)) ∧ cleanups[i]? = some (.cleanup i)) ∧
      (∀ i j : Nat, i < n → j < n → i ≠ j → seed + (i : Int) ≠ seed + (j : Int)) := by
  refine ⟨initEvents 0 n seed, (List.range n).map .cleanup, ?_, ?_, by simp, ?_, ?_⟩
  · simp [allocateClauseBlocks, show n ≠ 0 by omega]
  · simp [initEvents_eq]
  · intro i hi
    simp [initEvents_eq, hi]
  · intro i j _ _ h; omega

/-- When the body raises, all blocks have been initialised as above and none is cleaned up. -/
theorem C35_exception_trace (n : Nat) (hn : 0 < n) (seed : Int) :
    ∃ inits, allocateClauseBlocks n seed .raises = .ok (inits ++ [.body]) ∧ inits.length = n ∧
      ∀ i, i < n → inits[i]? = some (.init i (seed + i)) := by
  refine ⟨initEvents 0 n seed, ?_, ?_, ?_⟩
  · simp [allocateClauseBlocks, show n ≠ 0 by omega]
  · simp [initEvents_eq]
  · intro i hi
    simp [initEvents_eq, hi]

/-- The unchanged code violates C35: when the body raises, block 0 is initialised but never cleaned up. -/
theorem C35_no_cleanup_on_exception :
    ∃ es, allocateClauseBlocks 2 42 .raises = .ok es ∧ count (.init 0 42) es = 1 ∧
      count (.cleanup 0) es = 0 := ⟨_, rfl, by decide, by decide⟩

/-! ## C53 -/

/-- C53 (partial): positive values are taken as they are, 0 means one job, and a negative value down to
minus the number of cpus means "all but |n_jobs|-1"; in these cases there is at least one job.
Missing: smaller values, see `C53_too_negative_is_not_rejected`. -/
theorem C53_jobs_partial (nCpus nJobs : Int) (_hc : 1 ≤ nCpus) (hj : -nCpus ≤ nJobs) :
    1 ≤ resolveJobs nCpus nJobs ∧
    (1 ≤ nJobs → resolveJobs nCpus nJobs = nJobs) ∧ (nJobs = 0 → resolveJobs nCpus nJobs = 1) ∧
    (nJobs < 0 → resolveJobs nCpus nJobs = nCpus - ((nJobs.natAbs : Int) - 1)) := by
  unfold resolveJobs
  refine ⟨?_, ?_, ?_, ?_⟩ <;> grind

/-- The unchanged code violates C53: below minus the number of cpus the number of jobs is zero or negative,
and the trainer's default block layout then fails with ZeroDivisionError or IndexError. -/
theorem C53_too_negative_is_not_rejected (nCpus nJobs : Int) (_hc : 1 ≤ nCpus) (hj : nJobs < -nCpus)
    (tm : TM) (hnone : tm.blockSizes = none) :
    resolveJobs nCpus nJobs ≤ 0 ∧
    ((tm.ensureBlocks (resolveJobs nCpus nJobs)).2 = some .zeroDivisionError ∨
     (tm.ensureBlocks (resolveJobs nCpus nJobs)).2 = some .indexError) := by
  have h : resolveJobs nCpus nJobs ≤ 0 := by unfold resolveJobs; grind
  refine ⟨h, ?_⟩
  generalize resolveJobs nCpus nJobs = m at *
  simp only [TM.ensureBlocks, hnone, TM.setNumClauseBlocks]
  by_cases h0 : m = 0
  · left; simp [h0]
  · right
    have : m.toNat = 0 := by omega
    simp [h0, this]

example : resolveJobs 8 (-1) = 8 ∧ resolveJobs 8 (-8) = 1 ∧ resolveJobs 8 (-9) = 0 := by decide

/-! ## C54 -/

/-- C54 (partial): calls rejected before anything is assigned leave the machine unchanged: zero blocks, a
list of sizes with the wrong sum, flags before the blocks are set or of the wrong length.
Missing: see `C54_rejected_calls_are_kept`. -/
theorem C54_rejected_unchanged_partial (tm : TM) :
    (tm.setNumClauseBlocks (.int 0)).1 = tm ∧
    (∀ sizes : List Int, sizes.sum ≠ tm.nClauses →
      (tm.setNumClauseBlocks (.list sizes)).1 = tm ∧
      (tm.setNumClauseBlocks (.list sizes)).2 = some .valueError) ∧
    (∀ fs, (tm.setTrainableFlags fs).2 = some .valueError → (tm.setTrainableFlags fs).1 = tm) := by
  refine ⟨by simp [TM.setNumClauseBlocks], ?_, ?_⟩
  · intro sizes h
    simp [TM.setNumClauseBlocks, h]
  · intro fs h
    unfold TM.setTrainableFlags at *
    cases hb : tm.blockSizes with
    | none => rfl
    | some sizes =>
      simp only [hb] at h ⊢
      split <;> simp_all

/-- The unchanged code violates C54: the rejected value is stored all the same. A budget below 1, more
blocks than clauses, and a list containing a size below 1 all raise ValueError and are kept; every
well-formed list of trainable flags raises NotImplementedError and is kept. -/
theorem C54_rejected_calls_are_kept (tm : TM) :
    (∀ b : Int, b < 1 → (tm.setLiteralBudget (.int b)).2 = some .valueError ∧
      (tm.setLiteralBudget (.int b)).1.budgets = [some b]) ∧
    (∀ sizes : List Int, sizes.sum = tm.nClauses → (∃ n ∈ sizes, n < 1) →
      (tm.setNumClauseBlocks (.list sizes)).2 = some .valueError ∧
      (tm.setNumClauseBlocks (.list sizes)).1.blockSizes = some sizes) ∧
    (∀ b : Int, 0 ≤ tm.nClauses → tm.nClauses < b → 1 < b →
      (tm.setNumClauseBlocks (.int b)).2 = some .valueError ∧
      (tm.setNumClauseBlocks (.int b)).1.blockSizes =
        some (tm.nClauses :: List.replicate (b.toNat - 1) 0)) ∧
    (∀ sizes fs, tm.blockSizes = some sizes → fs.length = sizes.length →
      (tm.setTrainableFlags fs).2 = some .notImplementedError ∧
      (tm.setTrainableFlags fs).1.flags = some fs) := by
  refine ⟨?_, ?_, ?_, ?_⟩
  · intro b hb
    simp [TM.setLiteralBudget, checkBudgets, hb]
  · rintro sizes hs ⟨n, hn, hn1⟩
    have : sizes.any (fun n => decide (n < 1)) = true := by
      rw [List.any_eq_true]; exact ⟨n, hn, by simpa using hn1⟩
    simp [TM.setNumClauseBlocks, hs, checkSizes, this]
  · intro b h0 h1 h2
    have e : b.toNat = (b.toNat - 2) + 1 + 1 := by omega
    have e1 : tm.nClauses.fdiv b = 0 := by
      rw [Int.fdiv_eq_ediv_of_nonneg _ (by omega)]; exact Int.ediv_eq_zero_of_lt h0 h1
    have e2 : tm.nClauses.fmod b = tm.nClauses := by
      rw [Int.fmod_eq_emod_of_nonneg _ (by omega)]; exact Int.emod_eq_of_lt h0 h1
    have e3 : b.toNat - 1 = (b.toNat - 2) + 1 := by omega
    simp only [TM.setNumClauseBlocks, show b ≠ 0 by omega, if_false, e1, e2]
    rw [e, List.replicate_succ]
    simp [checkSizes, List.replicate_succ]
  · intro sizes fs h1 h2
    simp [TM.setTrainableFlags, h1, h2]

example : ([2, 0, 3] : List Int).sum = 5 ∧ ∃ n ∈ ([2, 0, 3] : List Int), n < 1 := by decide

end GT

import Verif.Lemmas.SparseFeedback
import Verif.Props.Dense

/-!
# C36, C37, C38, C59, C60, C61: the sparse clause block

An example is the list of its literals that are 1, sorted, as a canonical CSR row gives it.
-/

namespace GT
open Spec

/-! ## Concrete blocks and histories -/

/-- A generator whose draws are all 1/4: all initial weights are -1 and every probability above 1/4 lets its event
happen. -/
def exQuarter : Rng := ⟨fun _ => 1 / 4, 0⟩

/-- Clause size 1, two active literals, new literals start at -1. -/
def exSCfg : SCfg := ⟨some 10, true, false, 1 / 2, 1 / 2, 1, 2, -6⟩

/-- Clause size 3. -/
def exSCfg3 : SCfg := { exSCfg with clauseSize := 3 }

/-- A fresh block with one clause and two classes. -/
def exSBlock (cfg : SCfg) : SBlock := ((initSparse 6 1 2 cfg (fun _ => exQuarter) (fun _ => 0) 1)).getD
  ⟨0, 0, cfg, [], [], [], exQuarter⟩

/-- Training on one example: outputs and votes, then feedback, which updates every clause for the target and with
probability `p` against the other class. -/
def exStep (x : List Nat) (target against : Nat) (p : Rat) : List BlockOp :=
  [.trainExample x, .trainUpdate x ⟨target, 1, against, p⟩]

example : ∃ b, initSparse 6 1 2 exSCfg (fun _ => exQuarter) (fun _ => 0) 1 = some b ∧ exSBlock exSCfg = b :=
  ⟨_, rfl, rfl⟩

/-! ## C36 -/

/-- C36: from a fresh block, after any history of training and evaluation calls with any examples, feedback and
draws, every clause has both halves strictly increasing and at most `clause_size` long each, and tracks only literals
of examples it was trained on. Missing from the full claim: the bound holds per half, not for the clause in total
(`C36_total_can_exceed_clause_size`). -/
theorem C36_every_history_partial (nLits nClauses nClasses : Nat) (cfg : SCfg) (fastOf : Nat → Rng)
    (junk : Nat → Nat) (seed : Nat) (b : SBlock)
    (hb : initSparse nLits nClauses nClasses cfg fastOf junk seed = some b) (ops : List BlockOp) :
    ∀ c ∈ (sRun b ops).clauses,
      SortedHalf c.pos ∧ SortedHalf c.neg ∧
      c.pos.length ≤ cfg.clauseSize ∧ c.neg.length ≤ cfg.clauseSize ∧
      c.pos.length + c.neg.length ≤ 2 * cfg.clauseSize ∧
      (∀ e ∈ c.pos, SeenIn ops e.1) ∧ (∀ e ∈ c.neg, SeenIn ops e.1) := by
  intro c hc
  obtain ⟨_, h, _⟩ := run_ok cfg [] ops b (initSparse_ok nLits nClauses nClasses cfg fastOf junk seed b hb).1
  obtain ⟨⟨h1, h2, h3, h4⟩, h5, h6⟩ := h c hc
  simp only [List.nil_append] at h5 h6
  exact ⟨h1, h2, h3, h4, by omega, h5, h6⟩

/-- C36 is false as stated: two training steps take a fresh block with `clause_size = 1` to a clause with two
literals. -/
theorem C36_total_can_exceed_clause_size :
    ∃ ops, ∃ c ∈ (sRun (exSBlock exSCfg) ops).clauses, exSCfg.clauseSize < c.pos.length + c.neg.length := by
  refine ⟨exStep [0, 1] 0 1 1 ++ exStep [0] 1 0 1, ⟨[(1, 0)], [(0, 0)], [-1, -1], 1, 0⟩, ?_, by decide⟩
  have : (sRun (exSBlock exSCfg) (exStep [0, 1] 0 1 1 ++ exStep [0] 1 0 1)).clauses =
      [⟨[(1, 0)], [(0, 0)], [-1, -1], 1, 0⟩] := by decide +kernel
  rw [this]; simp

/-- C36: every training update keeps a well-formed clause well-formed, also from a state that was loaded. -/
theorem C36_update_keeps_order (cfg : SCfg) (x : List Nat) (j : Nat) (target : Int) (c : SClause)
    (al : List Nat × Nat) (g : Rng) (hc : Tidy cfg c) :
    Tidy cfg (sClauseUpdate cfg x j target c al g).1 := by
  obtain ⟨hp, hq, hlp, hlq⟩ := hc
  unfold sClauseUpdate
  dsimp only
  generalize (if c.w.getD j 0 ≥ 0 then (1 : Int) else -1) = sign
  by_cases h1 : target * sign > 0
  · simp only [h1, if_true]
    by_cases h2 : c.out = 1
    · simp only [h2, if_true]
      have e := sT1a_lits cfg x c.pos c.neg al g
      have a := tidy_of_sublist _ _ _ hp hlp e.1 cfg.lowerTA
      have b := tidy_of_sublist _ _ _ hq hlq e.2 cfg.lowerTA
      exact ⟨a.1, b.1, a.2.1, b.2.1⟩
    · by_cases h3 : c.out = 0
      · simp only [h3, if_true]
        have e := sT1b_lits cfg c.pos c.neg g
        have a := tidy_of_sublist _ _ _ hp hlp e.1 cfg.lowerTA
        have b := tidy_of_sublist _ _ _ hq hlq e.2 cfg.lowerTA
        exact ⟨a.1, b.1, a.2.1, b.2.1⟩
      · simp only [h2, h3, if_false]
        exact ⟨hp, hq, hlp, hlq⟩
  · simp only [h1, if_false]
    by_cases h2 : target * sign < 0 ∧ c.out = 1
    · simp only [h2, and_self, if_true]
      obtain ⟨a, b, d, e, _⟩ := sT2_spec cfg x c.pos c.neg al.1 g hp hq hlp hlq
      exact ⟨a, b, d, e⟩
    · simp only [h2, if_false]
      exact ⟨hp, hq, hlp, hlq⟩

example : Tidy exSCfg3 ⟨[(0, 3), (4, -2)], [(1, -1)], [2, -1], 1, 0⟩ := by decide

/-! ## C37 -/

/-- C37: exactly when the training output is 1: every included negated literal is absent, and every included positive
literal is present or - the flaw of the scan - is greater than all literals of the example without being the last
literal the clause tracks. -/
theorem C37_train_exact (cfg : SCfg) (x : List Nat) (c : SClause) (hx : SortedEx x) :
    ((sSetClause cfg x c).out = 1 ↔
      (∀ t, On c.pos t → t ∈ x ∨ (¬ IsLast c.pos t ∧ ∀ l ∈ x, l < t)) ∧ (∀ t, On c.neg t → t ∉ x)) ∧
    ((sSetClause cfg x c).out = 0 ∨ (sSetClause cfg x c).out = 1) := sSetClause_out cfg x c hx

/-- C37: with a literal budget the recorded count is the number of included literals, for firing and silent
clauses alike. -/
theorem C37_literal_count (cfg : SCfg) (x : List Nat) (c : SClause) (hb : cfg.budget.isSome) :
    (sSetClause cfg x c).cnt =
      (c.pos.filter (fun e => decide (0 ≤ e.2))).length + (c.neg.filter (fun e => decide (0 ≤ e.2))).length := by
  unfold sSetClause
  split
  · rename_i h
    have h1 := List.length_eq_zero_iff.mp h.1
    have h2 := List.length_eq_zero_iff.mp h.2
    simp [h1, h2]
  · simp only [countOn_eq]

/-- C37, training: the sparse output is the output of the dense clause with the same included literals, provided the
last tracked positive literal is included or the example has a literal that is not smaller. Missing from the full
claim: clauses whose last tracked positive literal is excluded, on examples that end before it
(`C37_missing_literal_not_noticed`). -/
theorem C37_train_same_as_dense_partial (n : Nat) (cfg : SCfg) (dcfg : Cfg) (x : List Nat) (c : SClause)
    (hx : SortedEx x) (hp : SortedHalf c.pos) (hq : SortedHalf c.neg) (hn : LitsBelow n c)
    (hl : ∀ t, IsLast c.pos t → On c.pos t ∨ ∃ l ∈ x, t ≤ l) :
    (sSetClause cfg x c).out = (setOutClause dcfg (denseEx n x) (denseClause n c)).out := by
  have h1 := sSetClause_out cfg x c hx
  have h2 := C06_train_output dcfg (denseEx n x) (denseClause n c) (denseEx_binary n x) (denseClause_shaped n x c)
  rw [weak_iff c x hp hl] at h1
  rw [satisfied_dense n x c hp hq hn] at h2
  have hiff := h1.1.trans h2.1.symm
  have h3 := h2.2.1
  have h4 := h1.2
  grind

/-- C37, training: whenever the dense clause fires, the sparse clause fires. -/
theorem C37_train_fires_when_dense_fires (n : Nat) (cfg : SCfg) (dcfg : Cfg) (x : List Nat) (c : SClause)
    (hx : SortedEx x) (hp : SortedHalf c.pos) (hq : SortedHalf c.neg) (hn : LitsBelow n c)
    (hd : (setOutClause dcfg (denseEx n x) (denseClause n c)).out = 1) : (sSetClause cfg x c).out = 1 := by
  have h2 := C06_train_output dcfg (denseEx n x) (denseClause n c) (denseEx_binary n x) (denseClause_shaped n x c)
  have h := (satisfied_dense n x c hp hq hn).mp (h2.1.mp hd)
  exact (sSetClause_out cfg x c hx).1.mpr ⟨fun t ht => Or.inl (h.1 t ht), h.2⟩

/-- C37, evaluation: exactly when the output is 1. -/
theorem C37_eval_exact (x : List Nat) (c : SClause) (hx : SortedEx x) :
    ((sEvalClause x c).out = 1 ↔ c.pos ≠ [] ∧ c.neg ≠ [] ∧
      (∀ t, On c.pos t → t ∈ x ∨ (¬ IsLast c.pos t ∧ ∀ l ∈ x, l < t)) ∧ (∀ t, On c.neg t → t ∉ x)) ∧
    ((sEvalClause x c).out = 0 ∨ (sEvalClause x c).out = 1) := sEvalClause_out x c hx

/-- C37, evaluation: the sparse output is the dense one for clauses that track a positive and a negated literal and
include at least one literal, when the last tracked positive literal is included or the example reaches it. -/
theorem C37_eval_same_as_dense_partial (n : Nat) (x : List Nat) (c : SClause)
    (hx : SortedEx x) (hp : SortedHalf c.pos) (hq : SortedHalf c.neg) (hn : LitsBelow n c)
    (hl : ∀ t, IsLast c.pos t → On c.pos t ∨ ∃ l ∈ x, t ≤ l)
    (h1 : c.pos ≠ []) (h2 : c.neg ≠ []) (hne : ∃ t, On c.pos t ∨ On c.neg t) :
    (sEvalClause x c).out = (evalOutClause (denseEx n x) (denseClause n c)).out := by
  have e1 := sEvalClause_out x c hx
  have e2 := C05_eval_output (denseEx n x) (denseClause n c) (denseEx_binary n x) (denseClause_shaped n x c)
  rw [weak_iff c x hp hl] at e1
  rw [satisfied_dense n x c hp hq hn, emptyClause_dense n c hp hq hn] at e2
  have hnot : ¬ ((∀ t, ¬ On c.pos t) ∧ (∀ t, ¬ On c.neg t)) := by
    rintro ⟨a, b⟩
    obtain ⟨t, h | h⟩ := hne
    · exact a t h
    · exact b t h
  have hiff : (sEvalClause x c).out = 1 ↔ (evalOutClause (denseEx n x) (denseClause n c)).out = 1 := by
    rw [e1.1, e2.1]
    exact ⟨fun h => ⟨hnot, h.2.2⟩, fun h => ⟨h1, h2, h.2⟩⟩
  have h3 := e2.2
  have h4 := e1.2
  grind

/-- C37 is false for training: a clause that a history of three training steps reaches includes literal 0 and fires
on an example without it, while the dense clause with the same included literals does not. -/
theorem C37_missing_literal_not_noticed :
    ∃ ops, ∃ c ∈ (sRun (exSBlock exSCfg3) ops).clauses, On c.pos 0 ∧ SortedEx [] ∧
      (sSetClause exSCfg3 [] c).out = 1 ∧ (sEvalClause [] c).out = 1 ∧
      (setOutClause ⟨none, false, 0, 0⟩ (denseEx 6 []) (denseClause 6 c)).out = 0 ∧
      (evalOutClause (denseEx 6 []) (denseClause 6 c)).out = 0 := by
  refine ⟨exStep [0, 5] 0 1 1 ++ exStep [5] 1 0 0 ++ exStep [] 1 0 0,
    ⟨[(0, 0), (5, -1)], [(5, -1)], [0, 0], 1, 0⟩, ?_, ⟨0, by simp, by decide⟩, by decide, by decide, by decide,
    by decide, by decide⟩
  have : (sRun (exSBlock exSCfg3) (exStep [0, 5] 0 1 1 ++ exStep [5] 1 0 0 ++ exStep [] 1 0 0)).clauses =
      [⟨[(0, 0), (5, -1)], [(5, -1)], [0, 0], 1, 0⟩] := by decide +kernel
  rw [this]; simp

/-- C37 is false for evaluation: a clause whose tracked literals are all positive, or all negated, never fires in
evaluation, whatever the example - also when its conjunction holds and it fired in training. -/
theorem C37_one_sided_clause_never_fires (x : List Nat) (c : SClause) (h : c.pos = [] ∨ c.neg = []) :
    (sEvalClause x c).out = 0 := by
  unfold sEvalClause
  rw [if_pos]
  rcases h with h | h <;> simp [h]

/-- C37 is false for evaluation: a clause that tracks literals but includes none fires on every sorted example, while
the dense empty clause does not. -/
theorem C37_clause_without_included_literals_fires (n : Nat) (x : List Nat) (c : SClause) (hx : SortedEx x)
    (hp : SortedHalf c.pos) (hq : SortedHalf c.neg) (hn : LitsBelow n c)
    (h1 : c.pos ≠ []) (h2 : c.neg ≠ []) (he : ∀ t, ¬ On c.pos t ∧ ¬ On c.neg t) :
    (sEvalClause x c).out = 1 ∧ (evalOutClause (denseEx n x) (denseClause n c)).out = 0 := by
  constructor
  · exact (sEvalClause_out x c hx).1.mpr ⟨h1, h2, fun t ht => absurd ht (he t).1, fun t ht => absurd ht (he t).2⟩
  · have e2 := C05_eval_output (denseEx n x) (denseClause n c) (denseEx_binary n x) (denseClause_shaped n x c)
    rcases e2.2 with h | h
    · exact h
    · exact absurd ((emptyClause_dense n c hp hq hn).mpr ⟨fun t => (he t).1, fun t => (he t).2⟩) (e2.1.mp h).1

/-- C37 depends on sorted examples: on a row whose indices are not sorted the clause misses a literal that is there. -/
theorem C37_unsorted_row_misread :
    (sSetClause exSCfg [5, 0] ⟨[(0, 0)], [], [1], 0, 0⟩).out = 0 ∧
    (sSetClause exSCfg [0, 5] ⟨[(0, 0)], [], [1], 0, 0⟩).out = 1 := by decide

/-- C37 for a block: after any history from a fresh block, the outputs a training call computes are those of the dense
clauses with the same included literals, clause by clause, under the condition of
`C37_train_same_as_dense_partial`. -/
theorem C37_block_train_partial (n nClauses nClasses : Nat) (cfg : SCfg) (fastOf : Nat → Rng) (junk : Nat → Nat)
    (seed : Nat) (b : SBlock) (hb : initSparse n nClauses nClasses cfg fastOf junk seed = some b)
    (ops : List BlockOp) (hops : ∀ l, SeenIn ops l → l < n) (x : List Nat) (hx : SortedEx x) (i : Nat)
    (c : SClause) (hc : (sRun b ops).clauses[i]? = some c)
    (hl : ∀ t, IsLast c.pos t → On c.pos t ∨ ∃ l ∈ x, t ≤ l) (dcfg : Cfg) :
    ∃ c', (sRun b (ops ++ [.trainExample x])).clauses[i]? = some c' ∧ c'.pos = c.pos ∧ c'.neg = c.neg ∧ c'.w = c.w ∧
      c'.out = (setOutClause dcfg (denseEx n x) (denseClause n c)).out := by
  obtain ⟨h1, h2, _, _, _, h3, h4⟩ := C36_every_history_partial n nClauses nClasses cfg fastOf junk seed b hb ops c
    (List.mem_of_getElem? hc)
  have hcfg := (run_ok cfg [] ops b (initSparse_ok n nClauses nClasses cfg fastOf junk seed b hb).1).1
  refine ⟨sSetClause cfg x c, ?_, (sSetClause_rows cfg x c).1, (sSetClause_rows cfg x c).2.1,
    (sSetClause_rows cfg x c).2.2, C37_train_same_as_dense_partial n cfg dcfg x c hx h1 h2
      ⟨fun e he => hops _ (h3 e he), fun e he => hops _ (h4 e he)⟩ hl⟩
  unfold sRun at hc hcfg ⊢
  rw [List.foldl_append]
  simp [SBlock.apply, hc, hcfg]

example : SortedEx [0, 4] ∧ SortedHalf [(0, 3), (4, 2)] ∧ LitsBelow 6 ⟨[(0, 3), (4, 2)], [(1, 5)], [1], 0, 0⟩ ∧
    (sSetClause exSCfg [0, 4] ⟨[(0, 3), (4, 2)], [(1, 5)], [1], 0, 0⟩).out = 1 ∧
    (sEvalClause [0, 4] ⟨[(0, 3), (4, 2)], [(1, 5)], [1], 0, 0⟩).out = 1 ∧
    (sEvalClause [0, 1, 4] ⟨[(0, 3), (4, 2)], [(1, 5)], [1], 0, 0⟩).out = 0 ∧
    IsLast [(0, 3), (4, 2)] 4 ∧ On [(0, 3), (4, 2)] 4 := by
  refine ⟨by decide, by decide, by decide, by decide, by decide, by decide, rfl, 2, by simp, by decide⟩

/-! ## C38 -/

/-- C38: from a fresh block, after any history, the active literals of every class are at most `active_literals_size`
many, without duplicates, and each was in an example trained with that class as the target or as the class trained
against. Missing from the full claim: they need not come from examples of that class
(`C38_literals_of_other_classes`). -/
theorem C38_every_history_partial (nLits nClauses nClasses : Nat) (cfg : SCfg) (fastOf : Nat → Rng)
    (junk : Nat → Nat) (seed : Nat) (b : SBlock)
    (hb : initSparse nLits nClauses nClasses cfg fastOf junk seed = some b) (ops : List BlockOp) (k : Nat)
    (a : List Nat × Nat) (ha : (sRun b ops).al[k]? = some a) :
    a.1.length ≤ cfg.alSize ∧ a.1.Nodup ∧ (∀ l ∈ a.1, SeenWith ops k l) := by
  obtain ⟨_, _, h⟩ := run_ok cfg [] ops b (initSparse_ok nLits nClauses nClasses cfg fastOf junk seed b hb).1
  obtain ⟨⟨h1, h2, _⟩, h3⟩ := h k a ha
  exact ⟨h2, h1, by simpa using h3⟩

/-- C38 is false as stated: after one training step on an example of class 0, the list of class 1 - of which there
was no example - holds the literals of that example. -/
theorem C38_literals_of_other_classes :
    ∃ ops, ∃ a, (sRun (exSBlock exSCfg) ops).al[1]? = some a ∧ ∃ l ∈ a.1, ¬ SeenOf ops 1 l := by
  refine ⟨exStep [0, 1] 0 1 1, ([0, 1], 0), by decide +kernel, 0, by simp, ?_⟩
  rintro ⟨x, fb, h, _, hk⟩
  simp [exStep] at h
  rw [h.2] at hk
  simp at hk

/-- C38: when the list is full, the position that is replaced next is always inside the list, so `at` never throws. -/
theorem C38_replace_position_in_range (nLits nClauses nClasses : Nat) (cfg : SCfg) (fastOf : Nat → Rng)
    (junk : Nat → Nat) (seed : Nat) (b : SBlock) (hs : 1 ≤ cfg.alSize)
    (hb : initSparse nLits nClauses nClasses cfg fastOf junk seed = some b) (ops : List BlockOp) (k : Nat)
    (a : List Nat × Nat) (ha : (sRun b ops).al[k]? = some a) (hfull : cfg.alSize ≤ a.1.length) :
    a.2 < a.1.length := by
  obtain ⟨_, _, h⟩ := run_ok cfg [] ops b (initSparse_ok nLits nClauses nClasses cfg fastOf junk seed b hb).1
  obtain ⟨⟨h1, h2, h4⟩, h3⟩ := h k a ha
  omega

/-- C38: without dynamic replacement a literal never leaves the list. -/
theorem C38_static_list_only_grows (cfg : SCfg) (hd : cfg.dynamicAL = false) (al : List Nat × Nat) (l : Nat) :
    al.1 <+: (updateAL cfg al l).1 := by
  unfold updateAL
  split
  · split
    · exact List.prefix_refl _
    · exact List.prefix_append _ _
  · rw [hd]; exact List.prefix_refl _

/-- C38: with dynamic replacement, or while there is room, an offered literal is in the list afterwards. -/
theorem C38_offered_literal_enters (cfg : SCfg) (al : List Nat × Nat) (l : Nat)
    (h : cfg.dynamicAL = true ∨ al.1.length < cfg.alSize) (hi : cfg.alSize ≤ al.1.length → al.2 < al.1.length) :
    l ∈ (updateAL cfg al l).1 := by
  unfold updateAL
  split
  · split
    · assumption
    · simp
  · rename_i hlen
    have hd : cfg.dynamicAL = true := h.resolve_right hlen
    rw [if_pos hd]
    split
    · assumption
    · exact List.mem_set (hi (by omega)) _

example : (sRun (exSBlock exSCfg) (exStep [0, 1] 0 1 1)).al = [([], 0), ([0, 1], 0)] := by decide +kernel
example : (updateAL { exSCfg with dynamicAL := true } ([0, 1], 1) 5) = ([0, 5], 0) := by decide

end GT

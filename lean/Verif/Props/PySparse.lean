import Verif.Lemmas.PySparse

/-!
# C86: the pure-Python sparse clause block

`ClauseBlockSparse` without the C++ extension: which literals it knows, what its clauses answer, what an update does to every literal,
and where it departs from what its user is told.
-/

namespace GT
open Spec

/-! ### Every history -/

/-- From any consistent block with at least as many clauses as classes, a history of examples and updates whose class numbers exist, the
first call being an example, never raises. Every row keeps one state for each literal and no literal twice, no state stays below -20,
each class has at most seven active literals, and a literal the block knows was known before or occurred in an example. -/
theorem C86_history (b : PSBlock) (ops : List BlockOp) (h : PSSound b) (hn : b.nClasses ≤ b.clauses.length)
    (hl : LabelsBelow b.nClasses ops) (hs : Started b ops) :
    ∃ b', b.run ops = .ok b' ∧ PSSound b' ∧ b'.nClasses = b.nClasses ∧ b'.clauses.length = b.clauses.length ∧
      ∀ l, Known b' l → Known b l ∨ ∃ op ∈ ops, l ∈ exampleOf op :=
  PyS.run_spec b ops h hn hl hs

/-- A new block is consistent and knows no literal; so every literal it ever knows occurred in an example. -/
theorem C86_from_start (nClauses nClasses : Nat) (budget : Option Nat) (s : Rat) (up : Nat → Nat → Bool) (g : Rng) (ops : List BlockOp)
    (hn : nClasses ≤ nClauses) (hl : LabelsBelow nClasses ops) (hs : ∀ x fb, ops.head? ≠ some (.trainUpdate x fb)) :
    ∃ b', (pysInit nClauses nClasses budget s up g).run ops = .ok b' ∧ PSSound b' ∧
      ∀ l, Known b' l → ∃ op ∈ ops, l ∈ exampleOf op := by
  obtain ⟨b', e, h1, _, _, h2⟩ := PyS.run_spec (pysInit nClauses nClasses budget s up g) ops (PyS.init_sound ..)
    (by simpa [pysInit] using hn) hl (.inr hs)
  refine ⟨b', e, h1, fun l hl => (h2 l hl).resolve_left ?_⟩
  rintro (⟨c, hc, h⟩ | ⟨a, ha, h⟩)
  · simp only [pysInit, List.mem_map] at hc
    obtain ⟨k, _, rfl⟩ := hc
    simp at h
  · simp only [pysInit, List.mem_replicate] at ha
    rw [ha.2] at h
    simp at h

/-- **C86**: a new block has the clauses and classes asked for, every weight is 1 or -1 as drawn, no literal is stored and every list of
active literals is empty. -/
theorem C86_start (nClauses nClasses : Nat) (budget : Option Nat) (s : Rat) (up : Nat → Nat → Bool) (g : Rng) :
    let b := pysInit nClauses nClasses budget s up g
    b.clauses.length = nClauses ∧ b.nClasses = nClasses ∧ b.al.length = nClasses ∧ (∀ a ∈ b.al, a = ([], [])) ∧
      ∀ k, k < nClauses → ∃ c, b.clauses[k]? = some c ∧ c.pos = ⟨[], []⟩ ∧ c.neg = ⟨[], []⟩ ∧ c.w.length = nClasses ∧
        ∀ j, j < nClasses → c.w[j]? = some (if up k j = true then 1 else -1) := by
  refine ⟨by simp [pysInit], rfl, by simp [pysInit], fun a ha => (List.mem_replicate.1 ha).2, fun k hk => ?_⟩
  refine ⟨⟨⟨[], []⟩, ⟨[], []⟩, (List.range nClasses).map fun j => if up k j then 1 else -1, 0⟩, ?_, rfl, rfl, by simp, fun j hj => ?_⟩
  · simp only [pysInit, List.getElem?_map, List.getElem?_range hk, Option.map_some]
  simp only [List.getElem?_map, List.getElem?_range hj, Option.map_some]

/-- The same draw every time. -/
def PyS.flat (r : Rat) : Rng := ⟨fun _ => r, 0⟩

/-- Rewards class 0 once, then rejects it twice, always on the example whose only literal is 5. -/
def PyS.story : List BlockOp :=
  [.trainExample [5], .trainUpdate [5] ⟨0, 1, 1, 0⟩, .trainUpdate [5] ⟨1, 0, 0, 1⟩, .trainUpdate [5] ⟨1, 0, 0, 1⟩]

/-- Three clauses, two classes. -/
def PyS.small : PSBlock := pysInit 3 2 none 2 (fun _ _ => true) (PyS.flat 0)

/-- The block and the history meet the hypotheses; afterwards each clause includes the negation of literal 5. -/
example : PSSound PyS.small ∧ PyS.small.nClasses ≤ PyS.small.clauses.length ∧
    ((PyS.small.run PyS.story).toOption.map fun b => (b.clauses.map fun c => (c.pos, c.neg), b.al)) =
      some (List.replicate 3 (⟨[], []⟩, ⟨[5], [1]⟩), [([5], [5]), ([], [])]) :=
  ⟨PyS.init_sound .., by decide, by decide +kernel⟩

example : LabelsBelow 2 PyS.story ∧ Started PyS.small PyS.story := by
  refine ⟨?_, .inr (by simp [PyS.story])⟩
  intro op ho x fb e
  simp only [PyS.story, List.mem_cons, List.not_mem_nil, or_false] at ho
  rcases ho with h | h | h | h <;> rw [e] at h <;> simp at h <;> simp [h.2]

/-! ### The outputs of the clauses -/

/-- In training, the output of a clause is 1 exactly when its conjunction holds or it is taken for a clause without literals. -/
theorem C86_train_output_partial (b : PSBlock) (x : List Nat) (h : PSSound b) (hn : b.nClasses ≤ b.clauses.length) :
    ∃ b' os, b.apply (.trainExample x) = .ok b' ∧ b'.outs = some os ∧ b'.clauses = b.clauses ∧ b'.al = b.al ∧
      b'.rng.pos = b.rng.pos ∧ os.length = b.clauses.length ∧ ∀ (k : Nat) (c : PSClause), b.clauses[k]? = some c →
        ∃ o, os[k]? = some o ∧ (o = 0 ∨ o = 1) ∧ (o = 1 ↔ Shortcut b.nClasses b.clauses k ∨ PSHolds c x) := by
  obtain ⟨os, e, hl, hk⟩ := PyS.trainOuts_spec b.nClasses b.clauses x hn fun c hc => ⟨(h.clauses c hc).pos, (h.clauses c hc).neg⟩
  exact ⟨{ b with outs := some os, votes := pysVotes b.nClasses os b.clauses }, os, by unfold PSBlock.apply; simp only [e], rfl, rfl,
    rfl, rfl, hl, hk⟩

/-- With as many clauses as classes a clause is taken for one without literals only if it is one, so that in training the output is 1
exactly when the conjunction holds. -/
theorem C86_train_output_square (b : PSBlock) (x : List Nat) (h : PSSound b) (hn : b.nClasses = b.clauses.length) :
    ∃ b' os, b.apply (.trainExample x) = .ok b' ∧ b'.outs = some os ∧ ∀ (k : Nat) (c : PSClause), b.clauses[k]? = some c →
      ∃ o, os[k]? = some o ∧ (o = 0 ∨ o = 1) ∧ (o = 1 ↔ PSHolds c x) := by
  obtain ⟨b', os, e, ho, _, _, _, _, hk⟩ := C86_train_output_partial b x h (by omega)
  refine ⟨b', os, e, ho, fun k c hc => ?_⟩
  obtain ⟨o, h1, h2, h3⟩ := hk k c hc
  refine ⟨o, h1, h2, h3.trans ⟨fun h => ?_, .inr⟩⟩
  rcases h with ⟨p, q, g1, g2, g3, g4⟩ | h
  · obtain ⟨hlt, rfl⟩ := List.getElem?_eq_some_iff.mp hc
    have e1 : (rows b.clauses)[k]? = some b.clauses[k].pos := PyS.pyAt_ok (PyS.rowAt_pos _ k hlt)
    have e2 : (rows b.clauses)[k + b.nClasses]? = some b.clauses[k].neg := by
      rw [hn]; exact PyS.pyAt_ok (PyS.rowAt_neg _ k hlt)
    rw [e1] at g1
    rw [e2] at g3
    cases g1
    cases g3
    refine ⟨fun l hl => ?_, fun l hl => ?_⟩
    · obtain ⟨v, hv, _⟩ := hl
      simp [tracked, g2] at hv
    · obtain ⟨v, hv, _⟩ := hl
      simp [tracked, g4] at hv
  · exact h

/-- Otherwise the two differ: after a history of proper calls a clause that requires literal 5 to be 0 is 1 in training on an example
with literal 5. -/
theorem C86_train_output_wrong :
    ∃ (b b' : PSBlock) (c : PSClause), PyS.small.run PyS.story = .ok b ∧ b.apply (.trainExample [5]) = .ok b' ∧ b.clauses[0]? = some c ∧
      ¬ PSHolds c [5] ∧ (b'.outs.map fun os => os[0]?) = some (some 1) := by
  refine ⟨_, _, _, rfl, rfl, rfl, ?_, by decide +kernel⟩
  intro h
  exact h.2 5 ⟨1, by decide +kernel, by decide⟩ (by simp)

/-- In evaluation, the output of each of the first `n_classes` clauses is 1 exactly when its conjunction holds, and that of every other
clause is 1 whatever the example; nothing is learnt. -/
theorem C86_eval_output_partial (b : PSBlock) (x : List Nat) (h : PSSound b) (hn : b.nClasses ≤ b.clauses.length) :
    ∃ b' os, b.apply (.evalExample x) = .ok b' ∧ b'.outs = some os ∧ b'.clauses = b.clauses ∧ b'.al = b.al ∧
      b'.rng.pos = b.rng.pos ∧ os.length = b.clauses.length ∧ ∀ (k : Nat) (c : PSClause), b.clauses[k]? = some c →
        ∃ o, os[k]? = some o ∧ (o = 0 ∨ o = 1) ∧ (o = 1 ↔ b.nClasses ≤ k ∨ PSHolds c x) := by
  obtain ⟨os, e, hl, hk⟩ := PyS.evalOuts_spec b.nClasses b.clauses x hn fun c hc => ⟨(h.clauses c hc).pos, (h.clauses c hc).neg⟩
  exact ⟨{ b with outs := some os, votes := pysVotes b.nClasses os b.clauses }, os, by unfold PSBlock.apply; simp only [e], rfl, rfl,
    rfl, rfl, hl, hk⟩

/-- After the same history the third of three clauses for two classes is 1 in evaluation on an example that contradicts it. -/
theorem C86_eval_output_wrong :
    ∃ (b b' : PSBlock) (c : PSClause), PyS.small.run PyS.story = .ok b ∧ b.apply (.evalExample [5]) = .ok b' ∧ b.clauses[2]? = some c ∧
      ¬ PSHolds c [5] ∧ (b'.outs.map fun os => os) = some [0, 0, 1] := by
  refine ⟨_, _, _, rfl, rfl, rfl, ?_, by decide +kernel⟩
  intro h
  exact h.2 5 ⟨1, by decide +kernel, by decide⟩ (by simp)

/-- The votes of both: the sum over all clauses of output times weight, in 32 bits. -/
theorem C86_votes (b b' : PSBlock) (x : List Nat) (h : PSSound b) (hn : b.nClasses ≤ b.clauses.length)
    (e : b.apply (.trainExample x) = .ok b' ∨ b.apply (.evalExample x) = .ok b') :
    ∃ os, b'.outs = some os ∧ b'.votes.length = b.nClasses ∧ ∀ j, j < b.nClasses → b'.votes[j]? = some (wrap32 (voteOf os b.clauses j)) := by
  have hr : ∀ c ∈ b.clauses, RowSound c.pos ∧ RowSound c.neg := fun c hc => ⟨(h.clauses c hc).pos, (h.clauses c hc).neg⟩
  rcases e with e | e
  · obtain ⟨os, e', hl, _⟩ := PyS.trainOuts_spec b.nClasses b.clauses x hn hr
    unfold PSBlock.apply at e
    simp only [e', Except.ok.injEq] at e
    subst e
    exact ⟨os, rfl, by simp [pysVotes], fun j hj => PyS.votes_spec _ _ _ hl j hj⟩
  · obtain ⟨os, e', hl, _⟩ := PyS.evalOuts_spec b.nClasses b.clauses x hn hr
    unfold PSBlock.apply at e
    simp only [e', Except.ok.injEq] at e
    subst e
    exact ⟨os, rfl, by simp [pysVotes], fun j hj => PyS.votes_spec _ _ _ hl j hj⟩

/-- The votes after the history: on an example that contradicts all three clauses one counts in training; on another one all count in evaluation. -/
example : ((PyS.small.run (PyS.story ++ [.trainExample [5]])).toOption.map (·.votes)) = some [0, 1] ∧
    ((PyS.small.run (PyS.story ++ [.evalExample [7]])).toOption.map (·.votes)) = some [0, 3] := by decide +kernel

/-! ### Updates -/

/-- An update gives feedback to every clause in order: for the true class, then for the other one, each with the probability handed in;
then it drops the literals with a state below -20. What feedback does to each literal is said in `Fed`. The outputs stay as they
were. -/
theorem C86_update (b : PSBlock) (x : List Nat) (fb : Feedback) (os : List Nat) (h : PSSound b) (ho : b.outs = some os)
    (hp : fb.posClass < b.nClasses) (hn : fb.negClass < b.nClasses) :
    ∃ b', b.apply (.trainUpdate x fb) = .ok b' ∧ b'.outs = some os ∧ b'.votes = b.votes ∧
      ClausesTrained b.s x fb os b.clauses b.al b.rng b'.clauses b'.al b'.rng := by
  obtain ⟨cs', al', g', e, ht⟩ := PyS.trainClauses_exact b.budget b.s x fb os b.clauses b.al b.rng
    (fun c hc => PyS.Mid.of (h.clauses c hc)) (h.outs os ho) hp hn h.classes h.active
  exact ⟨{ b with outs := some os, clauses := cs', al := al', rng := g' }, by unfold PSBlock.apply; simp only [ho, e], rfl, rfl, ht⟩

/-- A clause with literals 3 and 5, and its negations of 4 and 6, rewarded on the example with 5 and 6 and again with every draw 1. -/
example :
    let c : PSClause := ⟨⟨[3, 5], [2, -20]⟩, ⟨[4, 6], [0, 4]⟩, [1, -1], 0⟩
    ((pysTrainClause none 2 [5, 6, 8] ⟨0, 1, 1, 0⟩ 1 c [([], []), ([], [])] (PyS.flat 0)).toOption.map fun r => (r.2.1, r.2.2.1)) =
      some (⟨⟨[3, 5], [1, -19]⟩, ⟨[4, 6], [1, 3]⟩, [2, -1], 0⟩, [([6, 8], [5, 8]), ([], [])]) ∧
    ((pysTrainClause none 2 [5, 6, 8] ⟨0, 1, 1, 1⟩ 0 c [([], []), ([], [])] (PyS.flat 0)).toOption.map fun r => (r.2.1, r.2.2.1)) =
      some (⟨⟨[3], [0]⟩, ⟨[4, 6], [-2, 2]⟩, [1, -1], 0⟩, [([], []), ([], [])]) := by decide +kernel

/-! ### What has no effect, and what fails -/

/-- The literal budget has no effect: with any two budgets every history leads to the same block. -/
theorem C86_budget_ignored (b : PSBlock) (d : Option Nat) (ops : List BlockOp) (h : PSSound b) (hn : b.nClasses ≤ b.clauses.length)
    (hl : LabelsBelow b.nClasses ops) (hs : Started b ops) :
    ∃ b', b.run ops = .ok b' ∧ PSBlock.run { b with budget := d } ops = .ok { b' with budget := d } :=
  PyS.run_budget b d ops h hn hl hs

/-- With a budget of 0 a clause of the history above still includes a literal. -/
example : ((PSBlock.run { PyS.small with budget := some 0 } PyS.story).toOption.map fun b => (b.budget, b.clauses.map (·.neg))) =
    some (some 0, List.replicate 3 ⟨[5], [1]⟩) := by decide +kernel

/-- With more classes than clauses every call on a new block raises, whatever the example, and evaluation raises in every state. -/
theorem C86_more_classes_than_clauses_fail (nClauses nClasses : Nat) (budget : Option Nat) (s : Rat) (up : Nat → Nat → Bool) (g : Rng)
    (h0 : 0 < nClauses) (h : nClauses < nClasses) :
    (∀ op, ∃ e, (pysInit nClauses nClasses budget s up g).apply op = .error e) ∧
    ∀ (b : PSBlock) (x : List Nat), b.clauses.length < b.nClasses → b.apply (.evalExample x) = .error .indexError := by
  have hev : ∀ (b : PSBlock) (x : List Nat), b.clauses.length < b.nClasses → b.apply (.evalExample x) = .error .indexError := by
    intro b x hb
    unfold PSBlock.apply
    simp only [PyS.evalOuts_fail _ _ x hb]
  refine ⟨fun op => ?_, hev⟩
  have hlen : (pysInit nClauses nClasses budget s up g).clauses.length = nClauses := by simp [pysInit]
  cases op with
  | trainExample x =>
    refine ⟨.indexError, ?_⟩
    unfold PSBlock.apply
    simp only [PyS.trainOuts_fail (pysInit nClauses nClasses budget s up g).nClasses (pysInit nClauses nClasses budget s up g).clauses x
      (by rw [hlen]; exact h) (fun hz => by rw [hz] at hlen; simp at hlen; omega) (by
        intro c hc
        simp only [pysInit, List.mem_map] at hc
        obtain ⟨k, _, rfl⟩ := hc
        rfl)]
  | evalExample x => exact ⟨_, hev _ x (by rw [hlen]; exact h)⟩
  | trainUpdate x fb => exact ⟨.attributeError, rfl⟩

/-- Two clauses, three classes. -/
example : ((pysInit 2 3 none 2 (fun _ _ => true) (PyS.flat 0)).apply (.trainExample [5])).toOption.isNone = true ∧
    ((pysInit 3 3 none 2 (fun _ _ => true) (PyS.flat 0)).apply (.trainExample [5])).toOption.isSome = true := by decide +kernel

end GT

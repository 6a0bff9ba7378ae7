import Verif.Lemmas.Renumber

/-! # C101: the numbering of the classes does not matter -/

namespace GT
open Spec

/-- C101 (numbers). The numbers of the second machine are as likely as those of the first. Moving a number keeps it in the range of the
generator, makes the standard library pick the same class under its new number, moves no two numbers to the same place, keeps the distance
between numbers of one class, and each class keeps the length of its interval. -/
theorem C101_numbers {m : Nat} (r : Renumbering) (hr : r.Of m) (ws : List Rat) (hw : ws.length = m) (hn : ∀ w ∈ ws, 0 ≤ w) (hs : 0 < ws.sum) :
    (∀ u, 0 < u → u ≤ 1 → 0 < r.number ws u ∧ r.number ws u ≤ 1 ∧ discreteSample (r.row 0 ws) (r.number ws u) = r.new (discreteSample ws u)) ∧
    (∀ u v, 0 < u → u ≤ 1 → 0 < v → v ≤ 1 → r.number ws u = r.number ws v → u = v) ∧
    (∀ u v, discreteSample ws u = discreteSample ws v → r.number ws v - r.number ws u = v - u) ∧
    (∀ k, k < m → shareStart (r.row 0 ws) (r.new k + 1) - shareStart (r.row 0 ws) (r.new k) = shareStart ws (k + 1) - shareStart ws k) := by
  refine ⟨fun u h0 h1 => ?_, fun u v hu hu' hv hv' h => Renumber.number_injective r hr ws hw hn hs u v ⟨hu, hu'⟩ ⟨hv, hv'⟩ h,
    fun u v h => ?_, fun k hk => ?_⟩
  · obtain ⟨a, b, c⟩ := Renumber.number_sample r hr ws hw hn hs u h0 h1
    exact ⟨b, c, a⟩
  · unfold Renumbering.number
    rw [h]
    ring
  · have step : ∀ (vs : List Rat) (i : Nat) (a : Rat), vs[i]? = some a → shareStart vs (i + 1) - shareStart vs i = a / vs.sum := by
      intro vs i a h
      obtain ⟨hlt, rfl⟩ := List.getElem?_eq_some_iff.1 h
      unfold shareStart
      rw [List.take_add_one, List.getElem?_eq_getElem hlt, List.sum_append]
      simp only [Option.toList_some, List.sum_cons, List.sum_nil, add_zero]
      ring
    have hk' : k < ws.length := by omega
    have h1 : ws[k]? = some ws[k] := List.getElem?_eq_getElem hk'
    rw [step ws k _ h1, step _ _ ws[k] (by rw [Renumber.row_get r hr ws hw k hk, h1]), Renumber.sum_row r hr ws hw]

/-- C101 (portable backend). Give the classes other numbers. For every history of training and prediction calls there are numbers for the
second machine, each the number of the first moved into the interval of the same class, such that at all times the two machines hold the same
clauses and votes, class for class, and give every example the same votes. -/
theorem C101_dense {m : Nat} (r : Renumbering) (hr : r.Of m) (calls : List (List Nat × Option Nat)) (e : Exec DBlock) (hp : ProperSession m calls e)
    (hb : ∀ b ∈ e.blocks, b.nClasses = m ∧ ∀ c ∈ b.clauses, c.w.length = m) :
    ∃ g, RunsRenumbered r denseBackend r.block calls e (r.exec r.block e g) :=
  Renumber.runs r (Renumber.dense_blind r hr) hr calls e hp hb

/-- C101 (AVX2 backend). -/
theorem C101_avx2 {m : Nat} (r : Renumbering) (hr : r.Of m) (calls : List (Mem × Option Nat)) (e : Exec VBlock) (hp : ProperSession m calls e)
    (hb : ∀ b ∈ e.blocks, b.nClasses = m ∧ ∀ c ∈ b.clauses, c.w.length = m) :
    ∃ g, RunsRenumbered r avxBackend r.vblock calls e (r.exec r.vblock e g) :=
  Renumber.runs r (Renumber.avx_blind r hr) hr calls e hp hb

/-- C101 (NEON backend), with a literal budget; without one the backend crashes (C42). -/
theorem C101_neon {m : Nat} (r : Renumbering) (hr : r.Of m) (calls : List (Mem × Option Nat)) (e : Exec (Option NBlock)) (hp : ProperSession m calls e)
    (hb : ∀ b ∈ e.blocks, ∃ b', b = some b' ∧ b'.nClasses = m ∧ b'.cfg.budget.isSome = true ∧ ∀ c ∈ b'.clauses, c.w.length = m) :
    ∃ g, RunsRenumbered r neonBackend (Option.map r.nblock) calls e (r.exec (Option.map r.nblock) e g) :=
  Renumber.runs r (Renumber.neon_blind r hr) hr calls e hp hb

/-- C101 (convolutional blocks). -/
theorem C101_conv {m : Nat} (r : Renumbering) (hr : r.Of m) (calls : List (List Nat × Option Nat)) (e : Exec ConvBlock) (hp : ProperSession m calls e)
    (hb : ∀ b ∈ e.blocks, b.nClasses = m ∧ ∀ c ∈ b.clauses, c.base.w.length = m) :
    ∃ g, RunsRenumbered r convBackend r.cblock calls e (r.exec r.cblock e g) :=
  Renumber.runs r (Renumber.conv_blind r hr) hr calls e hp hb

/-- C101 (sparse blocks): the active literals of a class go with it. -/
theorem C101_sparse {m : Nat} (r : Renumbering) (hr : r.Of m) (calls : List (List Nat × Option Nat)) (e : Exec SBlock) (hp : ProperSession m calls e)
    (hb : ∀ b ∈ e.blocks, b.nClasses = m ∧ b.al.length = m ∧ ∀ c ∈ b.clauses, c.w.length = m) :
    ∃ g, RunsRenumbered r sparseBackend r.sblock calls e (r.exec r.sblock e g) :=
  Renumber.runs r (Renumber.sparse_blind r hr) hr calls e hp hb

/-- C101 (predictions). At all times the second machine predicts the class the first one predicts, under its new number, for every example for
which one class has more votes than any other. What is missing: examples with a tie, for which it is false,
`C101_ties_depend_on_numbers`. -/
theorem C101_predictions_partial {B E : Type} {m : Nat} (r : Renumbering) (hr : r.Of m) (be : Backend B E) (mk : B → B)
    (calls : List (E × Option Nat)) (e d : Exec B) (h : RunsRenumbered r be mk calls e d) (k : Nat) (x : E)
    (hl : ((runCalls be discreteSample (calls.take k) e).1.evalOne be x).1.fb.votes.length = m)
    (ht : NoTie ((runCalls be discreteSample (calls.take k) e).1.evalOne be x).1.fb.votes) :
    ((runCalls be discreteSample (r.calls (calls.take k)) d).1.evalOne be x).2 =
      r.new ((runCalls be discreteSample (calls.take k) e).1.evalOne be x).2 := by
  obtain ⟨j, hj⟩ := ht
  obtain ⟨-, -, -, hv⟩ := (h k).2.2.1 x
  have h1 : ((runCalls be discreteSample (calls.take k) e).1.evalOne be x).2 = j := Renumber.winner_predict hj
  have h2 := Renumber.winner_row r hr hl hj
  rw [← hv] at h2
  rw [h1]
  exact Renumber.winner_predict h2

/-- C101 (start). The renumbered machine is as likely a start as the first one: allocating a block with the weight generator's numbers in
another order gives the first block renumbered, with the same numbers left over. -/
theorem C101_start {m : Nat} (r : Renumbering) (hr : r.Of m) (n nClauses : Nat) (cfg : Cfg) (fastOf rngOf : Nat → Rng) (junk : Nat → Nat)
    (seed : Nat) (b : DBlock) (h : initTM n nClauses m cfg fastOf rngOf junk seed = some b) :
    ∃ fast, Reshuffled (fastOf seed) fast ∧ ∃ d, initTM n nClauses m cfg (fun _ => fast) rngOf junk seed = some d ∧
      { d with fast := b.fast } = r.block b ∧ ∀ k, numbers d.fast k = numbers b.fast k :=
  Renumber.start r hr n nClauses cfg fastOf rngOf junk seed b h

/-- Two classes, swapped. -/
def renumberSwap : Renumbering := ⟨[1, 0]⟩

/-- Three classes in another order. -/
def renumberThree : Renumbering := ⟨[2, 0, 1]⟩

/-- A machine of one block over two features and three classes, with a clause that fires on `[1, 0]`. -/
def renumberMachine : Exec DBlock :=
  ⟨FB.new 3 10 ⟨fun i => if i % 2 = 0 then 1 / 3 else 3 / 4, 0⟩,
    [⟨2, 3, ⟨some 4, true, 1 / 3, 2 / 3⟩, [⟨[1, -3], [-2, 0], [1, 3, -1], 0, 0⟩], [0, 0, 0],
      ⟨fun _ => 1 / 4, 0⟩, ⟨fun i => if i % 2 = 0 then 9 / 10 else 1 / 5, 0⟩⟩], []⟩

/-- The code does not have the property for ties: a machine with no clause gives both classes no votes, and predicts the class numbered 0 under
both numberings, which are different classes (`src/feedback_block.hpp:125-141` takes the first of the largest). -/
theorem C101_ties_depend_on_numbers :
    let e : Exec DBlock := ⟨FB.new 2 10 ⟨fun _ => 1 / 2, 0⟩, [⟨1, 2, ⟨none, true, 1 / 3, 2 / 3⟩, [], [0, 0], ⟨fun _ => 1 / 4, 0⟩, ⟨fun _ => 1 / 4, 0⟩⟩], []⟩
    renumberSwap.Of 2 ∧ ProperSession 2 [([1], none)] e ∧ ∀ g,
      (renumberSwap.exec renumberSwap.block e g |>.evalOne denseBackend [1]).2 ≠ renumberSwap.new (e.evalOne denseBackend [1]).2 := by
  refine ⟨List.Perm.swap _ _ _, ⟨by decide, ?_, by decide +kernel, fun i => by show (0 : Rat) < 1 / 2 ∧ (1 / 2 : Rat) < 1; decide +kernel,
    rfl, rfl⟩, ?_⟩
  · intro c hc y hy
    simp only [List.mem_singleton] at hc
    subst hc
    cases hy
  · intro g
    have h : ∀ g, (renumberSwap.exec renumberSwap.block
        (⟨FB.new 2 10 ⟨fun _ => 1 / 2, 0⟩, [⟨1, 2, ⟨none, true, 1 / 3, 2 / 3⟩, [], [0, 0], ⟨fun _ => 1 / 4, 0⟩, ⟨fun _ => 1 / 4, 0⟩⟩], []⟩ : Exec DBlock) g
          |>.evalOne denseBackend [1]).2 = 0 := fun g => by rfl
    rw [h g]
    decide +kernel

/-- The hypotheses are met by a history of two training calls, in which the clause is updated and a negative class is drawn each time; the
number of the second machine is another one; and there is a winner among the votes. -/
example : renumberThree.Of 3 ∧ ProperSession 3 [([1, 0], some 1), ([1, 0], some 0), ([1, 0], none)] renumberMachine ∧
    (∀ b ∈ renumberMachine.blocks, b.nClasses = 3 ∧ ∀ c ∈ b.clauses, c.w.length = 3) ∧
    ((runCalls denseBackend discreteSample [([1, 0], some 1)] renumberMachine).1.blocks.map fun b => b.clauses.map (·.w)) = [[[0, 4, -1]]] ∧
    renumberThree.number (renumberMachine.trainOne denseBackend discreteSample [1, 0] 1).fb.updProb (1 / 3) ≠ 1 / 3 ∧
    NoTie (renumberMachine.evalOne denseBackend [1, 0]).1.fb.votes ∧ (renumberMachine.evalOne denseBackend [1, 0]).2 = 1 ∧
    renumberThree.new 1 = 2 := by
  refine ⟨?_, ⟨by decide, ?_, by decide +kernel, ?_, rfl, rfl⟩, by decide, by decide +kernel, by decide +kernel, ?_, by decide +kernel, by decide⟩
  · exact (List.isPerm_iff.1 (by decide))
  · intro c hc y hy
    simp only [List.mem_cons, List.not_mem_nil, or_false] at hc
    rcases hc with rfl | rfl | rfl <;> cases hy <;> decide
  · intro i
    show (0 : Rat) < (if i % 2 = 0 then 1 / 3 else 3 / 4) ∧ (if i % 2 = 0 then (1 / 3 : Rat) else 3 / 4) < 1
    split <;> decide +kernel
  · have hv : (renumberMachine.evalOne denseBackend [1, 0]).1.fb.votes = [1, 3, -1] := by decide +kernel
    rw [hv]
    refine ⟨1, 3, rfl, fun i w hi hne => ?_⟩
    match i, hi with
    | 0, hi => simp at hi; omega
    | 1, hi => exact absurd rfl hne
    | 2, hi => simp at hi; omega

/-- A sparse block of the same kind: the active literals are renumbered with the classes. -/
example :
    let b : SBlock := ⟨4, 3, ⟨none, true, true, 1 / 3, 2 / 3, 4, 2, -40⟩, [⟨[(1, 5)], [(2, 3)], [1, 2, 3], 0, 0⟩], [([0], 0), ([1], 0), ([2, 3], 1)],
      [0, 0, 0], ⟨fun _ => 1 / 4, 0⟩⟩
    (b.nClasses = 3 ∧ b.al.length = 3 ∧ ∀ c ∈ b.clauses, c.w.length = 3) ∧
    (renumberThree.sblock b).al = [([2, 3], 1), ([0], 0), ([1], 0)] ∧
    (renumberThree.sblock b).clauses.map (·.w) = [[3, 1, 2]] := by
  decide

example : (initTM 2 1 3 ⟨none, true, 1 / 3, 2 / 3⟩ (fun _ => ⟨fun _ => 1 / 4, 0⟩) (fun _ => ⟨fun _ => 1 / 4, 0⟩) (fun _ => 3) 42).isSome
    = true := by
  decide +kernel

end GT

import Verif.Lemmas.Flat

/-!
# C73: the portable backend stays inside its arrays

The functions of src/func_tm.hpp are modelled twice: clause by clause in `Verif.Model.Dense`, where all properties of training and
evaluation are proved, and on the flat arrays with their index computations in `Verif.Model.Flat`, where an access outside an array and
an overflow of `int` are undefined. The two agree: the arrays hold exactly the clauses, every access is inside, and nothing overflows,
if the arrays have fewer than 2^31 elements, examples have as many literals as the block, and labels are classes of the block.
-/

namespace GT
open Spec FlatMem

/-- Initialisation is defined and writes the arrays of the block `initTM` describes. -/
theorem C73_initialize (nLits nClauses nClasses : Nat) (cfg : Cfg) (fastOf rngOf : Nat → Rng) (junk : Nat → Int) (junkC : Nat → Nat)
    (seed : Nat) (hs : Small nLits nClauses nClasses) :
    flatInit nLits nClauses nClasses cfg fastOf rngOf junk junkC seed =
      some ((initTM nLits nClauses nClasses cfg fastOf rngOf junkC seed).map flatten) :=
  flat_init nLits nClauses nClasses cfg fastOf rngOf junk junkC seed hs

/-- Any history of training and evaluation is defined on the arrays and leaves them as the clause-by-clause description says.
Missing: larger arrays and labels that are not classes, for which the claim is false. -/
theorem C73_history_partial (b : DBlock) (hb : BlockShaped b) (hs : Small b.nLits b.clauses.length b.nClasses) (ops : List BlockOp)
    (ho : ∀ op ∈ ops, OpOk b.nLits b.nClasses op) : (flatten b).run ops = some (flatten (b.run ops)) :=
  flat_run ops b hb hs ho

/-- From `initialize(seed)` on: no call ever leaves the arrays, whatever the seed, the random draws, the examples, the feedback and the
order of the calls.
Missing: as in `C73_history_partial`. -/
theorem C73_from_initialize_partial (nLits nClauses nClasses : Nat) (cfg : Cfg) (fastOf rngOf : Nat → Rng) (junk : Nat → Int) (junkC : Nat → Nat)
    (seed : Nat) (hseed : seed ≠ 0) (hs : Small nLits nClauses nClasses) (ops : List BlockOp)
    (ho : ∀ op ∈ ops, OpOk nLits nClasses op) :
    ∃ b m, initTM nLits nClauses nClasses cfg fastOf rngOf junkC seed = some b ∧
      flatInit nLits nClauses nClasses cfg fastOf rngOf junk junkC seed = some (some m) ∧
      m.run ops = some (flatten (b.run ops)) := by
  have hi : ∃ b, initTM nLits nClauses nClasses cfg fastOf rngOf junkC seed = some b := by
    unfold initTM
    rw [if_neg hseed]
    exact ⟨_, rfl⟩
  obtain ⟨b, hb⟩ := hi
  obtain ⟨h1, h2, h3, h4⟩ := init_wellShaped nLits nClauses nClasses cfg fastOf rngOf junkC seed b hb
  refine ⟨b, flatten b, hb, ?_, ?_⟩
  · rw [flat_init _ _ _ _ _ _ _ _ _ hs, hb]; rfl
  · exact flat_run ops b h1 (by rw [h2, h3, h4]; exact hs) (by rw [h2, h3]; exact ho)

/-- Initialisation is defined exactly if the arrays have fewer than 2^31 elements. -/
theorem C73_initialize_defined_iff (nLits nClauses nClasses : Nat) (cfg : Cfg) (fastOf rngOf : Nat → Rng) (junk : Nat → Int)
    (junkC : Nat → Nat) (seed : Nat) (hseed : seed ≠ 0) :
    (∃ r, flatInit nLits nClauses nClasses cfg fastOf rngOf junk junkC seed = some r) ↔ Small nLits nClauses nClasses := by
  constructor
  · rintro ⟨r, hr⟩
    unfold flatInit at hr
    rw [if_neg hseed] at hr
    obtain ⟨_, h1, hr⟩ := bind_inv hr
    obtain ⟨_, h2, hr⟩ := bind_inv hr
    obtain ⟨_, h3, hr⟩ := bind_inv hr
    obtain ⟨_, h4, hr⟩ := bind_inv hr
    obtain ⟨_, h5, hr⟩ := bind_inv hr
    have g3 := (i32_inv h3).2.2
    have g4 := (i32_inv h4).2.2
    have g5 := (i32_inv h5).2.2
    rw [(i32_inv h4).1] at g5
    refine ⟨by omega, ?_, ?_⟩
    · have : (((nClauses * (nLits * 2) : Nat)) : Int) < 2147483648 := by push_cast; exact g5
      omega
    · have : (((nClauses * nClasses : Nat)) : Int) < 2147483648 := by push_cast; exact g3
      omega
  · intro hs
    exact ⟨_, flat_init nLits nClauses nClasses cfg fastOf rngOf junk junkC seed hs⟩

/-- 40000 clauses over 30000 literals, which fit in memory, are too many: the size overflows. -/
theorem C73_large_machine_undefined (cfg : Cfg) (fastOf rngOf : Nat → Rng) (junk : Nat → Int) (junkC : Nat → Nat) :
    flatInit 30000 40000 10 cfg fastOf rngOf junk junkC 1 = none := by
  cases h : flatInit 30000 40000 10 cfg fastOf rngOf junk junkC 1 with
  | none => rfl
  | some r =>
    have := ((C73_initialize_defined_iff 30000 40000 10 cfg fastOf rngOf junk junkC 1 (by decide)).mp ⟨r, h⟩).clauses
    omega

/-- A label that is not a class of the machine, which `set_train_data` does not refuse, makes the update of the last clause go outside
its weights, whatever the state of the block, if the draws select the clauses for feedback. -/
theorem C73_label_out_of_range (b : DBlock) (hb : BlockShaped b) (hne : b.clauses ≠ []) (x : List Nat) (fb : Feedback)
    (hl : b.nClasses ≤ fb.posClass) (hd : ∀ i, b.fast.draw i < fb.posProb) :
    (flatten b).trainUpdate x fb = none := by
  obtain ⟨c, cs, hcs⟩ := List.exists_cons_of_ne_nil hne
  have hlen : b.clauses.length = cs.length + 1 := by rw [hcs]; rfl
  have hw : (flatten b).weights.length = b.clauses.length * b.nClasses := RowsOk.wlength (b := b) hb.rows
  unfold FlatTM.trainUpdate
  have hn : (flatten b).nClauses = cs.length + 1 := hlen
  rw [hn]
  refine trainLoop_outside (n := b.nLits) (k := b.nClasses) (W := b.clauses.length * b.nClasses) (d := b.fast.draw) x fb hd cs.length 0
    (flatten b) ⟨rfl, rfl, hw, rfl⟩ ?_
  rw [hlen, Nat.succ_mul, Nat.zero_add]
  omega

/-- A block of two clauses over two literals and two classes, for the examples below. -/
def twoClauses (d : Nat → Rat) : DBlock where
  nLits := 2
  nClasses := 2
  cfg := ⟨some 3, true, 1/4, 3/4⟩
  clauses := [⟨[3, -1], [-2, -5], [1, -1], 0, 0⟩, ⟨[-1, 0], [-2, -5], [2, 1], 0, 0⟩]
  votes := [0, 0]
  fast := ⟨d, 0⟩
  rng := ⟨fun _ => 1/2, 0⟩

/-- For a clause that is not the last, the same label silently changes a weight of the next clause. -/
theorem C73_label_hits_next_clause :
    (((flatten (twoClauses fun i => if i = 0 then 0 else 1)).run
      [.trainExample [1, 0], .trainUpdate [1, 0] ⟨2, 1/2, 0, 1/2⟩]).map fun m => m.weights) = some [1, -1, 3, 1] := by
  decide +kernel

/-- Non-vacuity: the block meets the hypotheses of `C73_history_partial`, and training changes its arrays. -/
example : BlockShaped (twoClauses fun _ => 0) ∧ Small 2 2 2 ∧
    (((flatten (twoClauses fun _ => 0)).run [.trainExample [1, 0], .trainUpdate [1, 0] ⟨0, 1/2, 1, 1/2⟩, .evalExample [1, 0]]).map
      fun m => (m.clauses, m.weights, m.votes)) = some ([5, -1, -2, -3, -1, 0, -2, -5], [2, -2, 2, 1], [2, -2]) := by
  refine ⟨⟨?_, rfl⟩, ⟨by decide, by decide, by decide⟩, ?_⟩
  · intro c hc
    simp only [twoClauses, List.mem_cons, List.not_mem_nil, or_false] at hc
    rcases hc with rfl | rfl <;> exact ⟨⟨rfl, rfl⟩, rfl⟩
  · decide +kernel

/-- What "inside the arrays" means in C73: an element can be read or written exactly at the positions of the array, and
a write changes that element only. -/
theorem C73_access {α : Type} (a : List α) (i : Int) (v : α) :
    (rd a i ≠ none ↔ 0 ≤ i ∧ i < a.length) ∧ (wr a i v ≠ none ↔ 0 ≤ i ∧ i < a.length) ∧
    ∀ b, wr a i v = some b → b.length = a.length ∧ rd b i = some v ∧ ∀ j : Int, j ≠ i → rd b j = rd a j := by
  refine ⟨?_, ?_, ?_⟩
  · unfold rd
    split
    · rw [Ne, List.getElem?_eq_none_iff]; omega
    · simp; omega
  · unfold wr
    split
    · simp; omega
    · simp; omega
  · intro b hb
    unfold wr at hb
    split at hb
    · next h =>
      obtain rfl := Option.some.inj hb
      refine ⟨by simp, by simp [rd, h], fun j hj => ?_⟩
      unfold rd
      split
      · rw [List.getElem?_set_ne (by omega)]
      · rfl
    · simp at hb

example : wr [3, 1, 2] 1 9 = some [3, 9, 2] ∧ wr [3, 1, 2] 3 9 = none ∧ rd [3, 1, 2] (-1) = none := by decide

end GT

import Verif.Lemmas.ConvScalarFlat

/-!
# C85: the portable convolutional block stays inside its arrays and its example

The functions of src/func_conv_tm.hpp are modelled twice: clause by clause in `Verif.Model.Conv`, where what convolutional clauses
compute and learn is proved, and on the flat arrays with their index computations in `Verif.Model.ConvScalarFlat`, where an access
outside an array or outside the example and an overflow of `int` are undefined. The two agree for every history of training and
evaluation, if the arrays and the example have fewer than 2^31 elements, examples have as many patches as the block, and labels are
classes of the block. The fresh arrays of active patches and of counts may hold anything.
-/

namespace GT
open Spec FlatMem

/-- Initialisation is defined and writes the arrays of the block `initConv` describes; it refuses the same seeds and patch counts. -/
theorem C85_initialize (nLits nClauses nClasses : Nat) (nPatches : Int) (cfg : Cfg) (fastOf rngOf : Nat → Rng) (junk : Nat → Int)
    (junkC junkPatch junkCounts : Nat → Nat) (seed : Nat) (hs : Small nLits nClauses nClasses) :
    flatConvInit nLits nClauses nClasses nPatches cfg fastOf rngOf junk junkC junkPatch junkCounts seed =
      some ((initConv nLits nClauses nClasses nPatches cfg fastOf rngOf junkC junkPatch junkCounts seed).map flattenConv) :=
  ConvMem.init_eq nLits nClauses nClasses nPatches cfg fastOf rngOf junk junkC junkPatch junkCounts seed hs

/-- Any history of training and evaluation is defined on the arrays and leaves them as the clause-by-clause description says.
Missing: larger examples and labels that are not classes, for which the claim is false. -/
theorem C85_history_partial (b : ConvBlock) (hb : ConvShaped b) (hs : SmallConv b.nLits b.clauses.length b.nClasses b.nPatches)
    (us : List ConvUse) (hu : ∀ u ∈ us, u.Ok b.nLits b.nClasses b.nPatches) :
    (flattenConv b).run (us.flatMap ConvUse.ops) = some (flattenConv (b.run (us.flatMap ConvUse.ops))) :=
  ConvMem.uses_eq us b hb hs hu

/-- From `initialize(seed)` on: no use of the block leaves its arrays or the example, whatever the seed, the fresh memory, the random
draws, the examples, the feedback and the order of the uses.
Missing: as in `C85_history_partial`. -/
theorem C85_from_initialize_partial (nLits nClauses nClasses nPatches : Nat) (cfg : Cfg) (fastOf rngOf : Nat → Rng) (junk : Nat → Int)
    (junkC junkPatch junkCounts : Nat → Nat) (seed : Nat) (hseed : seed ≠ 0) (hp : 0 < nPatches)
    (hs : SmallConv nLits nClauses nClasses nPatches) (us : List ConvUse) (hu : ∀ u ∈ us, u.Ok nLits nClasses nPatches) :
    ∃ b m, initConv nLits nClauses nClasses nPatches cfg fastOf rngOf junkC junkPatch junkCounts seed = some b ∧
      flatConvInit nLits nClauses nClasses nPatches cfg fastOf rngOf junk junkC junkPatch junkCounts seed = some (some m) ∧
      m.run (us.flatMap ConvUse.ops) = some (flattenConv (b.run (us.flatMap ConvUse.ops))) := by
  have hi : ∃ b, initConv nLits nClauses nClasses nPatches cfg fastOf rngOf junkC junkPatch junkCounts seed = some b := by
    unfold initConv initTM
    rw [if_neg hseed]
    simp only
    rw [if_pos (by omega)]
    exact ⟨_, rfl⟩
  obtain ⟨b, hb⟩ := hi
  obtain ⟨h1, h2, h3, h4, h5⟩ := ConvMem.init_shaped nLits nClauses nClasses nPatches cfg fastOf rngOf junkC junkPatch junkCounts seed b hb
  have h5 : b.nPatches = nPatches := by omega
  refine ⟨b, flattenConv b, hb, ?_, ?_⟩
  · rw [ConvMem.init_eq _ _ _ _ _ _ _ _ _ _ _ _ hs.small, hb]; rfl
  · exact ConvMem.uses_eq us b h1 (by rw [h2, h3, h4, h5]; exact hs) (by rw [h2, h3, h5]; exact hu)

/-- Initialisation is defined exactly if the arrays of clauses and weights have fewer than 2^31 elements. The size of an example is not
looked at. -/
theorem C85_initialize_defined_iff (nLits nClauses nClasses : Nat) (nPatches : Int) (cfg : Cfg) (fastOf rngOf : Nat → Rng)
    (junk : Nat → Int) (junkC junkPatch junkCounts : Nat → Nat) (seed : Nat) (hseed : seed ≠ 0) :
    (∃ r, flatConvInit nLits nClauses nClasses nPatches cfg fastOf rngOf junk junkC junkPatch junkCounts seed = some r) ↔
      Small nLits nClauses nClasses := by
  constructor
  · rintro ⟨r, hr⟩
    unfold flatConvInit flatInit at hr
    rw [if_neg hseed] at hr
    obtain ⟨_, hr, -⟩ := bind_inv hr
    obtain ⟨_, -, hr⟩ := bind_inv hr
    obtain ⟨_, -, hr⟩ := bind_inv hr
    obtain ⟨_, h3, hr⟩ := bind_inv hr
    obtain ⟨_, h4, hr⟩ := bind_inv hr
    obtain ⟨_, h5, hr⟩ := bind_inv hr
    have g3 := (i32_inv h3).2.2
    have g4 := (i32_inv h4).2.2
    have g5 := (i32_inv h5).2.2
    rw [(i32_inv h4).1] at g5
    refine ⟨by omega, ?_, ?_⟩
    · have : (((nClauses * (nLits * 2) : Nat)) : Int) < 2147483648 := by push_cast; exact g5
      omega
    · have : (((nClauses * nClasses : Nat)) : Int) < 2147483648 := by push_cast; exact g3
      omega
  · intro hs
    exact ⟨_, C85_initialize nLits nClauses nClasses nPatches cfg fastOf rngOf junk junkC junkPatch junkCounts seed hs⟩

/-- A block that was initialised for examples whose last patch starts at or after element 2^31 cannot be trained: the offset of that
patch overflows, in every state and for every example. -/
theorem C85_long_example_undefined (m : FlatConv) (hc : 0 < m.tm.nClauses) (hp : 0 < m.nPatches)
    (hl : 2147483648 ≤ (m.nPatches - 1) * m.tm.nLits) (x : List Nat) : m.apply (.trainExample x) = none := by
  show (m.setOut x >>= fun m => m.countVotes) = none
  have : m.setOut x = none := by
    unfold FlatConv.setOut
    obtain ⟨k, hk⟩ : ∃ k, m.tm.nClauses = k + 1 := ⟨m.tm.nClauses - 1, by omega⟩
    rw [hk, forLoop, ConvMem.setBody_long x 0 m hp hl]
    exact bind_none' _
  rw [this]
  exact bind_none' _

/-- A label that is not a class of the machine makes the update of the last clause go outside its weights, whatever the state of the
block, if the draws select the clauses for feedback. -/
theorem C85_label_out_of_range (b : ConvBlock) (hb : ConvShaped b) (hne : b.clauses ≠ []) (x : List Nat) (fb : Feedback)
    (hl : b.nClasses ≤ fb.posClass) (hd : ∀ i, b.fast.draw i < fb.posProb) :
    (flattenConv b).apply (.trainUpdate x fb) = none := by
  obtain ⟨c, cs, hcs⟩ := List.exists_cons_of_ne_nil hne
  have hlen : b.clauses.length = cs.length + 1 := by rw [hcs]; rfl
  have hw : (flattenConv b).tm.weights.length = b.clauses.length * b.nClasses := by
    have := RowsOk.wlength (b := densePart b) (ConvMem.CRowsOk.base hb.rows)
    simpa [flattenConv, flatten, densePart] using this
  refine ConvMem.trainUpdate_outside (n := b.nLits) (k := b.nClasses) (W := b.clauses.length * b.nClasses) (d := b.fast.draw) x fb hd
    (flattenConv b) ⟨rfl, rfl, hw, rfl⟩ cs.length (by simp [flattenConv, flatten, densePart, hlen]) ?_
  rw [hlen, Nat.succ_mul]
  omega

/-- The fresh memory of the examples below. -/
def freshConv (patch : Nat) : Option (Option FlatConv) :=
  flatConvInit 2 2 2 2 ⟨some 9, true, 1/4, 3/4⟩ (fun _ => ⟨fun _ => 0, 0⟩) (fun _ => ⟨fun i => if i % 4 = 0 then 3/4 else 1/4, 0⟩)
    (fun _ => 77) (fun _ => 0) (fun _ => patch) (fun _ => 0) 42

/-- Training must set the outputs first: feedback after an evaluation uses whatever the fresh array of active patches held, here patch
7 of an example of two patches, and reads outside the example. The executor never does this (`ConvUse.ops`). -/
theorem C85_feedback_after_eval_outside :
    ((freshConv 7).map fun m => (m.bind fun m => m.run [.evalExample [1, 0, 1, 0], .trainUpdate [1, 0, 1, 0] ⟨0, 1/2, 1, 1/2⟩]).isSome) =
      some false ∧
    ((freshConv 7).map fun m => (m.bind fun m => m.run [.trainExample [1, 0, 1, 0], .trainUpdate [1, 0, 1, 0] ⟨0, 1/2, 1, 1/2⟩]).isSome) =
      some true := by
  decide +kernel

/-- A convolutional block of two clauses over two literals, two patches and two classes. -/
def twoConv : ConvBlock where
  nLits := 2
  nClasses := 2
  nPatches := 2
  cfg := ⟨some 9, true, 1/4, 3/4⟩
  clauses := [⟨⟨[3, -1], [-2, -5], [1, -1], 0, 0⟩, 900⟩, ⟨⟨[-1, 0], [-2, -5], [2, 1], 0, 0⟩, 901⟩]
  counts := fun _ => 0
  votes := [0, 0]
  fast := ⟨fun _ => 0, 0⟩
  rng := ⟨fun _ => 1/2, 0⟩

/-- Non-vacuity: the block meets the hypotheses of `C85_history_partial` although its active patches are garbage, and training changes its
arrays. -/
example : ConvShaped twoConv ∧ SmallConv 2 2 2 2 ∧
    (((flattenConv twoConv).run [.trainExample [0, 0, 1, 0], .trainUpdate [0, 0, 1, 0] ⟨0, 1/2, 1, 1/2⟩, .evalExample [0, 1, 1, 0]]).map
      fun m => (m.tm.clauses, m.tm.weights, m.tm.votes, m.active)) = some ([5, -1, -2, -3, -1, 0, -2, -5], [2, -2, 2, 1], [4, -1], [1, 901]) := by
  refine ⟨⟨?_, rfl⟩, ⟨⟨by decide, by decide, by decide⟩, by decide⟩, ?_⟩
  · intro c hc
    simp only [twoConv, List.mem_cons, List.not_mem_nil, or_false] at hc
    rcases hc with rfl | rfl <;> exact ⟨⟨rfl, rfl⟩, rfl⟩
  · decide +kernel

end GT

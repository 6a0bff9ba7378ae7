import Verif.Lemmas.NeonFlat

/-!
# C92: the NEON backend stays inside its arrays

As in C73 and C74, the functions of src/func_neon.hpp are modelled twice: row by row in `Verif.Model.Neon`, and in `Verif.Model.NeonFlat` on
the byte arrays with the offsets of the code. There a vector load or store is defined only if its 16 bytes lie inside the array, and the
promise `__builtin_assume_aligned(row, 32)` has to hold. The two agree for machines with at least one literal and arrays of fewer than
2^31 bytes, if the example lies in the buffer that the input block allocates and labels are classes.
-/

namespace GT
open Spec FlatMem NeonMem
open AvxMem (forLoop_none)

/-- Initialisation is defined and writes the arrays of the block `neonInit` describes, whatever the fresh memory holds. -/
theorem C92_initialize (nClauses nClasses : Nat) (cfg : VCfg) (fastOf rngOf : Nat → Rng) (vrngOf : Nat → VRng) (junk : Nat → Byte)
    (junkW : Nat → Int) (junkM : Nat → Mem) (junkC : Nat → Nat) (seed : Nat) (hs : NeonSmall cfg.nLits nClauses nClasses) :
    flatNeonInit nClauses nClasses cfg fastOf rngOf vrngOf junk junkW junkC seed =
      some ((neonInit nClauses nClasses cfg fastOf rngOf vrngOf junkM junkC seed).map flattenNeon) :=
  flat_init nClauses nClasses cfg fastOf rngOf vrngOf junk junkW junkM junkC seed hs

/-- Any history of training and evaluation has on the arrays the effect of the row-by-row description, and is undefined only where that
description says that the process crashes.
Missing: machines without literals, larger arrays and labels that are not classes, for which the claim is false. -/
theorem C92_history_partial (b : NBlock) (hn : 0 < b.cfg.nLits) (hb : NeonShaped b) (hs : NeonSmall b.cfg.nLits b.clauses.length b.nClasses)
    (ops : List FlatAvxOp) (ho : ∀ op ∈ ops, AvxOpOk b.cfg.nLits b.nClasses op) :
    (flattenNeon b).run ops = (neonRun b (ops.map opMem)).map flattenNeon :=
  flat_run ops b hn hb hs ho

/-- Training on an example. -/
def IsTrainExample : FlatAvxOp → Prop
  | .trainExample _ => True
  | _ => False

theorem NeonMem.apply_cases (b : NBlock) (op : FlatAvxOp) :
    ((∃ b', b.apply (opMem op) = some b' ∧ b'.cfg = b.cfg ∧ (b'.clauses = [] ↔ b.clauses = [])) ↔
      (b.cfg.budget ≠ none ∨ b.clauses = [] ∨ ¬ IsTrainExample op)) ∧
    (b.apply (opMem op) = none ↔ ¬ (b.cfg.budget ≠ none ∨ b.clauses = [] ∨ ¬ IsTrainExample op)) := by
  cases op with
  | trainExample x =>
    show ((∃ b', (neonSetClauses b.cfg _ b.clauses).map _ = some b' ∧ _) ↔ _) ∧ ((neonSetClauses b.cfg _ b.clauses).map _ = none ↔ _)
    unfold neonSetClauses
    by_cases h : b.clauses ≠ [] ∧ b.cfg.budget = none
    · rw [if_pos h]
      simp [IsTrainExample, h.1, h.2]
    · rw [if_neg h]
      have : b.cfg.budget ≠ none ∨ b.clauses = [] := by
        by_cases hc : b.clauses = []
        · exact Or.inr hc
        · exact Or.inl fun hb => h ⟨hc, hb⟩
      have h2 : b.cfg.budget ≠ none ∨ b.clauses = [] ∨ ¬ IsTrainExample (.trainExample x) := by
        rcases this with h | h
        · exact Or.inl h
        · exact Or.inr (Or.inl h)
      refine ⟨⟨fun _ => h2, fun _ => ⟨_, rfl, rfl, by simp⟩⟩, ?_⟩
      simp only [Option.map_some, reduceCtorEq, false_iff, Classical.not_not]
      exact h2
  | evalExample x =>
    have h2 : ¬ IsTrainExample (.evalExample x) := fun h => h
    refine ⟨⟨fun _ => Or.inr (Or.inr h2), fun _ => ⟨_, rfl, rfl, ?_⟩⟩, ?_⟩
    · show neonEvalClauses b.cfg _ false b.clauses = [] ↔ _
      cases b.clauses <;> simp [neonEvalClauses]
    · refine ⟨fun h => absurd h (by simp [NBlock.apply, opMem]), fun h => absurd (Or.inr (Or.inr h2)) h⟩
  | trainUpdate x fb =>
    have h2 : ¬ IsTrainExample (.trainUpdate x fb) := fun h => h
    refine ⟨⟨fun _ => Or.inr (Or.inr h2), fun _ => ⟨_, rfl, rfl, ?_⟩⟩, ?_⟩
    · show (neonTrainClauses b.cfg _ fb b.clauses b.fast b.vrng).1 = [] ↔ _
      cases b.clauses <;> simp [neonTrainClauses]
    · refine ⟨fun h => absurd h (by simp [NBlock.apply, opMem]), fun h => absurd (Or.inr (Or.inr h2)) h⟩

theorem NeonMem.run_isSome (ops : List FlatAvxOp) : ∀ b : NBlock, (neonRun b (ops.map opMem)).isSome = true ↔
    (b.cfg.budget ≠ none ∨ b.clauses = [] ∨ ∀ op ∈ ops, ¬ IsTrainExample op) := by
  induction ops with
  | nil => intro b; simp [neonRun]
  | cons op ops ih =>
    intro b
    rw [List.map_cons, neonRun]
    obtain ⟨h1, h2⟩ := NeonMem.apply_cases b op
    by_cases h : b.cfg.budget ≠ none ∨ b.clauses = [] ∨ ¬ IsTrainExample op
    · obtain ⟨b', hb', hc, hcl⟩ := h1.mpr h
      rw [hb', Option.bind_some, ih b', hc, hcl]
      simp only [List.mem_cons, forall_eq_or_imp]
      constructor
      · rintro (g | g | g)
        · exact Or.inl g
        · exact Or.inr (Or.inl g)
        · rcases h with h | h | h
          · exact Or.inl h
          · exact Or.inr (Or.inl h)
          · exact Or.inr (Or.inr ⟨h, g⟩)
      · rintro (g | g | g)
        · exact Or.inl g
        · exact Or.inr (Or.inl g)
        · exact Or.inr (Or.inr g.2)
    · rw [h2.mpr h, Option.bind_none]
      simp only [Option.isSome_none, Bool.false_eq_true, List.mem_cons, forall_eq_or_imp, false_iff]
      rintro (g | g | g)
      · exact h (Or.inl g)
      · exact h (Or.inr (Or.inl g))
      · exact h (Or.inr (Or.inr g.1))

/-- From `initialize(seed)` on, with a literal budget: every access is inside its array and every promise to the compiler is kept, whatever
the seed, the random draws, the examples, the feedback and the order of the calls.
Missing: machines without a literal budget (`C92_defined_iff`) and what is missing in `C92_history_partial`. -/
theorem C92_from_initialize_partial (nClauses nClasses : Nat) (cfg : VCfg) (fastOf rngOf : Nat → Rng) (vrngOf : Nat → VRng) (junk : Nat → Byte)
    (junkW : Nat → Int) (junkM : Nat → Mem) (junkC : Nat → Nat) (seed : Nat) (hseed : seed ≠ 0) (hn : 0 < cfg.nLits)
    (hbud : cfg.budget ≠ none) (hs : NeonSmall cfg.nLits nClauses nClasses) (ops : List FlatAvxOp)
    (ho : ∀ op ∈ ops, AvxOpOk cfg.nLits nClasses op) :
    ∃ b b' m, neonInit nClauses nClasses cfg fastOf rngOf vrngOf junkM junkC seed = some b ∧
      flatNeonInit nClauses nClasses cfg fastOf rngOf vrngOf junk junkW junkC seed = some (some m) ∧
      neonRun b (ops.map opMem) = some b' ∧ m.run ops = some (flattenNeon b') := by
  have hi : ∃ b, neonInit nClauses nClasses cfg fastOf rngOf vrngOf junkM junkC seed = some b := by
    unfold neonInit
    rw [if_neg hseed]
    exact ⟨_, rfl⟩
  obtain ⟨b, hb⟩ := hi
  obtain ⟨h1, h2, h3, h4⟩ := init_shaped nClauses nClasses cfg fastOf rngOf vrngOf junkM junkC seed b hb
  obtain ⟨b', hb'⟩ := Option.isSome_iff_exists.mp ((NeonMem.run_isSome ops b).mpr (Or.inl (by rw [h2]; exact hbud)))
  refine ⟨b, b', flattenNeon b, hb, ?_, hb', ?_⟩
  · rw [flat_init _ _ _ _ _ _ _ _ junkM _ _ hs, hb]; rfl
  · rw [flat_run ops b (by rw [h2]; exact hn) h1 (by rw [h2, h3, h4]; exact hs) (by rw [h2, h3]; exact ho), hb']; rfl

/-- From `initialize(seed)` on, exactly these histories stay inside the arrays: with a literal budget all, without one those that never
train on an example (or have no clause to train). -/
theorem C92_defined_iff (nClauses nClasses : Nat) (cfg : VCfg) (fastOf rngOf : Nat → Rng) (vrngOf : Nat → VRng) (junk : Nat → Byte)
    (junkW : Nat → Int) (junkC : Nat → Nat) (seed : Nat) (hn : 0 < cfg.nLits)
    (hs : NeonSmall cfg.nLits nClauses nClasses) (ops : List FlatAvxOp) (ho : ∀ op ∈ ops, AvxOpOk cfg.nLits nClasses op) (m : FlatNeon)
    (hm : flatNeonInit nClauses nClasses cfg fastOf rngOf vrngOf junk junkW junkC seed = some (some m)) :
    (∃ m', m.run ops = some m') ↔ (cfg.budget ≠ none ∨ nClauses = 0 ∨ ∀ op ∈ ops, ¬ IsTrainExample op) := by
  rw [flat_init _ _ _ _ _ _ _ _ (fun _ _ => 0#8) _ _ hs] at hm
  have hm := Option.some.inj hm
  cases hb : neonInit nClauses nClasses cfg fastOf rngOf vrngOf (fun _ _ => 0#8) junkC seed with
  | none => rw [hb] at hm; simp at hm
  | some b =>
    rw [hb] at hm
    obtain rfl := Option.some.inj hm
    obtain ⟨h1, h2, h3, h4⟩ := init_shaped nClauses nClasses cfg fastOf rngOf vrngOf _ junkC seed b hb
    rw [flat_run ops b (by rw [h2]; exact hn) h1 (by rw [h2, h3, h4]; exact hs) (by rw [h2, h3]; exact ho)]
    have hr := NeonMem.run_isSome ops b
    rw [h2, show b.clauses = [] ↔ nClauses = 0 by rw [← h4]; simp] at hr
    rw [← hr]
    cases neonRun b (ops.map opMem) <;> simp

/-- A machine without literals, which the constructors accept, reads before the start of its arrays in its first call. -/
theorem C92_no_literals (b : NBlock) (h0 : b.cfg.nLits = 0) (hne : b.clauses ≠ []) (x : List Byte) (ops : List FlatAvxOp) :
    (flattenNeon b).run (.trainExample x :: ops) = none ∧ (flattenNeon b).run (.evalExample x :: ops) = none := by
  obtain ⟨c, cs, hcs⟩ := List.exists_cons_of_ne_nil hne
  have hlen : (flattenNeon b).nClauses = cs.length + 1 := by show b.clauses.length = _; rw [hcs]; rfl
  have hmem : (flattenNeon b).mem = 0 := by show neonMem b.cfg.nLits = 0; rw [h0]; rfl
  constructor
  · have hl : ∀ outs counts, FlatNeon.setLast { flattenNeon b with counts := counts } x 0 0 (((0 : Nat) : Int) / 16 - 1) outs 0 = none := by
      intro outs counts
      unfold FlatNeon.setLast
      simp only
      rw [bind_of (ldq_mask b), bind_of (show posOffN (((0 : Nat) : Int) / 16 - 1) = some (-16) by decide), ldq_neg x (by decide)]
      rfl
    have : FlatNeon.setOutBody x 0 (flattenNeon b) = none := by
      simp only [FlatNeon.setOutBody, hmem]
      cases hw : wr (flattenNeon b).outputs ((0 : Nat) : Int) 1 with
      | none => rfl
      | some outs =>
        cases hw : wr (flattenNeon b).counts ((0 : Nat) : Int) 0 with
        | none => rfl
        | some counts => exact hl outs counts
    show ((forLoop (FlatNeon.setOutBody x) (flattenNeon b).nClauses 0 (flattenNeon b)).bind FlatNeon.countVotes).bind _ = none
    rw [hlen, forLoop_none this]
    rfl
  · have hl : ∀ outs, (flattenNeon b).evalLast x 0 0 (((0 : Nat) : Int) / 16 - 1) outs false = none := by
      intro outs
      unfold FlatNeon.evalLast
      simp only
      rw [bind_of (ldq_mask b), bind_of (show posOffN (((0 : Nat) : Int) / 16 - 1) = some (-16) by decide), ldq_neg x (by decide)]
      rfl
    have : FlatNeon.evalBody x 0 (flattenNeon b, false) = none := by
      simp only [FlatNeon.evalBody, hmem]
      cases hw : wr (flattenNeon b).outputs ((0 : Nat) : Int) 1 with
      | none => rfl
      | some outs => exact hl outs
    show (((forLoop (FlatNeon.evalBody x) (flattenNeon b).nClauses 0 (flattenNeon b, false)).bind _).bind FlatNeon.countVotes).bind _ = none
    rw [hlen, forLoop_none this]
    rfl

/-- With 2^30 weights or more (but fewer than 2^31) the size of the array of weights does not fit an `int`: 32 bytes are allocated, and
initialisation writes beyond them. -/
theorem C92_weights_overflow (nClauses nClasses : Nat) (cfg : VCfg) (fastOf rngOf : Nat → Rng) (vrngOf : Nat → VRng) (junk : Nat → Byte)
    (junkW : Nat → Int) (junkC : Nat → Nat) (seed : Nat) (hseed : seed ≠ 0) (h1 : 1073741824 ≤ nClauses * nClasses)
    (h2 : nClauses * nClasses < 2147483648) :
    flatNeonInit nClauses nClasses cfg fastOf rngOf vrngOf junk junkW junkC seed = none := by
  unfold flatNeonInit
  rw [if_neg hseed]
  have hsz : neonAlloc (sizeToInt (((nClauses * nClasses : Nat) : Int) * 2)) = some 32 := by
    have hneg : sizeToInt (((nClauses * nClasses : Nat) : Int) * 2) < 0 := by unfold sizeToInt; omega
    unfold neonAlloc safeAllocSize
    rw [if_pos (by omega)]
    exact congrArg some (if_pos hneg)
  refine Option.eq_none_iff_forall_ne_some.mpr fun r hr => ?_
  obtain ⟨_, _, hr⟩ := bind_inv hr
  obtain ⟨_, _, hr⟩ := bind_inv hr
  obtain ⟨_, _, hr⟩ := bind_inv hr
  obtain ⟨_, _, hr⟩ := bind_inv hr
  obtain ⟨_, _, hr⟩ := bind_inv hr
  obtain ⟨_, _, hr⟩ := bind_inv hr
  obtain ⟨_, _, hr⟩ := bind_inv hr
  obtain ⟨_, _, hr⟩ := bind_inv hr
  obtain ⟨w, hw, hr⟩ := bind_inv hr
  rw [i32_nat (nClauses * nClasses) (by push_cast; rfl) h2] at hw
  obtain rfl := Option.some.inj hw
  obtain ⟨wb, hwb, hr⟩ := bind_inv hr
  rw [hsz] at hwb
  obtain rfl := Option.some.inj hwb
  obtain ⟨_, _, hr⟩ := bind_inv hr
  obtain ⟨_, _, hr⟩ := bind_inv hr
  obtain ⟨s, _, hr⟩ := bind_inv hr
  obtain ⟨_, hx, _⟩ := bind_inv hr
  rw [initWeight_none _ 0 _ _ (by omega) (by simp; omega)] at hx
  simp at hx

/-- What is treated as usable after an allocation lies in the block that was asked for, and every size asked for is a multiple of the
alignment, as C11 demands. -/
theorem C92_allocations (mem n : Int) (h : neonAlloc mem = some n) :
    ∃ size, safeAllocSize 32 mem = some size ∧ n ≤ size ∧ 32 ≤ size ∧ size % 32 = 0 := by
  unfold neonAlloc at h
  obtain ⟨size, hs, h⟩ := bind_inv h
  refine ⟨size, hs, ?_⟩
  have h := Option.some.inj h
  unfold safeAllocSize at hs
  split at hs
  · have := Option.some.inj hs; split at h <;> omega
  · split at hs
    · have := (i32_inv hs).1; split at h <;> omega
    · have := Option.some.inj hs; split at h <;> omega

/-- A block of two clauses over 17 literals (two chunks) and two classes, for the example below. -/
def twoNeonClauses : NBlock where
  nClasses := 2
  cfg := ⟨17, some 3, true, BitVec.ofInt 8 (-64)⟩
  clauses := [⟨fun a => if a = 16 then 3#8 else 0xFF#8, [1, -1], 0, 0⟩, ⟨fun a => if a = 32 then 0#8 else 0xFE#8, [2, 1], 0, 0⟩]
  votes := [0, 0]
  fast := ⟨fun _ => 0, 0⟩
  vrng := ⟨fun _ _ => 0#8, 0⟩

/-- Non-vacuity: the block meets the hypotheses of `C92_history_partial`, and training and evaluation change its arrays. -/
example : NeonShaped twoNeonClauses ∧ NeonSmall 17 2 2 ∧
    (((flattenNeon twoNeonClauses).run [.trainExample ((List.range 32).map fun a => if a = 16 then 1#8 else 0#8),
      .trainUpdate ((List.range 32).map fun a => if a = 16 then 1#8 else 0#8) ⟨0, 1/2, 1, 1/2⟩,
      .evalExample ((List.range 32).map fun a => if a = 16 then 1#8 else 0#8)]).map
      fun m => (m.clauses.getD 16 0#8, m.weights, m.votes)) = some (5#8, [2, -2, 3, 0], [5, -2]) := by
  refine ⟨⟨?_, rfl⟩, ⟨by decide, by decide, by decide, by decide, by decide⟩, ?_⟩
  · intro c hc
    simp only [twoNeonClauses, List.mem_cons, List.not_mem_nil, or_false] at hc
    rcases hc with rfl | rfl <;> rfl
  · decide +kernel

/-- Non-vacuity of `C92_weights_overflow`: a size at which the arithmetic of the weights overflows. -/
example : 1073741824 ≤ 32768 * 32768 ∧ 32768 * 32768 < 2147483648 := by decide

/-- What "inside the arrays" means in C92: a vector can be loaded or stored exactly where all of its 16 bytes are in
the array; a load gives these bytes and a store changes them only. -/
theorem C92_access (a : List Byte) (i : Int) (v : Vec neonL) :
    (ldq a i ≠ none ↔ 0 ≤ i ∧ i + 16 ≤ a.length) ∧ (stq a i v ≠ none ↔ 0 ≤ i ∧ i + 16 ≤ a.length) ∧
    (∀ u, ldq a i = some u → ∀ l : Fin 16, rd a (i + l.val) = some (u l)) ∧
    (∀ b, stq a i v = some b → b.length = a.length ∧ (∀ l : Fin 16, rd b (i + l.val) = some (v l)) ∧
      ∀ j : Int, j < i ∨ i + 16 ≤ j → rd b j = rd a j) := by
  refine ⟨?_, ?_, ?_, ?_⟩
  · unfold ldq; split <;> simp <;> omega
  · unfold stq; split <;> simp <;> omega
  · intro u hu l
    unfold ldq at hu
    split at hu
    · next h =>
      obtain rfl := Option.some.inj hu
      have hl := l.isLt
      have e : (i + (l.val : Int)).toNat = i.toNat + l.val := by omega
      show _ = some (a.getD (i.toNat + l.val) 0#8)
      rw [rd, if_pos (by omega), e, List.getD_eq_getElem?_getD, List.getElem?_eq_getElem (by omega)]
      rfl
    · simp at hu
  · intro b hb
    unfold stq at hb
    split at hb
    · next h =>
      obtain rfl := Option.some.inj hb
      have hL : (List.ofFn v).length = 16 := List.length_ofFn
      have ht : (a.take i.toNat).length = i.toNat := by rw [List.length_take]; omega
      refine ⟨?_, fun l => ?_, fun j hj => ?_⟩
      · simp only [List.length_append, List.length_drop, hL, ht]; omega
      · have hl := l.isLt
        have e : (i + (l.val : Int)).toNat = i.toNat + l.val := by omega
        rw [rd, if_pos (by omega), e, List.append_assoc, List.getElem?_append_right (by omega), ht,
          List.getElem?_append_left (by omega), Nat.add_sub_cancel_left, List.getElem?_ofFn]
        simp [show l.val < neonL from hl]
      · unfold rd
        split
        · rcases hj with hj | hj
          · rw [List.append_assoc, List.getElem?_append_left (by omega), List.getElem?_take_of_lt (by omega)]
          · rw [List.append_assoc, List.getElem?_append_right (by omega), List.getElem?_append_right (by omega),
              List.getElem?_drop, ht, hL]
            congr 1
            omega
        · rfl
    · simp at hb

example : ldq (List.replicate 64 7#8) 48 ≠ none ∧ ldq (List.replicate 63 7#8) 48 = none := by
  simp only [(C92_access _ _ (fun _ => 0#8)).1]
  exact ⟨by simp, by simp [ldq]⟩

end GT

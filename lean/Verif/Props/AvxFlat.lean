import Verif.Lemmas.AvxFlat

/-!
# C74: the AVX2 backend stays inside its arrays, and its accesses are aligned

As in C73, the functions of src/func_avx2.hpp are modelled twice: row by row in `Verif.Model.Avx2`, and in `Verif.Model.AvxFlat` on the
byte arrays with the offsets of the code. There a vector load or store is defined only if its 32 bytes lie inside the array and its
address is a multiple of 32. The two agree for machines with at least one literal and one clause and arrays of fewer than 2^31 elements, if
the example lies in the buffer that the input block allocates and labels are classes.
-/

namespace GT
open Spec FlatMem AvxMem

/-- Initialisation is defined and writes the arrays of the block `avxInit` describes, whatever the fresh memory holds. -/
theorem C74_initialize (nClauses nClasses : Nat) (cfg : VCfg) (fastOf : Nat → Rng) (vrngOf : Nat → VRng) (junk : Nat → Byte)
    (junkM : Nat → Mem) (junkC : Nat → Nat) (seed : Nat) (hn : 0 < cfg.nLits) (hc : 0 < nClauses)
    (hs : AvxSmall cfg.nLits nClauses nClasses) :
    flatAvxInit false nClauses nClasses cfg fastOf vrngOf junk junkC seed =
      some ((avxInit nClauses nClasses cfg fastOf vrngOf junkM junkC seed).map flattenAvx) :=
  flat_init false nClauses nClasses cfg fastOf vrngOf junk junkM junkC seed hn hc hs (by simp)

/-- Any history of training and evaluation is defined on the arrays and leaves them as the row-by-row description says.
Missing: machines without literals, larger arrays and labels that are not classes, for which the claim is false. -/
theorem C74_history_partial (b : VBlock) (hn : 0 < b.cfg.nLits) (hb : AvxShaped b) (hs : AvxSmall b.cfg.nLits b.clauses.length b.nClasses)
    (ops : List FlatAvxOp) (ho : ∀ op ∈ ops, AvxOpOk b.cfg.nLits b.nClasses op) :
    (flattenAvx b).run ops = some (flattenAvx (b.run (ops.map opMem))) :=
  flat_run ops b hn hb hs ho

/-- From `initialize(seed)` on: every access is inside its array and every vector access is aligned, whatever the seed, the random draws,
the examples, the feedback and the order of the calls.
Missing: as in `C74_history_partial`. -/
theorem C74_from_initialize_partial (nClauses nClasses : Nat) (cfg : VCfg) (fastOf : Nat → Rng) (vrngOf : Nat → VRng) (junk : Nat → Byte)
    (junkM : Nat → Mem) (junkC : Nat → Nat) (seed : Nat) (hseed : seed ≠ 0) (hn : 0 < cfg.nLits) (hc : 0 < nClauses)
    (hs : AvxSmall cfg.nLits nClauses nClasses) (ops : List FlatAvxOp) (ho : ∀ op ∈ ops, AvxOpOk cfg.nLits nClasses op) :
    ∃ b m, avxInit nClauses nClasses cfg fastOf vrngOf junkM junkC seed = some b ∧
      flatAvxInit false nClauses nClasses cfg fastOf vrngOf junk junkC seed = some (some m) ∧
      m.run ops = some (flattenAvx (b.run (ops.map opMem))) := by
  have hi : ∃ b, avxInit nClauses nClasses cfg fastOf vrngOf junkM junkC seed = some b := by
    unfold avxInit
    rw [if_neg hseed]
    exact ⟨_, rfl⟩
  obtain ⟨b, hb⟩ := hi
  obtain ⟨h1, h2, h3, h4⟩ := init_shaped nClauses nClasses cfg fastOf vrngOf junkM junkC seed b hb
  refine ⟨b, flattenAvx b, hb, ?_, ?_⟩
  · rw [flat_init false _ _ _ _ _ _ junkM _ _ hn hc hs (by simp), hb]; rfl
  · exact flat_run ops b (by rw [h2]; exact hn) h1 (by rw [h2, h3, h4]; exact hs) (by rw [h2, h3]; exact ho)

/-- With an allocator that insists on C11's rule for `aligned_alloc`, initialisation succeeds exactly if the number of classes is a
multiple of 16. -/
theorem C74_strict_allocator (nClauses nClasses : Nat) (cfg : VCfg) (fastOf : Nat → Rng) (vrngOf : Nat → VRng) (junk : Nat → Byte)
    (junkC : Nat → Nat) (seed : Nat) (hseed : seed ≠ 0) (hn : 0 < cfg.nLits) (hc : 0 < nClauses)
    (hs : AvxSmall cfg.nLits nClauses nClasses) :
    (∃ m, flatAvxInit true nClauses nClasses cfg fastOf vrngOf junk junkC seed = some (some m)) ↔ nClasses % 16 = 0 := by
  constructor
  · rintro ⟨r, hr⟩
    unfold flatAvxInit at hr
    rw [if_neg hseed] at hr
    obtain ⟨_, _, hr⟩ := bind_inv hr
    obtain ⟨_, _, hr⟩ := bind_inv hr
    obtain ⟨_, _, hr⟩ := bind_inv hr
    obtain ⟨_, _, hr⟩ := bind_inv hr
    obtain ⟨_, _, hr⟩ := bind_inv hr
    obtain ⟨_, _, hr⟩ := bind_inv hr
    obtain ⟨_, _, hr⟩ := bind_inv hr
    obtain ⟨_, _, hr⟩ := bind_inv hr
    obtain ⟨_, _, hr⟩ := bind_inv hr
    obtain ⟨_, _, hr⟩ := bind_inv hr
    obtain ⟨_, h, _⟩ := bind_inv hr
    unfold alignedAlloc at h
    split at h
    · simp at h
    · next hh =>
      simp only [true_and, ne_eq, Classical.not_not] at hh
      omega
  · intro h
    have hi : ∃ b, avxInit nClauses nClasses cfg fastOf vrngOf (fun _ _ => 0#8) junkC seed = some b := by
      unfold avxInit
      rw [if_neg hseed]
      exact ⟨_, rfl⟩
    obtain ⟨b, hb⟩ := hi
    exact ⟨flattenAvx b, by rw [flat_init true _ _ _ _ _ _ (fun _ _ => 0#8) _ _ hn hc hs (fun _ => h), hb]; rfl⟩

/-- A machine without literals, which the constructors accept, reads before the start of its arrays in its first call. -/
theorem C74_no_literals (b : VBlock) (h0 : b.cfg.nLits = 0) (hne : b.clauses ≠ []) (x : List Byte) (ops : List FlatAvxOp) :
    (flattenAvx b).run (.trainExample x :: ops) = none ∧ (flattenAvx b).run (.evalExample x :: ops) = none := by
  obtain ⟨c, cs, hcs⟩ := List.exists_cons_of_ne_nil hne
  have hlen : (flattenAvx b).nClauses = cs.length + 1 := by show b.clauses.length = _; rw [hcs]; rfl
  have hmem : (flattenAvx b).mem = 0 := by show avxMem b.cfg.nLits = 0; rw [h0]; rfl
  constructor
  · have : ∀ mask, FlatAvx.setOutBody x mask 0 (flattenAvx b) = none := by
      intro mask
      have hl : ∀ outs, (flattenAvx b).setLast x 0 0 (((0 : Nat) : Int) / 32 - 1) mask outs 0 = none := by
        intro outs
        unfold FlatAvx.setLast
        simp only
        rw [bind_of (show posOff (((0 : Nat) : Int) / 32 - 1) = some (-32) by decide), ldv_neg x (by decide)]
        rfl
      simp only [FlatAvx.setOutBody, hmem]
      cases hw : wr (flattenAvx b).outputs ((0 : Nat) : Int) 1 with
      | none => rfl
      | some outs => exact hl outs
    show ((((ldv (flattenAvx b).mask 0).bind fun mask => forLoop (FlatAvx.setOutBody x mask) (flattenAvx b).nClauses 0 (flattenAvx b)).bind
      FlatAvx.countVotes).bind _) = none
    cases ldv (flattenAvx b).mask 0 with
    | none => rfl
    | some mask =>
      show ((forLoop (FlatAvx.setOutBody x mask) (flattenAvx b).nClauses 0 (flattenAvx b)).bind FlatAvx.countVotes).bind _ = none
      rw [hlen, forLoop_none (this mask)]
      rfl
  · have : ∀ mask, FlatAvx.evalBody x mask 0 (flattenAvx b) = none := by
      intro mask
      have hl : ∀ outs, (flattenAvx b).evalLast x 0 0 (((0 : Nat) : Int) / 32 - 1) mask outs false = none := by
        intro outs
        unfold FlatAvx.evalLast
        simp only
        rw [bind_of (show posOff (((0 : Nat) : Int) / 32 - 1) = some (-32) by decide), ldv_neg x (by decide)]
        rfl
      simp only [FlatAvx.evalBody, hmem]
      cases hw : wr (flattenAvx b).outputs ((0 : Nat) : Int) 1 with
      | none => rfl
      | some outs => exact hl outs
    show ((((ldv (flattenAvx b).mask 0).bind fun mask => forLoop (FlatAvx.evalBody x mask) (flattenAvx b).nClauses 0 (flattenAvx b)).bind
      FlatAvx.countVotes).bind _) = none
    cases ldv (flattenAvx b).mask 0 with
    | none => rfl
    | some mask =>
      show ((forLoop (FlatAvx.evalBody x mask) (flattenAvx b).nClauses 0 (flattenAvx b)).bind FlatAvx.countVotes).bind _ = none
      rw [hlen, forLoop_none (this mask)]
      rfl

/-- `safe_aligned_alloc` asks for at least the bytes it is given, and for a multiple of the alignment. -/
theorem C74_safe_alloc (mem size : Int) (h : safeAllocSize 32 mem = some size) : mem ≤ size ∧ 32 ≤ size ∧ size % 32 = 0 := by
  unfold safeAllocSize at h
  split at h
  · have := Option.some.inj h; omega
  · split at h
    · have := (i32_inv h).1; omega
    · have := Option.some.inj h; omega

/-- A block of two clauses over 33 literals (two chunks) and two classes, for the example below. -/
def twoAvxClauses : VBlock where
  nClasses := 2
  cfg := ⟨33, some 3, true, BitVec.ofInt 8 (-64)⟩
  clauses := [⟨fun a => if a = 32 then 3#8 else 0xFF#8, [1, -1], 0, 0⟩, ⟨fun a => if a = 64 then 0#8 else 0xFE#8, [2, 1], 0, 0⟩]
  votes := [0, 0]
  fast := ⟨fun _ => 0, 0⟩
  vrng := ⟨fun _ _ => 0#8, 0⟩

/-- Non-vacuity: the block meets the hypotheses of `C74_history_partial`, and training and evaluation change its arrays. -/
example : AvxShaped twoAvxClauses ∧ AvxSmall 33 2 2 ∧
    (((flattenAvx twoAvxClauses).run [.trainExample ((List.range 64).map fun a => if a = 32 then 1#8 else 0#8),
      .trainUpdate ((List.range 64).map fun a => if a = 32 then 1#8 else 0#8) ⟨0, 1/2, 1, 1/2⟩,
      .evalExample ((List.range 64).map fun a => if a = 32 then 1#8 else 0#8)]).map
      fun m => (m.clauses.getD 32 0#8, m.weights, m.votes)) = some (5#8, [2, -2, 3, 0], [5, -2]) := by
  refine ⟨⟨?_, rfl⟩, ⟨by decide, by decide, by decide, by decide⟩, ?_⟩
  · intro c hc
    simp only [twoAvxClauses, List.mem_cons, List.not_mem_nil, or_false] at hc
    rcases hc with rfl | rfl <;> rfl
  · decide +kernel

/-- What "inside the arrays" means in C74: a vector can be loaded or stored exactly at aligned positions with all of
its 32 bytes in the array; a load gives these bytes and a store changes them only. -/
theorem C74_access (a : List Byte) (i : Int) (v : Vec avxL) :
    (ldv a i ≠ none ↔ 0 ≤ i ∧ i % 32 = 0 ∧ i + 32 ≤ a.length) ∧
    (stv a i v ≠ none ↔ 0 ≤ i ∧ i % 32 = 0 ∧ i + 32 ≤ a.length) ∧
    (∀ u, ldv a i = some u → ∀ l : Fin 32, rd a (i + l.val) = some (u l)) ∧
    (∀ b, stv a i v = some b → b.length = a.length ∧ (∀ l : Fin 32, rd b (i + l.val) = some (v l)) ∧
      ∀ j : Int, j < i ∨ i + 32 ≤ j → rd b j = rd a j) := by
  refine ⟨?_, ?_, ?_, ?_⟩
  · unfold ldv; split <;> simp <;> omega
  · unfold stv; split <;> simp <;> omega
  · intro u hu l
    unfold ldv at hu
    split at hu
    · next h =>
      obtain rfl := Option.some.inj hu
      have hl := l.isLt
      have e : (i + (l.val : Int)).toNat = i.toNat + l.val := by omega
      show _ = some (a.getD (i.toNat + l.val) 0#8)
      rw [rd, if_pos (by omega), e, List.getD_eq_getElem?_getD, List.getElem?_eq_getElem (by omega)]
      rfl
    · simp at hu
  · intro b hb
    unfold stv at hb
    split at hb
    · next h =>
      obtain rfl := Option.some.inj hb
      have hL : (List.ofFn v).length = 32 := List.length_ofFn
      have ht : (a.take i.toNat).length = i.toNat := by rw [List.length_take]; omega
      refine ⟨?_, fun l => ?_, fun j hj => ?_⟩
      · simp only [List.length_append, List.length_drop, hL, ht]; omega
      · have hl := l.isLt
        have e : (i + (l.val : Int)).toNat = i.toNat + l.val := by omega
        rw [rd, if_pos (by omega), e, List.append_assoc, List.getElem?_append_right (by omega), ht,
          List.getElem?_append_left (by omega), Nat.add_sub_cancel_left, List.getElem?_ofFn]
        simp [show l.val < avxL from hl]
      · unfold rd
        split
        · rcases hj with hj | hj
          · rw [List.append_assoc, List.getElem?_append_left (by omega), List.getElem?_take_of_lt (by omega)]
          · rw [List.append_assoc, List.getElem?_append_right (by omega), List.getElem?_append_right (by omega),
              List.getElem?_drop, ht, hL]
            congr 1
            omega
        · rfl
    · simp at hb

example : ldv (List.replicate 64 7#8) 32 ≠ none ∧ ldv (List.replicate 63 7#8) 32 = none ∧
    ldv (List.replicate 64 7#8) 16 = none := by
  simp only [(C74_access _ _ (fun _ => 0#8)).1]
  refine ⟨by simp, ?_, ?_⟩ <;> simp [ldv]

end GT

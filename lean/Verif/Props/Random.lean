import Verif.Lemmas.Random
import Verif.Model.Dense

/-!
# The random generators: C66, C67, C68
-/

namespace GT
open Spec Neon

/-! ### C66: the numbers compared with probabilities -/

/-- **C66**: from every seed, every number drawn lies between 0 and 1. The claim also excludes 1; see below. -/
theorem C66_range_partial (g : Wyhash) (k : Nat) : 0 ≤ g.stream.draw k ∧ g.stream.draw k ≤ 1 := nextU_range (g.after k)

/-- **C66**: the draws of the stream are the results of successive calls. -/
theorem C66_stream_is_calls (g : Wyhash) (k : Nat) :
    g.stream.next.1 = g.nextU.1 ∧ g.stream.next.2.next.1 = g.nextU.2.nextU.1 ∧ g.stream.draw (k + 1) = g.nextU.2.stream.draw k := ⟨rfl, rfl, rfl⟩

/-- **C66**: the state goes through all 2^64 values before it repeats. -/
theorem C66_full_period (g : Wyhash) :
    (∀ t : BitVec 64, ∃ n, n < 2 ^ 64 ∧ (g.after n).x = t) ∧
    (∀ m n, m < 2 ^ 64 → n < 2 ^ 64 → (g.after m).x = (g.after n).x → m = n) :=
  ⟨wy_reaches g, wy_injective g⟩

/-- **C66**: different seed words give different generators, and none of the 64 bits of the seed is lost. -/
theorem C66_seeds_distinct (hi lo hi' lo' : Nat) (h1 : hi < 2 ^ 32) (h2 : lo < 2 ^ 32) (h1' : hi' < 2 ^ 32) (h2' : lo' < 2 ^ 32)
    (e : Wyhash.seeded hi lo = Wyhash.seeded hi' lo') : hi = hi' ∧ lo = lo' := by
  have hx := congrArg Wyhash.x e
  unfold Wyhash.seeded at hx
  rw [Wyhash.after_x, Wyhash.after_x] at hx
  have hy := congrArg BitVec.toNat ((BitVec.add_left_inj _).mp hx)
  have hs : ∀ a b : Nat, b < 2 ^ 32 → a <<< 32 ||| b = 2 ^ 32 * a + b := fun a b hb => by
    rw [Nat.shiftLeft_eq, Nat.mul_comm, Nat.two_pow_add_eq_or_of_lt hb]
  simp only [BitVec.toNat_ofNat, hs _ _ h2, hs _ _ h2'] at hy
  rw [Nat.mod_eq_of_lt (by omega), Nat.mod_eq_of_lt (by omega)] at hy
  omega

example : Wyhash.seeded 15 16 ≠ Wyhash.seeded 16 15 := fun e => absurd (C66_seeds_distinct 15 16 16 15 (by omega) (by omega) (by omega) (by omega) e).1 (by omega)

/-- **C66**, when 1 is drawn: exactly when the mixed 64-bit number is within 1024 of 2^64, as rounding to a double then
gives 2^64. -/
theorem C66_one_iff (g : Wyhash) : g.nextU.1 = 1 ↔ 2 ^ 64 - 1024 ≤ (wyM2 (g.x + 0x60bee2bee120fc15#64)).toNat := by
  rw [nextU_eq_one, Wyhash.advance_x]

/-- **C66 fails**: from every seed the number 1 is drawn sooner or later. -/
theorem C66_one_is_drawn (hi lo : Nat) : ∃ k, (Wyhash.seeded hi lo).stream.draw k = 1 := by
  obtain ⟨n, _, h⟩ := wy_one (Wyhash.seeded hi lo)
  exact ⟨n, h⟩

/-- **C66 fails**, what it means: an update that should happen with probability 1 does not happen at that draw, for any
clause and any example. -/
theorem C66_certain_update_skipped (hi lo : Nat) (b : DBlock) (c : Clause) (hc : b.clauses = [c])
    (hb : b.cfg.budget = none) (x : List Nat) (j j' : Nat) :
    ∃ k, ({ b with fast := { (Wyhash.seeded hi lo).stream with pos := k } }.apply (.trainUpdate x ⟨j, 1, j', 0⟩)).clauses =
      b.clauses := by
  obtain ⟨k, h⟩ := C66_one_is_drawn hi lo
  refine ⟨k, ?_⟩
  have h2 : ¬ (Wyhash.seeded hi lo).stream.draw (k + 1) < 0 := not_lt.mpr (nextU_range _).1
  have h1 : ¬ (Wyhash.seeded hi lo).stream.draw k < 1 := by rw [h]; simp
  show (trainClauses b.cfg x ⟨j, 1, j', 0⟩ b.clauses { (Wyhash.seeded hi lo).stream with pos := k } b.rng).1 = b.clauses
  rw [hc]
  simp [trainClauses, trainClause, Rng.next, h1, h2, budgetGate, hb]

example : SeedWord 15 ∧ SeedWord 4294967295 := by unfold SeedWord; decide

/-! ### C67: the vector generators do not degenerate -/

/-- The bytes a block gets from its vector generator are those of the generator's successive outputs, from the first one on. -/
theorem C67_streams (g : XorShift4) (h : Xoshiro2) (L k : Nat) (l : Fin L) :
    (g.stream.next L).1 l = byteOf g.next.1 l.val ∧ ((g.stream.next L).2.next L).1 l = byteOf g.next.2.next.1 l.val ∧
    g.stream.draw (k + 1) l.val = g.next.2.stream.draw k l.val ∧
    (h.stream.next L).1 l = byteOf h.next.1 l.val ∧ ((h.stream.next L).2.next L).1 l = byteOf h.next.2.next.1 l.val ∧
    h.stream.draw (k + 1) l.val = h.next.2.stream.draw k l.val :=
  ⟨rfl, rfl, rfl, rfl, rfl, rfl⟩

/-- **C67**, AVX2: once past two calls, every stream repeats with a period of 51166430 calls, whatever the seed (a
generator of this kind with all of its state in use repeats after 2^128 - 1 calls). -/
theorem C67_avx2_short_period (b : Nat → Byte) (k l : Nat) :
    (XorShift4.seeded b).stream.draw (k + 51166430) l = (XorShift4.seeded b).stream.draw k l := by
  unfold XorShift4.seeded
  generalize (XorShift4.mk (fun i => laneOf b i.val) (fun i => laneOf b (4 + i.val))) = g
  show byteOf ((g.after 32).after (k + 51166430)).next.1 l = byteOf ((g.after 32).after k).next.1 l
  rw [← XorShift4.after_add, ← XorShift4.after_add, ← Nat.add_assoc]
  rw [XorShift4.next_congr (g.part2_period (32 + k) (by omega))]

/-- **C67 fails**, AVX2: the first 32 of the 64 seed bytes have no effect on any draw. -/
theorem C67_avx2_half_of_seed_ignored (b b' : Nat → Byte) (h : ∀ j, 32 ≤ j → b j = b' j) (k l : Nat) :
    (XorShift4.seeded b).stream.draw k l = (XorShift4.seeded b').stream.draw k l := by
  have e : (XorShift4.mk (fun i => laneOf b i.val) (fun i => laneOf b (4 + i.val))).part2 =
      (XorShift4.mk (fun i => laneOf b' i.val) (fun i => laneOf b' (4 + i.val))).part2 := by
    funext i
    show laneOf b (4 + i.val) = laneOf b' (4 + i.val)
    unfold laneOf
    congr 1
    funext v j
    rw [h _ (by omega)]
  unfold XorShift4.seeded
  generalize (XorShift4.mk (fun i => laneOf b i.val) (fun i => laneOf b (4 + i.val))) = g at *
  generalize (XorShift4.mk (fun i => laneOf b' i.val) (fun i => laneOf b' (4 + i.val))) = g' at *
  show byteOf ((g.after 32).after k).next.1 l = byteOf ((g'.after 32).after k).next.1 l
  rw [← XorShift4.after_add, ← XorShift4.after_add, XorShift4.next_congr (XorShift4.after_congr e (32 + k))]

/-- The bytes of a seed that makes every draw zero. -/
def stuckSeed (j : Nat) : Byte := [103#8, 84#8, 14#8, 249#8, 11#8, 54#8, 149#8, 191#8].getD (j % 8) 5#8

theorem seedByte_stuck (j : Nat) : SeedByte (stuckSeed j) := by
  have h : ∀ i, i < 8 → SeedByte ([103#8, 84#8, 14#8, 249#8, 11#8, 54#8, 149#8, 191#8].getD i 5#8) := by decide
  exact h _ (Nat.mod_lt _ (by decide))

/-- **C67 fails**, AVX2: there are seed bytes, within the range the seeding draws from, with which every random byte is
zero, for ever. -/
theorem C67_avx2_stuck : ∃ b : Nat → Byte, (∀ j, SeedByte (b j)) ∧
    ∀ k l, (XorShift4.seeded b).stream.draw k l = 0#8 := by
  refine ⟨stuckSeed, seedByte_stuck, ?_⟩
  intro k l
  unfold XorShift4.seeded
  have hp : ∀ i : Fin 4, ((XorShift4.mk (fun i => laneOf stuckSeed i.val) (fun i => laneOf stuckSeed (4 + i.val))).part2 i).toNat =
      0xbf95360bf90e5467 := by decide +kernel
  generalize (XorShift4.mk (fun i => laneOf stuckSeed i.val) (fun i => laneOf stuckSeed (4 + i.val))) = g at *
  show byteOf ((g.after 32).after k).next.1 l = 0#8
  rw [← XorShift4.after_add]
  have hz : ∀ i, (g.after (32 + k)).part2 i = 0#64 := by
    intro i
    apply BitVec.eq_of_toNat_eq
    have e : 32 + k = 2 + (30 + k) := by omega
    rw [XorShift4.after_part2, hp, e, iter_add, (two_steps_zero _ (by decide)).mpr (.inr (.inl rfl))]
    exact (laneStep_linear.iter _).zero
  have ho := fun i => (XorShift4.zero_lane _ i (hz i)).1
  unfold byteOf
  split
  · rw [ho]; simp
  · rfl

/-- **C67**, AVX2: a lane of the state gets stuck at zero exactly from four of its 2^64 values. -/
theorem C67_avx2_stuck_iff (g : XorShift4) (i : Fin 4) :
    (∃ k, (g.after k).part2 i = 0#64) ↔
      g.part2 i = 0#64 ∨ g.part2 i = 0xbf95360bf90e5467#64 ∨ g.part2 i = 0x7d9ca978f3c672d8#64 ∨
        g.part2 i = 0xc2099f730ac826bf#64 := by
  have hn : ∀ v : BitVec 64, ∀ n : Nat, n < 2 ^ 64 → (v.toNat = n ↔ v = BitVec.ofNat 64 n) := by
    intro v n hn
    constructor
    · intro h; apply BitVec.eq_of_toNat_eq; rw [h, BitVec.toNat_ofNat, Nat.mod_eq_of_lt hn]
    · intro h; rw [h, BitVec.toNat_ofNat, Nat.mod_eq_of_lt hn]
  have h1 : (∃ k, (g.after k).part2 i = 0#64) ↔ ∃ k, iter laneStep k (g.part2 i).toNat = 0 := by
    constructor
    · rintro ⟨k, hk⟩; exact ⟨k, by rw [← XorShift4.after_part2, hk]; rfl⟩
    · rintro ⟨k, hk⟩; exact ⟨k, (hn _ 0 (by decide)).mp (by rw [XorShift4.after_part2]; exact hk)⟩
  rw [h1, reaches_zero _ (BitVec.isLt _), two_steps_zero _ (BitVec.isLt _), hn _ 0 (by decide), hn _ _ (by decide),
    hn _ _ (by decide), hn _ _ (by decide)]

/-- **C67**, NEON: from every seed, no lane of the state ever becomes zero.
Missing: the AVX2 generator, for which it is false. -/
theorem C67_neon_never_stuck_partial (seed64 : BitVec 64) (k : Nat) (i : Fin 2) :
    ¬ (((Xoshiro2.seeded seed64).after k).st0 i = 0#64 ∧ ((Xoshiro2.seeded seed64).after k).st1 i = 0#64) := by
  unfold Xoshiro2.seeded
  rw [← Xoshiro2.after_add]
  apply Xoshiro2.after_not_zero
  intro h
  exact absurd (show 8332434969416526375#64 = 0#64 from h.2) (by decide)

/-- **C67**, NEON: no two states have the same successor, so that every state lies on a cycle. -/
theorem C67_neon_injective (g h : Xoshiro2) (e : g.next.2 = h.next.2) : g = h := Xoshiro2.next_injective e

/-! ### C68: literals have their own random numbers -/

/-- **C68 fails**, NEON: in every draw from every seed, bytes 8 to 15 repeat bytes 0 to 7. -/
theorem C68_neon_bytes_repeat (seed64 : BitVec 64) (k j : Nat) (hj : j < 8) :
    (Xoshiro2.seeded seed64).stream.draw k j = (Xoshiro2.seeded seed64).stream.draw k (j + 8) :=
  stream_halves (Xoshiro2.seeded_same seed64) k j hj

theorem neonSetClause_row (cfg : VCfg) (lits : Mem) (c : VClause) (hn : 0 < cfg.nLits) :
    (neonSetClause cfg lits c).row = c.row := (neonSetClause_spec cfg lits c hn).2.2.2.1

theorem neonTrain_twin (cfg : VCfg) (lits : Mem) (fb : Feedback) (i : Nat)
    (hi : i % 16 < 8) (hb : i + 8 < cfg.nLits) (hl : lits i = lits (i + 8)) (cs : List VClause) (fast : Rng) (g : VRng)
    (hg : HalvesEqual g) (hc : ∀ c ∈ cs, TwinStates (neonMem cfg.nLits) c i (i + 8)) :
    HalvesEqual (neonTrainClauses cfg lits fb cs fast g).2.2 ∧
    ∀ c ∈ (neonTrainClauses cfg lits fb cs fast g).1, TwinStates (neonMem cfg.nLits) c i (i + 8) := by
  induction cs generalizing fast g with
  | nil => exact ⟨hg, by simp [neonTrainClauses]⟩
  | cons c cs ih =>
    have hup : ∀ (j : Nat) (t : Int) (c : VClause) (g : VRng), HalvesEqual g →
        TwinStates (neonMem cfg.nLits) c i (i + 8) →
        HalvesEqual (neonClauseUpdate cfg lits j t c g).2 ∧
          TwinStates (neonMem cfg.nLits) (neonClauseUpdate cfg lits j t c g).1 i (i + 8) := by
      intro j t c g hg hc
      refine ⟨?_, twin_update cfg lits j t c g i hi hb hg hl hc⟩
      intro k j' hj'
      rw [neonUpdate_draw]
      exact hg k j' hj'
    have hone : HalvesEqual (neonTrainClause cfg lits fb c fast g).2.2 ∧
        TwinStates (neonMem cfg.nLits) (neonTrainClause cfg lits fb c fast g).1 i (i + 8) := by
      have h0 : TwinStates (neonMem cfg.nLits) (neonBudgetGate cfg c) i (i + 8) := by
        have := hc c (List.mem_cons_self ..)
        unfold neonBudgetGate
        cases cfg.budget with
        | none => exact this
        | some m => dsimp only; split <;> exact this
      simp only [neonTrainClause]
      have h1 : HalvesEqual (if fast.next.1 < fb.posProb then neonClauseUpdate cfg lits fb.posClass 1 (neonBudgetGate cfg c) g
            else (neonBudgetGate cfg c, g)).2 ∧
          TwinStates (neonMem cfg.nLits) (if fast.next.1 < fb.posProb then
            neonClauseUpdate cfg lits fb.posClass 1 (neonBudgetGate cfg c) g else (neonBudgetGate cfg c, g)).1 i (i + 8) := by
        split
        · exact hup _ _ _ _ hg h0
        · exact ⟨hg, h0⟩
      generalize (if fast.next.1 < fb.posProb then neonClauseUpdate cfg lits fb.posClass 1 (neonBudgetGate cfg c) g
            else (neonBudgetGate cfg c, g)) = a at h1
      split
      · exact hup _ _ _ _ h1.1 h1.2
      · exact h1
    have hrest := ih (neonTrainClause cfg lits fb c fast g).2.1 (neonTrainClause cfg lits fb c fast g).2.2 hone.1
      (fun c' hc' => hc c' (List.mem_cons_of_mem _ hc'))
    refine ⟨hrest.1, ?_⟩
    intro c' hc'
    simp only [neonTrainClauses, List.mem_cons] at hc'
    rcases hc' with h | h
    · rw [h]; exact hone.2
    · exact hrest.2 c' h

/-- **C68 fails**, NEON, what it means: take two features, eight apart within a chunk of sixteen, that have the same value
in every example. If a block starts with equal states for them, then after any history of training and evaluation, from any
seed, every clause still has equal states for them: the random feedback never tells them apart. -/
theorem C68_neon_twins_never_part (seed64 : BitVec 64) (b b' : NBlock)
    (hg : b.vrng.draw = (Xoshiro2.seeded seed64).stream.draw) (ops : List VOp) (hrun : neonRun b ops = some b')
    (i : Nat) (hi : i % 16 < 8) (hb : i + 8 < b.cfg.nLits) (ht : TwinFeatures ops i (i + 8))
    (hc : ∀ c ∈ b.clauses, TwinStates (neonMem b.cfg.nLits) c i (i + 8)) :
    ∀ c ∈ b'.clauses, TwinStates (neonMem b.cfg.nLits) c i (i + 8) := by
  have hh : HalvesEqual b.vrng := by
    intro k j hj
    rw [hg]
    exact C68_neon_bytes_repeat seed64 k j hj
  clear hg
  obtain ⟨n, hnl⟩ : ∃ n, n = b.cfg.nLits := ⟨_, rfl⟩
  rw [← hnl] at hb hc ⊢
  induction ops generalizing b with
  | nil => simp only [neonRun, Option.some.injEq] at hrun; subst hrun; exact hc
  | cons op ops ih =>
    have ht' : TwinFeatures ops i (i + 8) := fun o ho => ht o (List.mem_cons_of_mem _ ho)
    have hl := ht op (List.mem_cons_self ..)
    have hn : 0 < b.cfg.nLits := by omega
    have hb' : i + 8 < b.cfg.nLits := by omega
    cases op with
    | trainExample lits =>
      simp only [neonRun, NBlock.apply, neonSetClauses] at hrun
      split at hrun
      · simp at hrun
      · simp only [Option.map_some, Option.bind_some] at hrun
        refine ih _ hrun ht' hh ?_ hnl
        intro c hcm
        simp only [List.mem_map] at hcm
        obtain ⟨c0, hc0, rfl⟩ := hcm
        have := hc c0 hc0
        unfold TwinStates at *
        rw [neonSetClause_row _ _ _ hn]
        exact this
    | evalExample lits =>
      simp only [neonRun, NBlock.apply, Option.bind_some] at hrun
      refine ih _ hrun ht' hh ?_ hnl
      have : ∀ (cs : List VClause) (act : Bool), (∀ c ∈ cs, TwinStates (neonMem n) c i (i + 8)) →
          ∀ c ∈ neonEvalClauses b.cfg lits act cs, TwinStates (neonMem n) c i (i + 8) := by
        intro cs
        induction cs with
        | nil => intro act _ c hcm; simp [neonEvalClauses] at hcm
        | cons c0 cs ih =>
          intro act hcs c hcm
          simp only [neonEvalClauses, List.mem_cons] at hcm
          rcases hcm with h | h
          · subst h
            have := hcs c0 (List.mem_cons_self ..)
            unfold TwinStates at *
            rw [(neonEvalClause_spec b.cfg lits act c0 hn).2.2.1]
            exact this
          · exact ih _ (fun c' hc' => hcs c' (List.mem_cons_of_mem _ hc')) c h
      exact this _ _ hc
    | trainUpdate lits fb =>
      simp only [neonRun, NBlock.apply, Option.bind_some] at hrun
      have := neonTrain_twin b.cfg lits fb i hi hb' hl b.clauses b.fast b.vrng hh (by rw [← hnl]; exact hc)
      rw [← hnl] at this
      exact ih _ hrun ht' this.1 this.2 hnl

/-- Seed bytes for which the first AVX2 draw has 32 different bytes. -/
def goodSeed (j : Nat) : Byte := BitVec.ofNat 8 (5 + (6 * j * j + 7 * j + 3) % 247)

/-- **C68**, AVX2: for some seed within the range, any two of the 32 literals of a chunk get different random numbers in
the same draw. -/
theorem C68_avx2_bytes_differ_partial : ∃ b : Nat → Byte, (∀ j, SeedByte (b j)) ∧
    ∀ l l', l < 32 → l' < 32 → l ≠ l' →
      (XorShift4.seeded b).stream.draw 0 l ≠ (XorShift4.seeded b).stream.draw 0 l' := by
  refine ⟨goodSeed, ?_, ?_⟩
  · intro j
    unfold SeedByte goodSeed
    have h := Nat.mod_lt (6 * j * j + 7 * j + 3) (show 0 < 247 by decide)
    rw [BitVec.toNat_ofNat, Nat.mod_eq_of_lt (by omega)]
    omega
  · have h : ((List.range 32).map fun l => (XorShift4.seeded goodSeed).stream.draw 0 l) =
        [215#8, 141#8, 18#8, 48#8, 194#8, 73#8, 51#8, 152#8, 88#8, 171#8, 69#8, 35#8, 156#8, 143#8, 179#8, 178#8,
         209#8, 107#8, 59#8, 23#8, 112#8, 155#8, 218#8, 102#8, 64#8, 39#8, 115#8, 118#8, 6#8, 101#8, 238#8, 166#8] := by
      decide +kernel
    intro l l' hl hl' hne heq
    have e : ∀ l, l < 32 → ((List.range 32).map fun l => (XorShift4.seeded goodSeed).stream.draw 0 l)[l]? =
        some ((XorShift4.seeded goodSeed).stream.draw 0 l) := by
      intro l hl
      simp [hl]
    have e1 := e l hl
    have e2 := e l' hl'
    rw [← heq] at e2
    rw [h] at e1 e2
    have hd : ∀ a, a < 32 → ∀ b, b < 32 → a ≠ b →
        [215#8, 141#8, 18#8, 48#8, 194#8, 73#8, 51#8, 152#8, 88#8, 171#8, 69#8, 35#8, 156#8, 143#8, 179#8, 178#8,
         209#8, 107#8, 59#8, 23#8, 112#8, 155#8, 218#8, 102#8, 64#8, 39#8, 115#8, 118#8, 6#8, 101#8, 238#8, 166#8][a]? ≠
        [215#8, 141#8, 18#8, 48#8, 194#8, 73#8, 51#8, 152#8, 88#8, 171#8, 69#8, 35#8, 156#8, 143#8, 179#8, 178#8,
         209#8, 107#8, 59#8, 23#8, 112#8, 155#8, 218#8, 102#8, 64#8, 39#8, 115#8, 118#8, 6#8, 101#8, 238#8, 166#8][b]? := by
      decide +kernel
    exact hd l hl l' hl' hne (e1.trans e2.symm)

example : ∃ (b b' : NBlock) (ops : List VOp), b.vrng.draw = (Xoshiro2.seeded 7#64).stream.draw ∧
    neonRun b ops = some b' ∧ ops.length = 2 ∧ b.clauses.length = 1 ∧ (0 + 8 < b.cfg.nLits) ∧ TwinFeatures ops 0 8 := by
  refine ⟨⟨2, ⟨9, some 4, false, 10#8⟩, [⟨fun _ => 0#8, [1, -1], 0, 0⟩], [0, 0], ⟨fun _ => 0, 0⟩,
      (Xoshiro2.seeded 7#64).stream⟩, _, [.trainExample fun _ => 1#8, .trainUpdate (fun _ => 1#8) ⟨0, 1, 1, 1⟩], rfl, rfl, rfl,
      rfl, by decide, ?_⟩
  intro op hop
  simp only [List.mem_cons, List.not_mem_nil, or_false] at hop
  rcases hop with h | h <;> subst h <;> rfl

end GT

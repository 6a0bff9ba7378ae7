import Verif.Spec.Random
import Verif.Lemmas.RandomLinear
import Verif.Lemmas.Neon
import Mathlib.Algebra.Order.Field.Rat
import Mathlib.Tactic.Positivity
import Mathlib.Tactic.NormNum

/-!
# The random generators
-/

namespace GT
open Spec Neon

/-! ### Wyhash -/

theorem Wyhash.advance_x (g : Wyhash) : g.advance.x = g.x + 0x60bee2bee120fc15#64 := by unfold Wyhash.advance; rfl

theorem Wyhash.after_x (g : Wyhash) (n : Nat) : (g.after n).x = g.x + BitVec.ofNat 64 n * 0x60bee2bee120fc15#64 := by
  induction n generalizing g with
  | zero => simp [Wyhash.after]
  | succ n ih =>
    rw [Wyhash.after, ih, Wyhash.advance_x]
    generalize 0x60bee2bee120fc15#64 = c
    have e : BitVec.ofNat 64 (n + 1) = BitVec.ofNat 64 n + 1#64 := BitVec.ofNat_add n 1
    rw [e, BitVec.add_mul, BitVec.one_mul, BitVec.add_assoc, BitVec.add_comm c]

theorem Wyhash.after_add (g : Wyhash) (m n : Nat) : g.after (m + n) = (g.after m).after n := by
  induction m generalizing g with
  | zero => rw [Nat.zero_add]; rfl
  | succ m ih => rw [Nat.succ_add]; exact ih _

theorem wy_reaches (g : Wyhash) (t : BitVec 64) : ∃ n, n < 2 ^ 64 ∧ (g.after n).x = t := by
  refine ⟨((t - g.x) * 0x4718c01ea76cf33d#64).toNat, BitVec.isLt _, ?_⟩
  rw [Wyhash.after_x, BitVec.ofNat_toNat, BitVec.setWidth_eq, BitVec.mul_assoc]
  have e : 0x4718c01ea76cf33d#64 * 0x60bee2bee120fc15#64 = 1#64 := by decide
  rw [e, BitVec.mul_one, BitVec.add_comm, BitVec.sub_add_cancel]

theorem wy_injective (g : Wyhash) (m n : Nat) (hm : m < 2 ^ 64) (hn : n < 2 ^ 64)
    (h : (g.after m).x = (g.after n).x) : m = n := by
  rw [Wyhash.after_x, Wyhash.after_x] at h
  have h2 := congrArg (fun v => (v - g.x) * 0x4718c01ea76cf33d#64) h
  simp only [BitVec.add_comm g.x, BitVec.add_sub_cancel] at h2
  rw [BitVec.mul_assoc, BitVec.mul_assoc] at h2
  have e : 0x60bee2bee120fc15#64 * 0x4718c01ea76cf33d#64 = 1#64 := by decide
  rw [e, BitVec.mul_one, BitVec.mul_one] at h2
  have h3 := congrArg BitVec.toNat h2
  rwa [BitVec.toNat_ofNat, BitVec.toNat_ofNat, Nat.mod_eq_of_lt hm, Nat.mod_eq_of_lt hn] at h3

theorem toDouble_small (m : Nat) (h : m < 2 ^ 63) : toDouble m ≤ 2 ^ 63 := by
  unfold toDouble
  split
  · omega
  · rename_i hb
    have h0 : m ≠ 0 := by omega
    have h1 : m.log2 < 63 := (Nat.log2_lt h0).mpr h
    have h2 : 53 ≤ m.log2 := (Nat.le_log2 h0).mpr (by omega)
    have h3 : m < 2 ^ (m.log2 + 1) := Nat.lt_log2_self
    have h4 : m / 2 ^ (m.log2 - 52) < 2 ^ 53 := by
      apply Nat.div_lt_of_lt_mul
      rw [← Nat.pow_add]
      have : m.log2 - 52 + 53 = m.log2 + 1 := by omega
      rw [this]; exact h3
    have h5 : (m / 2 ^ (m.log2 - 52) + 1) * 2 ^ (m.log2 - 52) ≤ 2 ^ 63 := by
      refine Nat.le_trans (Nat.mul_le_mul_right _ (Nat.succ_le_of_lt h4)) ?_
      rw [← Nat.pow_add]
      exact Nat.pow_le_pow_right (by decide) (by omega)
    have h6 : m / 2 ^ (m.log2 - 52) * 2 ^ (m.log2 - 52) ≤ 2 ^ 63 :=
      Nat.le_trans (Nat.mul_le_mul_right _ (Nat.le_succ _)) h5
    dsimp only
    split <;> assumption

theorem toDouble_big (m : Nat) (h : 2 ^ 63 ≤ m) (h' : m < 2 ^ 64) :
    toDouble m = if m % 2048 > 1024 ∨ (m % 2048 = 1024 ∧ m / 2048 % 2 = 1) then (m / 2048 + 1) * 2048
      else m / 2048 * 2048 := by
  have h0 : m ≠ 0 := by omega
  have h1 : m.log2 < 64 := (Nat.log2_lt h0).mpr h'
  have h2 : 63 ≤ m.log2 := (Nat.le_log2 h0).mpr h
  have e : m.log2 = 63 := by omega
  unfold toDouble
  rw [if_neg (by omega), e] <;> rfl

theorem toDouble_le (m : Nat) (h : m < 2 ^ 64) : toDouble m ≤ 2 ^ 64 := by
  by_cases h1 : m < 2 ^ 63
  · have := toDouble_small m h1; omega
  · rw [toDouble_big m (by omega) h]
    split <;> omega

theorem toDouble_eq_top (m : Nat) (h : m < 2 ^ 64) : toDouble m = 2 ^ 64 ↔ 2 ^ 64 - 1024 ≤ m := by
  by_cases h1 : m < 2 ^ 63
  · have := toDouble_small m h1; omega
  · rw [toDouble_big m (by omega) h]
    split <;> omega

theorem nextU_range (g : Wyhash) : 0 ≤ g.nextU.1 ∧ g.nextU.1 ≤ 1 := by
  have h := toDouble_le (wyM2 g.advance.x).toNat (BitVec.isLt _)
  simp only [Wyhash.nextU]
  generalize toDouble (wyM2 g.advance.x).toNat = q at *
  constructor
  · positivity
  · rw [div_le_one (by positivity)]
    exact_mod_cast h

theorem nextU_eq_one (g : Wyhash) : g.nextU.1 = 1 ↔ 2 ^ 64 - 1024 ≤ (wyM2 g.advance.x).toNat := by
  rw [← toDouble_eq_top _ (BitVec.isLt _)]
  simp only [Wyhash.nextU]
  generalize toDouble (wyM2 g.advance.x).toNat = q at *
  rw [div_eq_one_iff_eq (by positivity)]
  constructor
  · intro h; exact_mod_cast h
  · intro h; exact_mod_cast h

theorem wy_one_state : (wyM2 0x67eb4be61ee49d39#64).toNat = 0xfffffffffffffd30 := by decide +kernel

theorem wy_one (g : Wyhash) : ∃ n, n < 2 ^ 64 ∧ (g.after n).nextU.1 = 1 := by
  obtain ⟨n, hn, h⟩ := wy_reaches g (0x67eb4be61ee49d39#64 - 0x60bee2bee120fc15#64)
  refine ⟨n, hn, ?_⟩
  rw [nextU_eq_one, Wyhash.advance_x, h, BitVec.sub_add_cancel, wy_one_state]
  omega

/-! ### XorShift128plus4G -/

theorem lane_toNat (s : BitVec 64) :
    ((((s ^^^ (s <<< 23)) ^^^ s) ^^^ ((s ^^^ (s <<< 23)) >>> 18)) ^^^ (s >>> 5)).toNat = laneStep s.toNat := by
  simp only [BitVec.toNat_xor, BitVec.toNat_shiftLeft, BitVec.toNat_ushiftRight, laneStep]

theorem XorShift4.next_part2 (g : XorShift4) (i : Fin 4) : (g.next.2.part2 i).toNat = laneStep (g.part2 i).toNat :=
  lane_toNat (g.part2 i)

theorem XorShift4.after_part2 (g : XorShift4) (n : Nat) (i : Fin 4) :
    ((g.after n).part2 i).toNat = iter laneStep n (g.part2 i).toNat := by
  induction n generalizing g with
  | zero => rfl
  | succ n ih => rw [XorShift4.after, ih, XorShift4.next_part2]; rfl

theorem XorShift4.after_add (g : XorShift4) (m n : Nat) : g.after (m + n) = (g.after m).after n := by
  induction m generalizing g with
  | zero => rw [Nat.zero_add]; rfl
  | succ m ih => rw [Nat.succ_add]; exact ih _

theorem XorShift4.next_congr {g h : XorShift4} (e : g.part2 = h.part2) : g.next = h.next := by
  simp only [XorShift4.next, e]

theorem XorShift4.after_congr {g h : XorShift4} (e : g.part2 = h.part2) (n : Nat) :
    (g.after n).part2 = (h.after n).part2 := by
  cases n with
  | zero => exact e
  | succ n => rw [XorShift4.after, XorShift4.after, next_congr e]

theorem XorShift4.part2_period (g : XorShift4) (k : Nat) (hk : 2 ≤ k) :
    (g.after (k + 51166430)).part2 = (g.after k).part2 := by
  funext i
  apply BitVec.eq_of_toNat_eq
  rw [after_part2, after_part2]
  have e1 : k + 51166430 = (2 + 51166430) + (k - 2) := by omega
  have e2 : k = 2 + (k - 2) := by omega
  rw [e1, iter_add, lane_period _ (BitVec.isLt _), ← iter_add, ← e2]

theorem XorShift4.zero_lane (g : XorShift4) (i : Fin 4) (h : g.part2 i = 0#64) :
    g.next.1 i = 0#64 ∧ g.next.2.part2 i = 0#64 := by
  simp [XorShift4.next, h]

theorem XorShift4.zero_lane_after (g : XorShift4) (i : Fin 4) (h : g.part2 i = 0#64) (n : Nat) :
    (g.after n).part2 i = 0#64 := by
  induction n generalizing g with
  | zero => exact h
  | succ n ih => rw [XorShift4.after]; exact ih _ (zero_lane g i h).2

/-! ### Xoshiro128Plus -/

theorem Xoshiro2.after_add (g : Xoshiro2) (m n : Nat) : g.after (m + n) = (g.after m).after n := by
  induction m generalizing g with
  | zero => rw [Nat.zero_add]; rfl
  | succ m ih => rw [Nat.succ_add]; exact ih _

/-- Both halves of the state are equal. -/
def Xoshiro2.Same (g : Xoshiro2) : Prop := g.st0 0 = g.st0 1 ∧ g.st1 0 = g.st1 1

theorem Xoshiro2.next_same {g : Xoshiro2} (h : g.Same) : g.next.1 0 = g.next.1 1 ∧ g.next.2.Same := by
  simp only [Xoshiro2.next, Xoshiro2.Same, h.1, h.2, and_self]

theorem Xoshiro2.after_same {g : Xoshiro2} (h : g.Same) (n : Nat) : (g.after n).Same := by
  induction n generalizing g with
  | zero => exact h
  | succ n ih => exact ih (next_same h).2

theorem Xoshiro2.seeded_same (s : BitVec 64) : (Xoshiro2.seeded s).Same := by
  unfold Xoshiro2.seeded
  generalize 32 = n
  exact Xoshiro2.after_same ⟨rfl, rfl⟩ n

theorem byteOf_same {v : Lanes 2} (h : v 0 = v 1) (j : Nat) (hj : j < 8) : byteOf v j = byteOf v (j + 8) := by
  have e1 : j / 8 = 0 := by omega
  have e2 : (j + 8) / 8 = 1 := by omega
  have e3 : (j + 8) % 8 = j % 8 := by omega
  unfold byteOf
  rw [dif_pos (by omega), dif_pos (by omega), e3]
  congr 2
  have a1 : (⟨j / 8, by omega⟩ : Fin 2) = 0 := Fin.ext e1
  have a2 : (⟨(j + 8) / 8, by omega⟩ : Fin 2) = 1 := Fin.ext e2
  rw [a1, a2, h]

theorem bxor_cancel : ∀ a x y : Bool, (a ^^ x) = (a ^^ y) → x = y := by decide

/-- `x ^ (x << k)` determines `x`. -/
theorem shl_xor_inj (k : Nat) (hk : 0 < k) (x y : BitVec 64) (h : (x <<< k) ^^^ x = (y <<< k) ^^^ y) : x = y := by
  apply BitVec.eq_of_getLsbD_eq
  intro i
  induction i using Nat.strongRecOn with
  | _ i ih =>
    intro hi
    have e := congrArg (fun v => v.getLsbD i) h
    simp only [BitVec.getLsbD_xor, BitVec.getLsbD_shiftLeft] at e
    by_cases hik : i < k
    · simpa [hik] using e
    · have := ih (i - k) (by omega) (by omega)
      rw [this] at e
      exact bxor_cancel _ _ _ e

/-- `x ^ (x >> k)` determines `x`. -/
theorem shr_xor_inj (k : Nat) (hk : 0 < k) (x y : BitVec 64) (h : x ^^^ (x >>> k) = y ^^^ (y >>> k)) : x = y := by
  apply BitVec.eq_of_getLsbD_eq
  intro i hi
  obtain ⟨d, hd⟩ : ∃ d, d = 64 - i := ⟨_, rfl⟩
  induction d using Nat.strongRecOn generalizing i with
  | _ d ih =>
    have e := congrArg (fun v => v.getLsbD i) h
    simp only [BitVec.getLsbD_xor, BitVec.getLsbD_ushiftRight] at e
    by_cases hik : k + i < 64
    · have := ih (64 - (k + i)) (by omega) (k + i) hik rfl
      rw [this, Bool.xor_comm, Bool.xor_comm (y.getLsbD i)] at e
      exact bxor_cancel _ _ _ e
    · rw [BitVec.getLsbD_of_ge x (k + i) (by omega), BitVec.getLsbD_of_ge y (k + i) (by omega)] at e
      simpa using e

theorem xor_cancel (a b c : BitVec 64) (h : a ^^^ c = b ^^^ c) : a = b := by
  have := congrArg (· ^^^ c) h
  simpa [BitVec.xor_assoc] using this

/-- The step of the NEON generator loses nothing. -/
theorem Xoshiro2.next_injective {g h : Xoshiro2} (e : g.next.2 = h.next.2) : g = h := by
  obtain ⟨a0, a1⟩ := g
  obtain ⟨b0, b1⟩ := h
  simp only [Xoshiro2.next, Xoshiro2.mk.injEq] at e
  obtain ⟨h1, h2⟩ := e
  subst h1
  congr 1
  funext i
  have e := congrFun h2 i
  apply shl_xor_inj 23 (by decide)
  apply shr_xor_inj 18 (by decide)
  apply xor_cancel _ _ (a1 i ^^^ (a1 i >>> 5))
  have r : ∀ s a b c : BitVec 64, (s ^^^ b) ^^^ (a ^^^ c) = (s ^^^ a) ^^^ (b ^^^ c) := by
    intro s a b c
    rw [BitVec.xor_assoc, BitVec.xor_assoc]
    congr 1
    rw [← BitVec.xor_assoc, BitVec.xor_comm b a, BitVec.xor_assoc]
  exact (r _ _ _ _).symm.trans (e.trans (r _ _ _ _))

theorem Xoshiro2.not_zero {g : Xoshiro2} (i : Fin 2) (h : ¬ (g.st0 i = 0#64 ∧ g.st1 i = 0#64)) :
    ¬ (g.next.2.st0 i = 0#64 ∧ g.next.2.st1 i = 0#64) := by
  rintro ⟨h0, h1⟩
  apply h
  have h0' : g.st1 i = 0#64 := h0
  refine ⟨?_, h0'⟩
  simp only [Xoshiro2.next, h0'] at h1
  apply shl_xor_inj 23 (by decide)
  apply shr_xor_inj 18 (by decide)
  simpa using h1

theorem Xoshiro2.after_not_zero {g : Xoshiro2} (i : Fin 2) (h : ¬ (g.st0 i = 0#64 ∧ g.st1 i = 0#64)) (n : Nat) :
    ¬ ((g.after n).st0 i = 0#64 ∧ (g.after n).st1 i = 0#64) := by
  induction n generalizing g with
  | zero => exact h
  | succ n ih => rw [Xoshiro2.after]; exact ih (not_zero i h)

/-! ### Twin literals on NEON -/

/-- The two halves of every draw are equal. -/
def HalvesEqual (g : VRng) : Prop := ∀ k j, j < 8 → g.draw k j = g.draw k (j + 8)

theorem stream_halves {g : Xoshiro2} (h : g.Same) : HalvesEqual g.stream := by
  intro k j hj
  exact byteOf_same (Xoshiro2.next_same (Xoshiro2.after_same h k)).1 j hj

theorem neonUpdate_draw (cfg : VCfg) (lits : Mem) (j : Nat) (t : Int) (c : VClause) (g : VRng) :
    (neonClauseUpdate cfg lits j t c g).2.draw = g.draw := by
  unfold neonClauseUpdate
  dsimp only
  rw [neonT1a_eq, neonT1b_eq, neonT2_eq]
  generalize (if c.w.getD j 0 ≥ 0 then (1 : Int) else -1) = sign
  split
  · split <;> rfl
  · split <;> rfl

theorem twin_update (cfg : VCfg) (lits : Mem) (j : Nat) (t : Int) (c : VClause) (g : VRng) (i : Nat)
    (hi : i % 16 < 8) (hb : i + 8 < cfg.nLits) (hg : HalvesEqual g) (hl : lits i = lits (i + 8))
    (hc : TwinStates (neonMem cfg.nLits) c i (i + 8)) :
    TwinStates (neonMem cfg.nLits) (neonClauseUpdate cfg lits j t c g).1 i (i + 8) := by
  have hm : cfg.nLits ≤ neonMem cfg.nLits := (neonMem_facts (show 0 < cfg.nLits by omega)).2.1
  generalize hM : neonMem cfg.nLits = M at *
  obtain ⟨h1, h2⟩ := hc
  have a1 : i < M := by omega
  have a2 : i + 8 < M := by omega
  have a3 : ¬ M + i < M := by omega
  have a4 : ¬ M + (i + 8) < M := by omega
  have a5 : M + i < 2 * M := by omega
  have a6 : M + (i + 8) < 2 * M := by omega
  have a7 : (i + 8) / 16 = i / 16 := by omega
  have a8 : (i + 8) % 16 = i % 16 + 8 := by omega
  have a9 : M + i - M = i := by omega
  have a10 : M + (i + 8) - M = i + 8 := by omega
  have d := fun k => hg k (i % 16) hi
  unfold neonClauseUpdate
  dsimp only
  rw [neonT1a_eq, neonT1b_eq, neonT2_eq, hM]
  generalize (if c.w.getD j 0 ≥ 0 then (1 : Int) else -1) = sign
  split
  · split
    · simp only [TwinStates, a1, a2, a3, a4, a5, a6, a7, a8, a9, a10, if_true, if_false, h1, h2, hl, d, and_self]
    · simp only [TwinStates, a1, a2, a3, a4, a5, a6, a7, a8, a9, a10, if_true, if_false, h1, h2, d, and_self]
  · split
    · simp only [TwinStates, a1, a2, a3, a4, a5, a6, a9, a10, if_true, if_false, h1, h2, hl, and_self]
    · exact ⟨h1, h2⟩

end GT

import Verif.Lemmas.NeonPeriod

/-! # The period of the NEON generator (C67) -/

namespace GT
open XS

theorem lane_next (g : Xoshiro2) (i : Fin 2) :
    (g.next.2.st0 i, g.next.2.st1 i) = step (g.st0 i, g.st1 i) ∧ g.next.1 i = out (g.st0 i, g.st1 i) := ⟨rfl, rfl⟩

theorem lane_after (g : Xoshiro2) (i : Fin 2) (k : Nat) :
    ((g.after k).st0 i, (g.after k).st1 i) = step^[k] (g.st0 i, g.st1 i) := by
  induction k generalizing g with
  | zero => rfl
  | succ k ih => rw [Xoshiro2.after, ih, (lane_next g i).1, Function.iterate_succ_apply]

theorem lane_not_zero (seed64 : BitVec 64) (i : Fin 2) :
    ((Xoshiro2.seeded seed64).st0 i, (Xoshiro2.seeded seed64).st1 i) ≠ vz := by
  unfold Xoshiro2.seeded
  rw [lane_after]
  refine iter_ne_zero _ ?_ 32
  intro h
  have h2 : 0x73A2C175221D6A27#64 = 0#64 := congrArg Prod.snd h
  exact absurd h2 (by decide)

/-- **C67**, NEON: from every seed, the stream of draws repeats after exactly 2^128 - 1 calls and never earlier; already
its first byte does not repeat earlier.
Missing: the AVX2 generator, for which it is false. -/
theorem C67_neon_period_partial (seed64 : BitVec 64) (d : Nat) :
    ((∀ k l, (Xoshiro2.seeded seed64).stream.draw (k + d) l = (Xoshiro2.seeded seed64).stream.draw k l) ↔
      2 ^ 128 - 1 ∣ d) ∧
    ((∀ k, (Xoshiro2.seeded seed64).stream.draw (k + d) 0 = (Xoshiro2.seeded seed64).stream.draw k 0) ↔
      2 ^ 128 - 1 ∣ d) := by
  have hN : (2 ^ 128 - 1 ∣ d) = (N ∣ d) := rfl
  rw [hN]
  generalize hg : Xoshiro2.seeded seed64 = g
  have hz : ∀ i, (g.st0 i, g.st1 i) ≠ vz := by
    intro i
    rw [← hg]
    exact lane_not_zero seed64 i
  have hout : ∀ k i, (g.after k).next.1 i = out (step^[k] (g.st0 i, g.st1 i)) := by
    intro k i
    rw [(lane_next _ i).2, lane_after]
  have up : N ∣ d → ∀ k l, g.stream.draw (k + d) l = g.stream.draw k l := by
    intro h k l
    have e : (g.after (k + d)).next.1 = (g.after k).next.1 := by
      funext i
      rw [hout, hout, Function.iterate_add_apply, (period_iff _ (hz i) d).mpr h]
    exact congrArg (fun v => byteOf v l) e
  have down : (∀ k, g.stream.draw (k + d) 0 = g.stream.draw k 0) → N ∣ d := by
    intro h
    refine low_period _ (hz 0) d fun k => ?_
    have h' : byteOf (g.after (k + d)).next.1 0 = byteOf (g.after k).next.1 0 := h k
    have hb : ∀ v : Lanes 2, (byteOf v 0).getLsbD 0 = (v 0).getLsbD 0 := by
      intro v
      unfold byteOf
      rw [dif_pos (by decide)]
      simp
    have := congrArg (fun b : Byte => b.getLsbD 0) h'
    simp only [hb, hout] at this
    exact this
  exact ⟨⟨fun h => down fun k => h k 0, up⟩, ⟨down, fun h k => up h k 0⟩⟩

/-- **C67**, NEON: every bit of the seed matters: two seeds with the same first bytes in all draws are equal.
Missing: the AVX2 generator, for which it is false. -/
theorem C67_neon_whole_seed_partial (s s' : BitVec 64)
    (h : ∀ k, (Xoshiro2.seeded s).stream.draw k 0 = (Xoshiro2.seeded s').stream.draw k 0) : s = s' := by
  have hb : ∀ v : Lanes 2, (byteOf v 0).getLsbD 0 = (v 0).getLsbD 0 := by
    intro v
    unfold byteOf
    rw [dif_pos (by decide)]
    simp
  have hd : ∀ s k, ((Xoshiro2.seeded s).stream.draw k 0).getLsbD 0 =
      low (step^[k] ((Xoshiro2.seeded s).st0 0, (Xoshiro2.seeded s).st1 0)) := by
    intro s k
    rw [← lane_after]
    exact hb _
  have h2 := low_determines _ _ fun k => ((hd s k).symm.trans (congrArg (fun b : Byte => b.getLsbD 0) (h k))).trans (hd s' k)
  unfold Xoshiro2.seeded at h2
  rw [lane_after, lane_after] at h2
  have h3 : step^[N - 32] (step^[32] (s, 0x73A2C175221D6A27#64)) =
      step^[N - 32] (step^[32] (s', 0x73A2C175221D6A27#64)) := congrArg _ h2
  rw [← Function.iterate_add_apply, ← Function.iterate_add_apply, show N - 32 + 32 = N from by decide +kernel, period_N,
    period_N] at h3
  exact congrArg Prod.fst h3

/-- **C67**, NEON: from every seed, every pair of words except two zeros comes up as the state of both lanes. -/
theorem C67_neon_reaches (seed64 a b : BitVec 64) (h : ¬ (a = 0#64 ∧ b = 0#64)) :
    ∃ k, k < 2 ^ 128 - 1 ∧ ∀ i, ((Xoshiro2.seeded seed64).after k).st0 i = a ∧ ((Xoshiro2.seeded seed64).after k).st1 i = b := by
  obtain ⟨k, hk, e⟩ := reaches _ (a, b) (lane_not_zero seed64 0) (fun e => h (Prod.mk.injEq .. ▸ e))
  rw [← lane_after] at e
  have e0 : ((Xoshiro2.seeded seed64).after k).st0 0 = a := congrArg Prod.fst e
  have e1 : ((Xoshiro2.seeded seed64).after k).st1 0 = b := congrArg Prod.snd e
  have hs := Xoshiro2.after_same (Xoshiro2.seeded_same seed64) k
  refine ⟨k, hk, fun i => ?_⟩
  match i with
  | 0 => exact ⟨e0, e1⟩
  | 1 => exact ⟨hs.1 ▸ e0, hs.2 ▸ e1⟩

/-- The period of the AVX2 generator is none of the NEON one. -/
example (seed64 : BitVec 64) : ¬ ∀ k, (Xoshiro2.seeded seed64).stream.draw (k + 51166430) 0 =
    (Xoshiro2.seeded seed64).stream.draw k 0 := by
  rw [(C67_neon_period_partial seed64 51166430).2]
  decide +kernel

end GT

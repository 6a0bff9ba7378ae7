import Verif.Lemmas.Start
import Verif.Model.Multi
import Verif.Lemmas.Neon
import Verif.Props.Dense
import Mathlib.Algebra.Order.Ring.Rat

/-! # What a fresh block starts with (C90) -/

namespace GT
open Spec Start

/-- C90, portable backend: state `i` of clause `k` is made from draw `2km + i` of the block's standard generator (the
positive literals) or draw `2km + m + i` (the negated ones), weight `j` of clause `k` from draw `kn + j` of its fast
generator, and training goes on with the draws after these. -/
theorem C90_portable (m nClauses n : Nat) (cfg : Cfg) (fastOf rngOf : Nat → Rng) (junk : Nat → Nat) (seed : Nat)
    (b : DBlock) (hb : initTM m nClauses n cfg fastOf rngOf junk seed = some b) :
    b.clauses.length = nClauses ∧
    (∀ k, k < nClauses → ∃ c, b.clauses[k]? = some c ∧ c.pos.length = m ∧ c.neg.length = m ∧ c.w.length = n ∧
      (∀ i, i < m →
        c.pos[i]? = some (coinState ((rngOf seed).draw ((rngOf seed).pos + (k * (2 * m) + i)))) ∧
        c.neg[i]? = some (coinState ((rngOf seed).draw ((rngOf seed).pos + (k * (2 * m) + m + i))))) ∧
      ∀ j, j < n → c.w[j]? = some (coinWeightHigh ((fastOf seed).draw ((fastOf seed).pos + (k * n + j))))) ∧
    b.rng = { rngOf seed with pos := (rngOf seed).pos + nClauses * (2 * m) } ∧
    b.fast = { fastOf seed with pos := (fastOf seed).pos + nClauses * n } := by
  unfold initTM at hb
  split at hb
  · cases hb
  · simp only [Option.some.injEq] at hb
    subst hb
    obtain ⟨a1, a2, a3⟩ := rows_spec m nClauses (rngOf seed)
    obtain ⟨b1, b2, b3⟩ := allWeights_spec n nClauses (fastOf seed)
    refine ⟨by simp [a2, b2], ?_, a1, b1⟩
    intro k hk
    obtain ⟨r, r1, r2, r3, r4⟩ := a3 k hk
    obtain ⟨w, w1, w2, w3⟩ := b3 k hk
    refine ⟨⟨r.1, r.2, w, 0, junk k⟩, ?_, r2, r3, w2, r4, w3⟩
    simp only [List.getElem?_mapIdx]
    rw [show ((initRows m nClauses (rngOf seed)).1.zip (initAllWeights n nClauses (fastOf seed)).1)[k]? = some (r, w) from by
      rw [List.getElem?_zip_eq_some]; exact ⟨r1, w1⟩]
    rfl

/-- C90, portable convolutional backend: the same start as the plain block. -/
theorem C90_portable_conv (m nClauses n : Nat) (np : Int) (cfg : Cfg) (fastOf rngOf : Nat → Rng)
    (junk junkPatch junkCounts : Nat → Nat) (seed : Nat) (b : ConvBlock)
    (hb : initConv m nClauses n np cfg fastOf rngOf junk junkPatch junkCounts seed = some b) :
    ∃ d, initTM m nClauses n cfg fastOf rngOf junk seed = some d ∧
      b.clauses.map (fun c => (c.base.pos, c.base.neg, c.base.w)) = d.clauses.map (fun c => (c.pos, c.neg, c.w)) ∧
      b.rng = d.rng ∧ b.fast = d.fast := by
  unfold initConv at hb
  split at hb
  · cases hb
  · rename_i d hd
    split at hb
    · simp only [Option.some.injEq] at hb
      subst hb
      refine ⟨d, hd, ?_, rfl, rfl⟩
      apply List.ext_getElem (by simp)
      intro i h1 h2
      simp
    · cases hb

/-- C90, AVX2 backend: states and weights are made from the draws of one generator, first the states of clause after
clause, positive and negated literal in turn, then the weights; padding lanes hold -109 and -111. -/
theorem C90_avx2 (nClauses n : Nat) (cfg : VCfg) (fastOf : Nat → Rng) (vrngOf : Nat → VRng) (junk : Nat → Mem)
    (junkCnt : Nat → Nat) (seed : Nat) (b : VBlock)
    (hb : avxInit nClauses n cfg fastOf vrngOf junk junkCnt seed = some b) :
    b.clauses.length = nClauses ∧
    (∀ k, k < nClauses → ∃ c, b.clauses[k]? = some c ∧ c.w.length = n ∧
      (∀ i, i < cfg.nLits →
        (c.row i).toInt = coinStateHigh ((fastOf seed).draw ((fastOf seed).pos + (k * (2 * cfg.nLits) + 2 * i))) ∧
        (c.row (i + avxMem cfg.nLits)).toInt =
          coinStateHigh ((fastOf seed).draw ((fastOf seed).pos + (k * (2 * cfg.nLits) + 2 * i + 1)))) ∧
      (∀ i, cfg.nLits ≤ i → i < avxMem cfg.nLits →
        (c.row i).toInt = -109 ∧ (c.row (i + avxMem cfg.nLits)).toInt = -111) ∧
      ∀ j, j < n → c.w[j]? = some (coinWeightHigh ((fastOf seed).draw
        ((fastOf seed).pos + nClauses * (2 * cfg.nLits) + (k * n + j))))) ∧
    b.fast = { fastOf seed with pos := (fastOf seed).pos + nClauses * (2 * cfg.nLits) + nClauses * n } ∧
    b.vrng = vrngOf seed := by
  unfold avxInit at hb
  split at hb
  · cases hb
  · simp only [Option.some.injEq] at hb
    subst hb
    obtain ⟨a1, a2, a3⟩ := avxRows_spec cfg.nLits junk (avxMem_div cfg.nLits).2 nClauses (fastOf seed)
    obtain ⟨b1, b2, b3⟩ := allWeights_spec n nClauses (avxInitRows cfg.nLits junk nClauses (fastOf seed)).2
    refine ⟨by simp [a2, b2], ?_, ?_, rfl⟩
    · intro k hk
      obtain ⟨r, r1, r2, r3⟩ := a3 k hk
      obtain ⟨w, w1, w2, w3⟩ := b3 k hk
      refine ⟨⟨r, w, 0, junkCnt k⟩, ?_, w2, r2, r3, ?_⟩
      · simp only [List.getElem?_mapIdx]
        rw [show ((avxInitRows cfg.nLits junk nClauses (fastOf seed)).1.zip (initAllWeights n nClauses
          (avxInitRows cfg.nLits junk nClauses (fastOf seed)).2).1)[k]? = some (r, w) from by
          rw [List.getElem?_zip_eq_some]; exact ⟨r1, w1⟩]
        rfl
      · intro j hj
        rw [w3 j hj, a1]
    · show (initAllWeights n nClauses (avxInitRows cfg.nLits junk nClauses (fastOf seed)).2).2 = _
      rw [b1, a1]

/-- C90, NEON backend: as AVX2, but all from the standard generator; the generators used in training are untouched. -/
theorem C90_neon (nClauses n : Nat) (cfg : VCfg) (fastOf rngOf : Nat → Rng) (vrngOf : Nat → VRng) (junk : Nat → Mem)
    (junkCnt : Nat → Nat) (seed : Nat) (b : NBlock)
    (hb : neonInit nClauses n cfg fastOf rngOf vrngOf junk junkCnt seed = some b) :
    b.clauses.length = nClauses ∧
    (∀ k, k < nClauses → ∃ c, b.clauses[k]? = some c ∧ c.w.length = n ∧
      (∀ i, i < cfg.nLits →
        (c.row i).toInt = coinState ((rngOf seed).draw ((rngOf seed).pos + (k * (2 * cfg.nLits) + 2 * i))) ∧
        (c.row (i + neonMem cfg.nLits)).toInt =
          coinState ((rngOf seed).draw ((rngOf seed).pos + (k * (2 * cfg.nLits) + 2 * i + 1)))) ∧
      (∀ i, cfg.nLits ≤ i → i < neonMem cfg.nLits →
        (c.row i).toInt = -109 ∧ (c.row (i + neonMem cfg.nLits)).toInt = -111) ∧
      ∀ j, j < n → c.w[j]? = some (coinWeight ((rngOf seed).draw
        ((rngOf seed).pos + nClauses * (2 * cfg.nLits) + (k * n + j))))) ∧
    b.fast = fastOf seed ∧ b.vrng = vrngOf seed := by
  unfold neonInit at hb
  split at hb
  · cases hb
  · simp only [Option.some.injEq] at hb
    subst hb
    obtain ⟨a1, a2, a3⟩ := neonRows_spec cfg.nLits junk (Neon.neonMem_div cfg.nLits).2 nClauses (rngOf seed)
    obtain ⟨b1, b2, b3⟩ := neonAllWeights_spec n nClauses (neonInitRows cfg.nLits junk nClauses (rngOf seed)).2
    refine ⟨by simp [a2, b2], ?_, rfl, rfl⟩
    intro k hk
    obtain ⟨r, r1, r2, r3⟩ := a3 k hk
    obtain ⟨w, w1, w2, w3⟩ := b3 k hk
    refine ⟨⟨r, w, 0, junkCnt k⟩, ?_, w2, r2, r3, ?_⟩
    · simp only [List.getElem?_mapIdx]
      rw [show ((neonInitRows cfg.nLits junk nClauses (rngOf seed)).1.zip (neonInitAllWeights n nClauses
        (neonInitRows cfg.nLits junk nClauses (rngOf seed)).2).1)[k]? = some (r, w) from by
        rw [List.getElem?_zip_eq_some]; exact ⟨r1, w1⟩]
      rfl
    · intro j hj
      rw [w3 j hj, a1]

/-- C90, sparse backend: a fresh block tracks no literals and has no active ones; weight `j` of clause `k` is made from
draw `kn + j`, and training goes on with the draws after these. -/
theorem C90_sparse (m nClauses n : Nat) (cfg : SCfg) (fastOf : Nat → Rng) (junk : Nat → Nat) (seed : Nat) (b : SBlock)
    (hb : initSparse m nClauses n cfg fastOf junk seed = some b) :
    b.clauses.length = nClauses ∧
    (∀ k, k < nClauses → ∃ c, b.clauses[k]? = some c ∧ c.pos = [] ∧ c.neg = [] ∧ c.w.length = n ∧
      ∀ j, j < n → c.w[j]? = some (coinWeightHigh ((fastOf seed).draw ((fastOf seed).pos + (k * n + j))))) ∧
    b.al = List.replicate n ([], 0) ∧
    b.fast = { fastOf seed with pos := (fastOf seed).pos + nClauses * n } := by
  unfold initSparse at hb
  split at hb
  · cases hb
  · split at hb
    · cases hb
    · simp only [Option.some.injEq] at hb
      subst hb
      obtain ⟨b1, b2, b3⟩ := allWeights_spec n nClauses (fastOf seed)
      refine ⟨by simp [b2], ?_, rfl, b1⟩
      intro k hk
      obtain ⟨w, w1, w2, w3⟩ := b3 k hk
      refine ⟨⟨[], [], w, 0, junk k⟩, ?_, rfl, rfl, w2, w3⟩
      simp only [List.getElem?_mapIdx, w1]
      rfl

/-- C90, feedback blocks: before anything is trained both kinds hold no votes, report a training accuracy of 0, and
the first prediction is class 0. -/
theorem C90_feedback (n : Nat) (T : Rat) (g : Rng) :
    (let fb := FB.new n T g
     fb.votes = List.replicate n 0 ∧ fb.accuracy = 0 ∧ fb.correct = 0 ∧ fb.total = 0 ∧ fb.predict = 0 ∧ fb.rng = g ∧
       fb.nClasses = n ∧ fb.threshold = T) ∧
    (let fb := FB.newMulti n T g
     fb.votes = List.replicate (n * 2) 0 ∧ fb.accuracy = 0 ∧ fb.correct = 0 ∧ fb.total = 0 ∧ fb.rng = g ∧ fb.nClasses = n ∧
       fb.threshold = T) := by
  have key : ∀ k a, argmaxLoop (List.replicate k 0) a 0 0 = 0 := by
    intro k
    induction k with
    | zero => intro a; rfl
    | succ k ih => intro a; simp [List.replicate_succ, argmaxLoop, ih]
  refine ⟨⟨rfl, by simp [FB.new, FB.accuracy], rfl, rfl, ?_, rfl, rfl, rfl⟩, ⟨rfl, by simp [FB.newMulti, FB.new, FB.accuracy],
    rfl, rfl, rfl, rfl, rfl⟩⟩
  cases n with
  | zero => rfl
  | succ n => exact key n 1

/-! ### Every start is possible: no two values share a draw -/

/-- A draw above or below one half. -/
def wishDraw (b : Bool) : Rat := if b then 3 / 4 else 1 / 4

/-- C90, portable backend: whatever states (included or not) and signs of weights are wanted, some draws from [0, 1)
make them. -/
theorem C90_any_start (m nClauses n : Nat) (hm : 0 < m) (hn : 0 < n) (P N W : Nat → Nat → Bool) :
    ∃ d f : Nat → Rat, (∀ t, 0 ≤ d t ∧ d t < 1 ∧ 0 ≤ f t ∧ f t < 1) ∧
      ∀ (cfg : Cfg) (junk : Nat → Nat) (seed : Nat) (b : DBlock),
        initTM m nClauses n cfg (fun _ => ⟨f, 0⟩) (fun _ => ⟨d, 0⟩) junk seed = some b →
        ∀ k, k < nClauses → ∃ c, b.clauses[k]? = some c ∧
          (∀ i, i < m → c.pos[i]? = some (if P k i then 0 else -1) ∧ c.neg[i]? = some (if N k i then 0 else -1)) ∧
          ∀ j, j < n → c.w[j]? = some (if W k j then 1 else -1) := by
  have hr : ∀ x, 0 ≤ wishDraw x ∧ wishDraw x < 1 := by
    intro x; cases x <;> decide +kernel
  have hs : ∀ x, coinState (wishDraw x) = if x then 0 else -1 := by intro x; cases x <;> decide +kernel
  have hw : ∀ x, coinWeightHigh (wishDraw x) = if x then 1 else -1 := by intro x; cases x <;> decide +kernel
  refine ⟨fun t => wishDraw (if t % (2 * m) < m then P (t / (2 * m)) (t % (2 * m)) else N (t / (2 * m)) (t % (2 * m) - m)),
    fun t => wishDraw (W (t / n) (t % n)), fun t => ⟨(hr _).1, (hr _).2, (hr _).1, (hr _).2⟩, ?_⟩
  intro cfg junk seed b hb k hk
  obtain ⟨-, h2, -⟩ := C90_portable m nClauses n cfg _ _ junk seed b hb
  obtain ⟨c, c1, -, -, -, c2, c3⟩ := h2 k hk
  refine ⟨c, c1, ?_, ?_⟩
  · intro i hi
    obtain ⟨e1, e2⟩ := c2 i hi
    have q1 : (k * (2 * m) + i) / (2 * m) = k := by
      rw [Nat.mul_comm, Nat.mul_add_div (by omega), Nat.div_eq_of_lt (by omega), Nat.add_zero]
    have q2 : (k * (2 * m) + i) % (2 * m) = i := by
      rw [Nat.mul_comm, Nat.mul_add_mod, Nat.mod_eq_of_lt (by omega)]
    have q3 : (k * (2 * m) + m + i) / (2 * m) = k := by
      rw [Nat.add_assoc, Nat.mul_comm, Nat.mul_add_div (by omega), Nat.div_eq_of_lt (by omega), Nat.add_zero]
    have q4 : (k * (2 * m) + m + i) % (2 * m) = m + i := by
      rw [Nat.add_assoc, Nat.mul_comm, Nat.mul_add_mod, Nat.mod_eq_of_lt (by omega)]
    rw [e1, e2]
    simp only [Nat.zero_add, q1, q2, q3, q4, hi, if_true, show ¬ m + i < m by omega, if_false,
      show m + i - m = i by omega, hs]
    exact ⟨trivial, trivial⟩
  · intro j hj
    rw [c3 j hj]
    have q1 : (k * n + j) / n = k := by
      rw [Nat.mul_comm, Nat.mul_add_div hn, Nat.div_eq_of_lt hj, Nat.add_zero]
    have q2 : (k * n + j) % n = j := by rw [Nat.mul_comm, Nat.mul_add_mod, Nat.mod_eq_of_lt hj]
    simp only [Nat.zero_add, q1, q2, hw]

/-- The draw of a single generator that gives first all states, pairs of literals in turn, and then all weights. -/
def wishOne (m nClauses n : Nat) (P N W : Nat → Nat → Bool) (t : Nat) : Bool :=
  if t < nClauses * (2 * m) then
    if t % (2 * m) % 2 = 0 then P (t / (2 * m)) (t % (2 * m) / 2) else N (t / (2 * m)) (t % (2 * m) / 2)
  else W ((t - nClauses * (2 * m)) / n) ((t - nClauses * (2 * m)) % n)

theorem wishOne_at (m nClauses n : Nat) (P N W : Nat → Nat → Bool) (k : Nat) (hk : k < nClauses) :
    (∀ i, i < m → wishOne m nClauses n P N W (k * (2 * m) + 2 * i) = P k i ∧
      wishOne m nClauses n P N W (k * (2 * m) + 2 * i + 1) = N k i) ∧
    ∀ j, j < n → wishOne m nClauses n P N W (nClauses * (2 * m) + (k * n + j)) = W k j := by
  have hle : (k + 1) * (2 * m) ≤ nClauses * (2 * m) := Nat.mul_le_mul_right _ hk
  rw [show (k + 1) * (2 * m) = k * (2 * m) + 2 * m from Nat.succ_mul _ _] at hle
  constructor
  · intro i hi
    have q1 : (k * (2 * m) + 2 * i) / (2 * m) = k := by
      rw [Nat.mul_comm k, Nat.mul_add_div (by omega), Nat.div_eq_of_lt (by omega), Nat.add_zero]
    have q2 : (k * (2 * m) + 2 * i) % (2 * m) = 2 * i := by
      rw [Nat.mul_comm k, Nat.mul_add_mod, Nat.mod_eq_of_lt (by omega)]
    have q3 : (k * (2 * m) + 2 * i + 1) / (2 * m) = k := by
      rw [Nat.add_assoc, Nat.mul_comm k, Nat.mul_add_div (by omega), Nat.div_eq_of_lt (by omega), Nat.add_zero]
    have q4 : (k * (2 * m) + 2 * i + 1) % (2 * m) = 2 * i + 1 := by
      rw [Nat.add_assoc, Nat.mul_comm k, Nat.mul_add_mod, Nat.mod_eq_of_lt (by omega)]
    unfold wishOne
    rw [if_pos (show k * (2 * m) + 2 * i < nClauses * (2 * m) by omega),
      if_pos (show k * (2 * m) + 2 * i + 1 < nClauses * (2 * m) by omega), q1, q2, q3, q4,
      if_pos (show 2 * i % 2 = 0 by omega), if_neg (show ¬ (2 * i + 1) % 2 = 0 by omega),
      show 2 * i / 2 = i by omega, show (2 * i + 1) / 2 = i by omega]
    exact ⟨rfl, rfl⟩
  · intro j hj
    unfold wishOne
    rw [if_neg (by omega), Nat.add_sub_cancel_left, Nat.mul_comm k, Nat.mul_add_div (by omega), Nat.div_eq_of_lt hj,
      Nat.add_zero, Nat.mul_add_mod, Nat.mod_eq_of_lt hj]

/-- C90, AVX2 backend: every start is possible, though one generator makes all of it. -/
theorem C90_avx2_any_start (nClauses n : Nat) (cfg : VCfg) (P N W : Nat → Nat → Bool) :
    ∃ f : Nat → Rat, (∀ t, 0 ≤ f t ∧ f t < 1) ∧
      ∀ (vrngOf : Nat → VRng) (junk : Nat → Mem) (junkCnt : Nat → Nat) (seed : Nat) (b : VBlock),
        avxInit nClauses n cfg (fun _ => ⟨f, 0⟩) vrngOf junk junkCnt seed = some b →
        ∀ k, k < nClauses → ∃ c, b.clauses[k]? = some c ∧
          (∀ i, i < cfg.nLits → (c.row i).toInt = (if P k i then 0 else -1) ∧
            (c.row (i + avxMem cfg.nLits)).toInt = (if N k i then 0 else -1)) ∧
          ∀ j, j < n → c.w[j]? = some (if W k j then 1 else -1) := by
  have hr : ∀ x, 0 ≤ wishDraw x ∧ wishDraw x < 1 := by
    intro x; cases x <;> decide +kernel
  have hs : ∀ x, coinStateHigh (wishDraw x) = if x then 0 else -1 := by intro x; cases x <;> decide +kernel
  have hw : ∀ x, coinWeightHigh (wishDraw x) = if x then 1 else -1 := by intro x; cases x <;> decide +kernel
  refine ⟨fun t => wishDraw (wishOne cfg.nLits nClauses n P N W t), fun t => hr _, ?_⟩
  intro vrngOf junk junkCnt seed b hb k hk
  obtain ⟨-, h2, -⟩ := C90_avx2 nClauses n cfg _ vrngOf junk junkCnt seed b hb
  obtain ⟨c, c1, -, c2, -, c3⟩ := h2 k hk
  obtain ⟨g1, g2⟩ := wishOne_at cfg.nLits nClauses n P N W k hk
  refine ⟨c, c1, ?_, ?_⟩
  · intro i hi
    obtain ⟨e1, e2⟩ := c2 i hi
    simp only [Nat.zero_add, (g1 i hi).1, (g1 i hi).2, hs] at e1 e2
    exact ⟨e1, e2⟩
  · intro j hj
    have := c3 j hj
    simp only [Nat.zero_add, g2 j hj, hw] at this
    exact this

/-- C90, NEON backend: every start is possible, though one generator makes all of it. -/
theorem C90_neon_any_start (nClauses n : Nat) (cfg : VCfg) (P N W : Nat → Nat → Bool) :
    ∃ d : Nat → Rat, (∀ t, 0 ≤ d t ∧ d t < 1) ∧
      ∀ (fastOf : Nat → Rng) (vrngOf : Nat → VRng) (junk : Nat → Mem) (junkCnt : Nat → Nat) (seed : Nat) (b : NBlock),
        neonInit nClauses n cfg fastOf (fun _ => ⟨d, 0⟩) vrngOf junk junkCnt seed = some b →
        ∀ k, k < nClauses → ∃ c, b.clauses[k]? = some c ∧
          (∀ i, i < cfg.nLits → (c.row i).toInt = (if P k i then 0 else -1) ∧
            (c.row (i + neonMem cfg.nLits)).toInt = (if N k i then 0 else -1)) ∧
          ∀ j, j < n → c.w[j]? = some (if W k j then 1 else -1) := by
  have hr : ∀ x, 0 ≤ wishDraw x ∧ wishDraw x < 1 := by
    intro x; cases x <;> decide +kernel
  have hs : ∀ x, coinState (wishDraw x) = if x then 0 else -1 := by intro x; cases x <;> decide +kernel
  have hw : ∀ x, coinWeight (wishDraw (!x)) = if x then 1 else -1 := by intro x; cases x <;> decide +kernel
  refine ⟨fun t => wishDraw (wishOne cfg.nLits nClauses n P N (fun k j => !W k j) t), fun t => hr _, ?_⟩
  intro fastOf vrngOf junk junkCnt seed b hb k hk
  obtain ⟨-, h2, -⟩ := C90_neon nClauses n cfg fastOf _ vrngOf junk junkCnt seed b hb
  obtain ⟨c, c1, -, c2, -, c3⟩ := h2 k hk
  obtain ⟨g1, g2⟩ := wishOne_at cfg.nLits nClauses n P N (fun k j => !W k j) k hk
  refine ⟨c, c1, ?_, ?_⟩
  · intro i hi
    obtain ⟨e1, e2⟩ := c2 i hi
    simp only [Nat.zero_add, (g1 i hi).1, (g1 i hi).2, hs] at e1 e2
    exact ⟨e1, e2⟩
  · intro j hj
    have := c3 j hj
    simp only [Nat.zero_add, g2 j hj, hw] at this
    exact this

/-! ### Cases that meet the hypotheses -/

/-- Draws that change sides. -/
def exSides : Rng := ⟨fun t => if t % 3 = 0 then 3 / 4 else 1 / 4, 0⟩

example : ((initTM 2 2 2 exCfg (fun _ => exSides) (fun _ => exSides) (fun _ => 7) 42).map fun b =>
    b.clauses.map fun c => (c.pos, c.neg, c.w)) =
    some [([0, -1], [-1, 0], [1, -1]), ([-1, -1], [0, -1], [-1, 1])] := by decide +kernel

example : ∃ b, avxInit 2 2 ⟨2, some 3, true, 4#8⟩ (fun _ => exSides) (fun _ => ⟨fun _ _ => 0#8, 0⟩) (fun _ _ => 5#8) (fun _ => 0) 1 =
    some b ∧ b.clauses.map (fun c => ((c.row 0).toInt, (c.row 1).toInt, (c.row 32).toInt, (c.row 2).toInt, c.w)) =
    [(0, -1, -1, -109, [-1, 1]), (-1, 0, -1, -109, [-1, -1])] := ⟨_, rfl, by decide +kernel⟩

end GT

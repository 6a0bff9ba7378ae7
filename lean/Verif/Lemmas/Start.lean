import Verif.Spec.Start
import Verif.Lemmas.Dense
import Verif.Lemmas.Avx2
import Verif.Lemmas.Neon

/-! # Lemmas about the first draws of a block -/

namespace GT.Start
open GT Spec

theorem half_spec (n : Nat) (g : Rng) :
    (initHalf n g).2 = { g with pos := g.pos + n } ∧ (initHalf n g).1.length = n ∧
    ∀ i, i < n → (initHalf n g).1[i]? = some (coinState (g.draw (g.pos + i))) := by
  induction n generalizing g with
  | zero => exact ⟨rfl, rfl, fun i h => absurd h (Nat.not_lt_zero i)⟩
  | succ n ih =>
    obtain ⟨h1, h2, h3⟩ := ih g.next.2
    refine ⟨?_, by simp [initHalf, h2], ?_⟩
    · simp only [initHalf]
      rw [h1]
      simp only [Rng.next, Rng.mk.injEq, true_and]
      omega
    · intro i hi
      cases i with
      | zero => rfl
      | succ i =>
        simp only [initHalf, List.getElem?_cons_succ]
        rw [h3 i (by omega)]
        simp only [Rng.next]
        rw [show g.pos + 1 + i = g.pos + (i + 1) by omega]

theorem rows_spec (m k : Nat) (g : Rng) :
    (initRows m k g).2 = { g with pos := g.pos + k * (2 * m) } ∧ (initRows m k g).1.length = k ∧
    ∀ j, j < k → ∃ r, (initRows m k g).1[j]? = some r ∧ r.1.length = m ∧ r.2.length = m ∧
      ∀ i, i < m → r.1[i]? = some (coinState (g.draw (g.pos + (j * (2 * m) + i)))) ∧
        r.2[i]? = some (coinState (g.draw (g.pos + (j * (2 * m) + m + i)))) := by
  induction k generalizing g with
  | zero => exact ⟨by simp [initRows], rfl, fun i h => absurd h (Nat.not_lt_zero i)⟩
  | succ k ih =>
    obtain ⟨a1, a2, a3⟩ := half_spec m g
    obtain ⟨b1, b2, b3⟩ := half_spec m (initHalf m g).2
    obtain ⟨h1, h2, h3⟩ := ih (initHalf m (initHalf m g).2).2
    have e : (initHalf m (initHalf m g).2).2 = { g with pos := g.pos + 2 * m } := by
      rw [b1, a1]
      show Rng.mk g.draw (g.pos + m + m) = _
      congr 1; omega
    refine ⟨?_, by simp [initRows, h2], ?_⟩
    · simp only [initRows]
      rw [h1, e]
      simp only [Rng.mk.injEq, true_and]
      rw [show (k + 1) * (2 * m) = k * (2 * m) + 2 * m from Nat.succ_mul _ _]
      omega
    · intro j hj
      cases j with
      | zero =>
        refine ⟨_, rfl, a2, b2, ?_⟩
        intro i hi
        rw [a3 i hi, b3 i hi, a1]
        simp only [Nat.zero_mul, Nat.zero_add]
        exact ⟨trivial, by rw [Nat.add_assoc]⟩
      | succ j =>
        obtain ⟨r, r1, r2, r3, r4⟩ := h3 j (by omega)
        refine ⟨r, by simpa [initRows] using r1, r2, r3, ?_⟩
        intro i hi
        obtain ⟨s1, s2⟩ := r4 i hi
        rw [s1, s2, e]
        simp only
        rw [show (j + 1) * (2 * m) = j * (2 * m) + 2 * m from Nat.succ_mul _ _]
        constructor
        · congr 3; omega
        · congr 3; omega

theorem weights_spec (n : Nat) (g : Rng) :
    (initWeights n g).2 = { g with pos := g.pos + n } ∧ (initWeights n g).1.length = n ∧
    ∀ i, i < n → (initWeights n g).1[i]? = some (coinWeightHigh (g.draw (g.pos + i))) := by
  induction n generalizing g with
  | zero => exact ⟨rfl, rfl, fun i h => absurd h (Nat.not_lt_zero i)⟩
  | succ n ih =>
    obtain ⟨h1, h2, h3⟩ := ih g.next.2
    refine ⟨?_, by simp [initWeights, h2], ?_⟩
    · simp only [initWeights]
      rw [h1]
      simp only [Rng.next, Rng.mk.injEq, true_and]
      omega
    · intro i hi
      cases i with
      | zero => rfl
      | succ i =>
        simp only [initWeights, List.getElem?_cons_succ]
        rw [h3 i (by omega)]
        simp only [Rng.next]
        rw [show g.pos + 1 + i = g.pos + (i + 1) by omega]

theorem allWeights_spec (n k : Nat) (g : Rng) :
    (initAllWeights n k g).2 = { g with pos := g.pos + k * n } ∧ (initAllWeights n k g).1.length = k ∧
    ∀ j, j < k → ∃ w, (initAllWeights n k g).1[j]? = some w ∧ w.length = n ∧
      ∀ i, i < n → w[i]? = some (coinWeightHigh (g.draw (g.pos + (j * n + i)))) := by
  induction k generalizing g with
  | zero => exact ⟨by simp [initAllWeights], rfl, fun i h => absurd h (Nat.not_lt_zero i)⟩
  | succ k ih =>
    obtain ⟨a1, a2, a3⟩ := weights_spec n g
    obtain ⟨h1, h2, h3⟩ := ih (initWeights n g).2
    refine ⟨?_, by simp [initAllWeights, h2], ?_⟩
    · simp only [initAllWeights]
      rw [h1, a1]
      simp only [Rng.mk.injEq, true_and]
      rw [Nat.succ_mul]; omega
    · intro j hj
      cases j with
      | zero =>
        refine ⟨_, rfl, a2, ?_⟩
        intro i hi
        rw [a3 i hi]
        simp
      | succ j =>
        obtain ⟨r, r1, r2, r4⟩ := h3 j (by omega)
        refine ⟨r, by simpa [initAllWeights] using r1, r2, ?_⟩
        intro i hi
        rw [r4 i hi, a1]
        simp only
        rw [Nat.succ_mul]
        congr 3; omega

theorem neonWeights_spec (n : Nat) (g : Rng) :
    (neonInitWeights n g).2 = { g with pos := g.pos + n } ∧ (neonInitWeights n g).1.length = n ∧
    ∀ i, i < n → (neonInitWeights n g).1[i]? = some (coinWeight (g.draw (g.pos + i))) := by
  induction n generalizing g with
  | zero => exact ⟨rfl, rfl, fun i h => absurd h (Nat.not_lt_zero i)⟩
  | succ n ih =>
    obtain ⟨h1, h2, h3⟩ := ih g.next.2
    refine ⟨?_, by simp [neonInitWeights, h2], ?_⟩
    · simp only [neonInitWeights]
      rw [h1]
      simp only [Rng.next, Rng.mk.injEq, true_and]
      omega
    · intro i hi
      cases i with
      | zero => rfl
      | succ i =>
        simp only [neonInitWeights, List.getElem?_cons_succ]
        rw [h3 i (by omega)]
        simp only [Rng.next]
        rw [show g.pos + 1 + i = g.pos + (i + 1) by omega]

theorem neonAllWeights_spec (n k : Nat) (g : Rng) :
    (neonInitAllWeights n k g).2 = { g with pos := g.pos + k * n } ∧ (neonInitAllWeights n k g).1.length = k ∧
    ∀ j, j < k → ∃ w, (neonInitAllWeights n k g).1[j]? = some w ∧ w.length = n ∧
      ∀ i, i < n → w[i]? = some (coinWeight (g.draw (g.pos + (j * n + i)))) := by
  induction k generalizing g with
  | zero => exact ⟨by simp [neonInitAllWeights], rfl, fun i h => absurd h (Nat.not_lt_zero i)⟩
  | succ k ih =>
    obtain ⟨a1, a2, a3⟩ := neonWeights_spec n g
    obtain ⟨h1, h2, h3⟩ := ih (neonInitWeights n g).2
    refine ⟨?_, by simp [neonInitAllWeights, h2], ?_⟩
    · simp only [neonInitAllWeights]
      rw [h1, a1]
      simp only [Rng.mk.injEq, true_and]
      rw [Nat.succ_mul]; omega
    · intro j hj
      cases j with
      | zero =>
        refine ⟨_, rfl, a2, ?_⟩
        intro i hi
        rw [a3 i hi]
        simp
      | succ j =>
        obtain ⟨r, r1, r2, r4⟩ := h3 j (by omega)
        refine ⟨r, by simpa [neonInitAllWeights] using r1, r2, ?_⟩
        intro i hi
        rw [r4 i hi, a1]
        simp only
        rw [Nat.succ_mul]
        congr 3; omega

theorem high_byte (u : Rat) : (if u > 1 / 2 then 0#8 else 0xFF#8).toInt = coinStateHigh u := by
  unfold coinStateHigh
  by_cases h : u > 1 / 2
  · rw [if_pos h, if_pos h]; decide
  · rw [if_neg h, if_neg h]; decide

theorem coin_byte (g : Rng) : (neonCoin g).toInt = coinState (g.draw g.pos) := by
  unfold neonCoin coinState
  by_cases h : g.next.1 < 1 / 2
  · rw [if_pos h, if_pos (show g.draw g.pos < 1 / 2 from h)]; decide
  · rw [if_neg h, if_neg (show ¬ g.draw g.pos < 1 / 2 from h)]; decide

theorem avxRow_spec (mem k r : Nat) (row : Mem) (g : Rng) (h : k + r ≤ mem) :
    (avxInitRow mem k r row g).2 = { g with pos := g.pos + 2 * r } ∧
    (∀ i, i < r → ((avxInitRow mem k r row g).1 (k + i)).toInt = coinStateHigh (g.draw (g.pos + 2 * i)) ∧
      ((avxInitRow mem k r row g).1 (k + i + mem)).toInt = coinStateHigh (g.draw (g.pos + 2 * i + 1))) ∧
    ∀ a, a < k → (avxInitRow mem k r row g).1 a = row a ∧ (avxInitRow mem k r row g).1 (a + mem) = row (a + mem) := by
  induction r generalizing k row g with
  | zero => exact ⟨rfl, fun i h => absurd h (Nat.not_lt_zero i), fun a _ => ⟨rfl, rfl⟩⟩
  | succ r ih =>
    simp only [avxInitRow]
    obtain ⟨h1, h2, h3⟩ := ih (k + 1) (fun a => if a = k + mem then (if g.next.2.next.1 > 1 / 2 then 0#8 else 0xFF#8) else
      (fun a => if a = k then (if g.next.1 > 1 / 2 then 0#8 else 0xFF#8) else row a) a) g.next.2.next.2 (by omega)
    refine ⟨?_, ?_, ?_⟩
    · rw [h1]
      simp only [Rng.next, Rng.mk.injEq, true_and]
      omega
    · intro i hi
      cases i with
      | zero =>
        obtain ⟨c1, c2⟩ := h3 k (by omega)
        simp only [Nat.add_zero]
        rw [c1, c2]
        have hne : k ≠ k + mem := by omega
        simp only [if_neg hne, if_true]
        exact ⟨high_byte _, high_byte _⟩
      | succ i =>
        obtain ⟨c1, c2⟩ := h2 i (by omega)
        rw [show k + (i + 1) = k + 1 + i by omega, c1, c2]
        simp only [Rng.next]
        constructor
        · congr 2; omega
        · congr 2; omega
    · intro a ha
      obtain ⟨c1, c2⟩ := h3 a (by omega)
      rw [c1, c2]
      have n1 : a ≠ k + mem := by omega
      have n2 : a ≠ k := by omega
      have n3 : a + mem ≠ k + mem := by omega
      have n4 : a + mem ≠ k := by omega
      simp only [if_neg n1, if_neg n2, if_neg n3, if_neg n4, and_self]

theorem avxRows_spec (m : Nat) (junk : Nat → Mem) (hm : m ≤ avxMem m) (k : Nat) (g : Rng) :
    (avxInitRows m junk k g).2 = { g with pos := g.pos + k * (2 * m) } ∧ (avxInitRows m junk k g).1.length = k ∧
    ∀ j, j < k → ∃ row, (avxInitRows m junk k g).1[j]? = some row ∧
      (∀ i, i < m → (row i).toInt = coinStateHigh (g.draw (g.pos + (j * (2 * m) + 2 * i))) ∧
        (row (i + avxMem m)).toInt = coinStateHigh (g.draw (g.pos + (j * (2 * m) + 2 * i + 1)))) ∧
      ∀ i, m ≤ i → i < avxMem m → (row i).toInt = -109 ∧ (row (i + avxMem m)).toInt = -111 := by
  induction k generalizing g with
  | zero => exact ⟨by simp [avxInitRows], rfl, fun i h => absurd h (Nat.not_lt_zero i)⟩
  | succ k ih =>
    obtain ⟨a1, a2, -⟩ := avxRow_spec (avxMem m) 0 m (junk k) g (by omega)
    obtain ⟨h1, h2, h3⟩ := ih (avxInitRow (avxMem m) 0 m (junk k) g).2
    refine ⟨?_, by simp [avxInitRows, h2], ?_⟩
    · simp only [avxInitRows]
      rw [h1, a1]
      simp only [Rng.mk.injEq, true_and]
      rw [show (k + 1) * (2 * m) = k * (2 * m) + 2 * m from Nat.succ_mul _ _]
      omega
    · intro j hj
      cases j with
      | zero =>
        refine ⟨_, rfl, ?_, ?_⟩
        · intro i hi
          obtain ⟨c1, c2⟩ := a2 i hi
          simp only [Nat.zero_add] at c1 c2
          have n1 : ¬ (m ≤ i ∧ i < avxMem m) := by omega
          have n2 : ¬ (m + avxMem m ≤ i ∧ i < avxMem m + avxMem m) := by omega
          have n3 : ¬ (m ≤ i + avxMem m ∧ i + avxMem m < avxMem m) := by omega
          have n4 : ¬ (m + avxMem m ≤ i + avxMem m ∧ i + avxMem m < avxMem m + avxMem m) := by omega
          unfold avxFill
          rw [if_neg n1, if_neg n2, if_neg n3, if_neg n4, c1, c2]
          simp only [Nat.zero_mul, Nat.zero_add]
          exact ⟨trivial, by rw [Nat.add_assoc]⟩
        · intro i h1 h2
          have n1 : m ≤ i ∧ i < avxMem m := ⟨h1, h2⟩
          have n3 : ¬ (m ≤ i + avxMem m ∧ i + avxMem m < avxMem m) := by omega
          have n4 : m + avxMem m ≤ i + avxMem m ∧ i + avxMem m < avxMem m + avxMem m := by omega
          unfold avxFill
          rw [if_pos n1, if_neg n3, if_pos n4]
          exact ⟨rfl, rfl⟩
      | succ j =>
        obtain ⟨r, r1, r2, r3⟩ := h3 j (by omega)
        refine ⟨r, by simpa [avxInitRows] using r1, ?_, r3⟩
        intro i hi
        obtain ⟨s1, s2⟩ := r2 i hi
        rw [s1, s2, a1]
        simp only
        rw [show (j + 1) * (2 * m) = j * (2 * m) + 2 * m from Nat.succ_mul _ _]
        constructor
        · congr 2; omega
        · congr 2; omega

theorem neonRow_spec (mem k r : Nat) (row : Mem) (g : Rng) (h : k + r ≤ mem) :
    (neonInitRow mem k r row g).2 = { g with pos := g.pos + 2 * r } ∧
    (∀ i, i < r → ((neonInitRow mem k r row g).1 (k + i)).toInt = coinState (g.draw (g.pos + 2 * i)) ∧
      ((neonInitRow mem k r row g).1 (k + i + mem)).toInt = coinState (g.draw (g.pos + 2 * i + 1))) ∧
    ∀ a, a < k → (neonInitRow mem k r row g).1 a = row a ∧ (neonInitRow mem k r row g).1 (a + mem) = row (a + mem) := by
  induction r generalizing k row g with
  | zero => exact ⟨rfl, fun i h => absurd h (Nat.not_lt_zero i), fun a _ => ⟨rfl, rfl⟩⟩
  | succ r ih =>
    simp only [neonInitRow]
    obtain ⟨h1, h2, h3⟩ := ih (k + 1) (fun a => if a = k + mem then neonCoin g.next.2 else
      (fun a => if a = k then neonCoin g else row a) a) g.next.2.next.2 (by omega)
    refine ⟨?_, ?_, ?_⟩
    · rw [h1]
      simp only [Rng.next, Rng.mk.injEq, true_and]
      omega
    · intro i hi
      cases i with
      | zero =>
        obtain ⟨c1, c2⟩ := h3 k (by omega)
        simp only [Nat.add_zero]
        rw [c1, c2]
        have hne : k ≠ k + mem := by omega
        simp only [if_neg hne, if_true]
        exact ⟨coin_byte _, coin_byte _⟩
      | succ i =>
        obtain ⟨c1, c2⟩ := h2 i (by omega)
        rw [show k + (i + 1) = k + 1 + i by omega, c1, c2]
        simp only [Rng.next]
        constructor
        · congr 2; omega
        · congr 2; omega
    · intro a ha
      obtain ⟨c1, c2⟩ := h3 a (by omega)
      rw [c1, c2]
      have n1 : a ≠ k + mem := by omega
      have n2 : a ≠ k := by omega
      have n3 : a + mem ≠ k + mem := by omega
      have n4 : a + mem ≠ k := by omega
      simp only [if_neg n1, if_neg n2, if_neg n3, if_neg n4, and_self]

theorem neonRows_spec (m : Nat) (junk : Nat → Mem) (hm : m ≤ neonMem m) (k : Nat) (g : Rng) :
    (neonInitRows m junk k g).2 = { g with pos := g.pos + k * (2 * m) } ∧ (neonInitRows m junk k g).1.length = k ∧
    ∀ j, j < k → ∃ row, (neonInitRows m junk k g).1[j]? = some row ∧
      (∀ i, i < m → (row i).toInt = coinState (g.draw (g.pos + (j * (2 * m) + 2 * i))) ∧
        (row (i + neonMem m)).toInt = coinState (g.draw (g.pos + (j * (2 * m) + 2 * i + 1)))) ∧
      ∀ i, m ≤ i → i < neonMem m → (row i).toInt = -109 ∧ (row (i + neonMem m)).toInt = -111 := by
  induction k generalizing g with
  | zero => exact ⟨by simp [neonInitRows], rfl, fun i h => absurd h (Nat.not_lt_zero i)⟩
  | succ k ih =>
    have hrow := fun row => neonRow_spec (neonMem m) 0 m row g (by omega)
    obtain ⟨a1, a2, -⟩ := hrow (fun a => if a < 2 * neonMem m then junk k a else 0#8)
    obtain ⟨h1, h2, h3⟩ := ih (neonInitRow (neonMem m) 0 m (fun a => if a < 2 * neonMem m then junk k a else 0#8) g).2
    refine ⟨?_, by simp [neonInitRows, h2], ?_⟩
    · simp only [neonInitRows]
      rw [h1, a1]
      simp only [Rng.mk.injEq, true_and]
      rw [show (k + 1) * (2 * m) = k * (2 * m) + 2 * m from Nat.succ_mul _ _]
      omega
    · intro j hj
      cases j with
      | zero =>
        refine ⟨_, rfl, ?_, ?_⟩
        · intro i hi
          obtain ⟨c1, c2⟩ := a2 i hi
          simp only [Nat.zero_add] at c1 c2
          have n1 : ¬ (m ≤ i ∧ i < neonMem m) := by omega
          have n2 : ¬ (m + neonMem m ≤ i ∧ i < neonMem m + neonMem m) := by omega
          have n3 : ¬ (m ≤ i + neonMem m ∧ i + neonMem m < neonMem m) := by omega
          have n4 : ¬ (m + neonMem m ≤ i + neonMem m ∧ i + neonMem m < neonMem m + neonMem m) := by omega
          unfold neonFill
          rw [if_neg n1, if_neg n2, if_neg n3, if_neg n4, c1, c2]
          simp only [Nat.zero_mul, Nat.zero_add]
          exact ⟨trivial, by rw [Nat.add_assoc]⟩
        · intro i h1 h2
          have n1 : m ≤ i ∧ i < neonMem m := ⟨h1, h2⟩
          have n3 : ¬ (m ≤ i + neonMem m ∧ i + neonMem m < neonMem m) := by omega
          have n4 : m + neonMem m ≤ i + neonMem m ∧ i + neonMem m < neonMem m + neonMem m := by omega
          unfold neonFill
          rw [if_pos n1, if_neg n3, if_pos n4]
          exact ⟨rfl, rfl⟩
      | succ j =>
        obtain ⟨r, r1, r2, r3⟩ := h3 j (by omega)
        refine ⟨r, by simpa [neonInitRows] using r1, ?_, r3⟩
        intro i hi
        obtain ⟨s1, s2⟩ := r2 i hi
        rw [s1, s2, a1]
        simp only
        rw [show (j + 1) * (2 * m) = j * (2 * m) + 2 * m from Nat.succ_mul _ _]
        constructor
        · congr 2; omega
        · congr 2; omega

end GT.Start

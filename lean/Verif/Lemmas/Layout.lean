import Verif.Spec.Layout
import Mathlib.Tactic.Ring

/-! # Lemmas about row copies -/

namespace GT
open Spec

/-- A loop whose step `i` writes the entries `P` of row `i` (rows of `S` from `base`) writes those of all rows. -/
theorem rows_loop (f : (Nat → Int) → Nat → (Nat → Int)) (base S : Nat) (P : Nat → Prop) [DecidablePred P]
    (v : Nat → Nat → Int)
    (hf : ∀ (m : Nat → Int) (i a : Nat), f m i a = if base + i * S ≤ a ∧ a < base + i * S + S ∧ P (a - (base + i * S)) then
      v i (a - (base + i * S)) else m a) (k : Nat) (m : Nat → Int) (a : Nat) :
    (List.range k).foldl f m a = if base ≤ a ∧ a < base + k * S ∧ P ((a - base) % S) then
      v ((a - base) / S) ((a - base) % S) else m a := by
  induction k with
  | zero => simp; omega
  | succ k ih =>
    rw [List.range_succ, List.foldl_append, List.foldl_cons, List.foldl_nil, hf, ih, Nat.succ_mul]
    by_cases h : base + k * S ≤ a ∧ a < base + k * S + S
    · have hS : 0 < S := by omega
      have hd : (a - base) / S = k := by
        rw [Nat.div_eq_iff hS]; omega
      have hm : (a - base) % S = a - (base + k * S) := by
        rw [Nat.mod_eq_sub, hd, Nat.mul_comm S k]; omega
      rw [hm, hd]
      by_cases hp : P (a - (base + k * S))
      · simp only [h, hp, and_true, if_true]
        rw [if_pos ⟨by omega, by omega⟩]
      · simp only [hp, and_false, if_false]
    · rw [if_neg (fun hh => h ⟨hh.1, hh.2.1⟩)]
      by_cases h1 : base ≤ a ∧ a < base + k * S
      · have h2 : a < base + (k * S + S) := by omega
        simp only [h1, h2, true_and]
      · by_cases h2 : base ≤ a
        · rw [if_neg (fun hh => h1 ⟨hh.1, hh.2.1⟩), if_neg (fun hh => h1 ⟨hh.1, by omega⟩)]
        · rw [if_neg (fun hh => h2 hh.1), if_neg (fun hh => h2 hh.1)]

theorem row_div_mod (S i j : Nat) (hj : j < S) : (i * S + j) / S = i ∧ (i * S + j) % S = j := by
  constructor
  · rw [Nat.mul_comm, Nat.mul_add_div (by omega), Nat.div_eq_of_lt hj, Nat.add_zero]
  · rw [Nat.mul_comm, Nat.mul_add_mod, Nat.mod_eq_of_lt hj]

theorem row_lt (S i j k : Nat) (hi : i < k) (hj : j < S) : i * S + j < k * S := by
  calc i * S + j < i * S + S := by omega
    _ = (i + 1) * S := by ring
    _ ≤ k * S := Nat.mul_le_mul_right S hi

/-- `rows_loop` read at an entry of a row. -/
theorem rows_loop_at (f : (Nat → Int) → Nat → (Nat → Int)) (base S : Nat) (P : Nat → Prop) [DecidablePred P]
    (v : Nat → Nat → Int)
    (hf : ∀ (m : Nat → Int) (i a : Nat), f m i a = if base + i * S ≤ a ∧ a < base + i * S + S ∧ P (a - (base + i * S)) then
      v i (a - (base + i * S)) else m a) (k : Nat) (m : Nat → Int) (i j : Nat) (hi : i < k) (hj : j < S) :
    (List.range k).foldl f m (base + (i * S + j)) = if P j then v i j else m (base + (i * S + j)) := by
  rw [rows_loop f base S P v hf]
  have h1 := row_div_mod S i j hj
  have h2 := row_lt S i j k hi hj
  rw [Nat.add_sub_cancel_left, h1.1, h1.2]
  by_cases hp : P j
  · rw [if_pos hp, if_pos ⟨by omega, by omega, hp⟩]
  · rw [if_neg hp, if_neg (fun hh => hp hh.2.2)]

/-- `rows_loop` read outside the rows. -/
theorem rows_loop_out (f : (Nat → Int) → Nat → (Nat → Int)) (base S : Nat) (P : Nat → Prop) [DecidablePred P]
    (v : Nat → Nat → Int)
    (hf : ∀ (m : Nat → Int) (i a : Nat), f m i a = if base + i * S ≤ a ∧ a < base + i * S + S ∧ P (a - (base + i * S)) then
      v i (a - (base + i * S)) else m a) (k : Nat) (m : Nat → Int) (a : Nat) (ha : a < base ∨ base + k * S ≤ a) :
    (List.range k).foldl f m a = m a := by
  rw [rows_loop f base S P v hf, if_neg (by omega)]

/-! ### The four copies -/

def getVal (b : Flat) (i j : Nat) : Int :=
  if j < b.nLits then b.clauses (i * (2 * b.litMem) + j) else b.clauses (i * (2 * b.litMem) + b.litMem + (j - b.nLits))

def setVal (b : Flat) (src : Nat → Int) (off i j : Nat) : Int :=
  if j < b.nLits then src ((i + off) * (2 * b.nLits) + j)
  else src ((i + off) * (2 * b.nLits) + b.nLits + (j - b.litMem))

def getWVal (b : Flat) (i j : Nat) : Int := b.weights (i * b.wMem + j)

def setWVal (b : Flat) (src : Nat → Int) (off i j : Nat) : Int := src ((i + off) * b.nClasses + j)

def getWStep (b : Flat) (off : Nat) (m : Nat → Int) (i : Nat) : Nat → Int :=
  memcpy m ((i + off) * b.nClasses) b.weights (i * b.wMem) b.nClasses

def setWStep (b : Flat) (src : Nat → Int) (off : Nat) (m : Nat → Int) (i : Nat) : Nat → Int :=
  memcpy m (i * b.wMem) src ((i + off) * b.nClasses) b.nClasses

def getStep (b : Flat) (off : Nat) (dst : Nat → Int) (i : Nat) : Nat → Int :=
  memcpy (memcpy dst ((i + off) * b.nLits * 2) b.clauses (i * b.litMem * 2) b.nLits)
    ((i + off) * b.nLits * 2 + b.nLits) b.clauses (i * b.litMem * 2 + b.litMem) b.nLits

theorem getStep_eq (b : Flat) (off : Nat) (m : Nat → Int) (i a : Nat) :
    getStep b off m i a =
      if off * (2 * b.nLits) + i * (2 * b.nLits) ≤ a ∧ a < off * (2 * b.nLits) + i * (2 * b.nLits) + 2 * b.nLits ∧ True then
        getVal b i (a - (off * (2 * b.nLits) + i * (2 * b.nLits))) else m a := by
  unfold getStep getVal memcpy
  have h1 : (i + off) * b.nLits * 2 = off * (2 * b.nLits) + i * (2 * b.nLits) := by ring
  have h2 : i * b.litMem * 2 = i * (2 * b.litMem) := by ring
  rw [h1, h2]
  generalize off * (2 * b.nLits) + i * (2 * b.nLits) = X
  generalize i * (2 * b.litMem) = Y
  simp only [and_true]
  by_cases hX : X ≤ a ∧ a < X + 2 * b.nLits
  · rw [if_pos hX]
    by_cases hj : a - X < b.nLits
    · rw [if_neg (by omega), if_pos (by omega), if_pos hj]
    · rw [if_pos (by omega), if_neg hj]
      congr 1; omega
  · rw [if_neg hX, if_neg (by omega), if_neg (by omega)]

def setStep (b : Flat) (src : Nat → Int) (off : Nat) (cl : Nat → Int) (i : Nat) : Nat → Int :=
  memcpy (memcpy cl (i * (b.litMem * 2)) src ((i + off) * (b.nLits * 2)) b.nLits)
    (i * (b.litMem * 2) + b.litMem) src ((i + off) * (b.nLits * 2) + b.nLits) b.nLits

theorem setStep_eq (b : Flat) (hb : b.nLits ≤ b.litMem) (src : Nat → Int) (off : Nat) (m : Nat → Int) (i a : Nat) :
    setStep b src off m i a =
      if 0 + i * (2 * b.litMem) ≤ a ∧ a < 0 + i * (2 * b.litMem) + 2 * b.litMem ∧
        (fun j => j < b.nLits ∨ (b.litMem ≤ j ∧ j < b.litMem + b.nLits)) (a - (0 + i * (2 * b.litMem))) then
        setVal b src off i (a - (0 + i * (2 * b.litMem))) else m a := by
  unfold setStep setVal memcpy
  have h1 : i * (b.litMem * 2) = i * (2 * b.litMem) := by ring
  have h2 : (i + off) * (b.nLits * 2) = (i + off) * (2 * b.nLits) := by ring
  rw [h1, h2, Nat.zero_add]
  beta_reduce
  generalize i * (2 * b.litMem) = X
  generalize (i + off) * (2 * b.nLits) = Y
  by_cases hp : X ≤ a ∧ a < X + b.nLits
  · rw [if_neg (by omega), if_pos hp, if_pos (by omega), if_pos (by omega)]
  · by_cases hn : X + b.litMem ≤ a ∧ a < X + b.litMem + b.nLits
    · rw [if_pos hn, if_pos (by omega), if_neg (by omega)]
      congr 1; omega
    · rw [if_neg hn, if_neg hp, if_neg (by omega)]

theorem wStep_eq (m src : Nat → Int) (base D soff i a n : Nat) (hn : n ≤ D) :
    memcpy m (base + i * D) src soff n a =
      if base + i * D ≤ a ∧ a < base + i * D + D ∧ a - (base + i * D) < n then src (soff + (a - (base + i * D))) else m a := by
  unfold memcpy
  generalize base + i * D = X
  by_cases h : X ≤ a ∧ a < X + n
  · rw [if_pos h, if_pos (by omega)]
  · rw [if_neg h, if_neg (by omega)]

/-! ### Reading a block into arrays -/

theorem getClauseState_row (b : Flat) (dst : Nat → Int) (off i j : Nat) (hi : i < b.nClauses) (hj : j < b.nLits) :
    b.getClauseState dst off ((off + i) * (2 * b.nLits) + j) = b.clauses (i * (2 * b.litMem) + j) ∧
    b.getClauseState dst off ((off + i) * (2 * b.nLits) + b.nLits + j) =
      b.clauses (i * (2 * b.litMem) + b.litMem + j) := by
  have key := fun j => rows_loop_at (getStep b off) (off * (2 * b.nLits)) (2 * b.nLits) (fun _ => True) (getVal b)
    (getStep_eq b off) b.nClauses dst i j hi
  have e : b.getClauseState dst off = (List.range b.nClauses).foldl (getStep b off) dst := rfl
  rw [e]
  constructor
  · have := key j (by omega)
    rw [if_pos trivial, getVal, if_pos hj, show off * (2 * b.nLits) + (i * (2 * b.nLits) + j) = (off + i) * (2 * b.nLits) + j by ring] at this
    exact this
  · have := key (b.nLits + j) (by omega)
    rw [if_pos trivial, getVal, if_neg (by omega), show off * (2 * b.nLits) + (i * (2 * b.nLits) + (b.nLits + j)) = (off + i) * (2 * b.nLits) + b.nLits + j by ring,
      Nat.add_sub_cancel_left] at this
    exact this

theorem getClauseState_out (b : Flat) (dst : Nat → Int) (off a : Nat)
    (ha : a < off * (2 * b.nLits) ∨ (off + b.nClauses) * (2 * b.nLits) ≤ a) :
    b.getClauseState dst off a = dst a :=
  rows_loop_out (getStep b off) (off * (2 * b.nLits)) (2 * b.nLits) (fun _ => True) (getVal b)
    (getStep_eq b off) b.nClauses dst a (by rw [Nat.add_mul] at ha; exact ha)

theorem getWeights_step (b : Flat) (off : Nat) (m : Nat → Int) (i a : Nat) :
    getWStep b off m i a =
      if off * b.nClasses + i * b.nClasses ≤ a ∧ a < off * b.nClasses + i * b.nClasses + b.nClasses ∧
        (fun j => j < b.nClasses) (a - (off * b.nClasses + i * b.nClasses)) then
        getWVal b i (a - (off * b.nClasses + i * b.nClasses)) else m a := by
  unfold getWStep getWVal
  rw [show (i + off) * b.nClasses = off * b.nClasses + i * b.nClasses by ring]
  exact wStep_eq m b.weights (off * b.nClasses) b.nClasses (i * b.wMem) i a b.nClasses (by omega)

theorem getClauseWeights_row (b : Flat) (dst : Nat → Int) (off i k : Nat) (hi : i < b.nClauses) (hk : k < b.nClasses) :
    b.getClauseWeights dst off ((off + i) * b.nClasses + k) = b.weights (i * b.wMem + k) := by
  have := rows_loop_at (getWStep b off) (off * b.nClasses) b.nClasses (fun j => j < b.nClasses) (getWVal b)
    (getWeights_step b off) b.nClauses dst i k hi hk
  rw [if_pos hk, show off * b.nClasses + (i * b.nClasses + k) = (off + i) * b.nClasses + k by ring] at this
  exact this

theorem getClauseWeights_out (b : Flat) (dst : Nat → Int) (off a : Nat)
    (ha : a < off * b.nClasses ∨ (off + b.nClauses) * b.nClasses ≤ a) :
    b.getClauseWeights dst off a = dst a :=
  rows_loop_out (getWStep b off) (off * b.nClasses) b.nClasses (fun j => j < b.nClasses) (getWVal b)
    (getWeights_step b off) b.nClauses dst a (by rw [Nat.add_mul] at ha; exact ha)

/-! ### Writing arrays into a block -/

theorem setClauseState_row (b : Flat) (hb : b.nLits ≤ b.litMem) (src : Nat → Int) (off i j : Nat)
    (hi : i < b.nClauses) (hj : j < b.nLits) :
    (b.setClauseState src off).clauses (i * (2 * b.litMem) + j) = src ((off + i) * (2 * b.nLits) + j) ∧
    (b.setClauseState src off).clauses (i * (2 * b.litMem) + b.litMem + j) =
      src ((off + i) * (2 * b.nLits) + b.nLits + j) := by
  have key := fun j => rows_loop_at (setStep b src off) 0 (2 * b.litMem)
    (fun j => j < b.nLits ∨ (b.litMem ≤ j ∧ j < b.litMem + b.nLits)) (setVal b src off)
    (setStep_eq b hb src off) b.nClauses b.clauses i j hi
  have e : (b.setClauseState src off).clauses = (List.range b.nClauses).foldl (setStep b src off) b.clauses := rfl
  rw [e]
  constructor
  · have := key j (by omega)
    rw [if_pos (Or.inl hj), setVal, if_pos hj, Nat.zero_add, Nat.add_comm i off] at this
    exact this
  · have := key (b.litMem + j) (by omega)
    rw [if_pos (Or.inr (by omega)), setVal, if_neg (by omega), Nat.zero_add, Nat.add_comm i off, Nat.add_sub_cancel_left] at this
    rw [Nat.add_assoc]
    exact this

theorem setClauseState_pad (b : Flat) (hb : b.nLits ≤ b.litMem) (src : Nat → Int) (off : Nat) :
    (∀ i h j, i < b.nClauses → h < 2 → b.nLits ≤ j → j < b.litMem →
      (b.setClauseState src off).clauses (i * (2 * b.litMem) + h * b.litMem + j) =
        b.clauses (i * (2 * b.litMem) + h * b.litMem + j)) ∧
    (∀ a, b.nClauses * (2 * b.litMem) ≤ a → (b.setClauseState src off).clauses a = b.clauses a) := by
  have e : (b.setClauseState src off).clauses = (List.range b.nClauses).foldl (setStep b src off) b.clauses := rfl
  rw [e]
  constructor
  · intro i h j hi hh hj hj'
    have key := rows_loop_at (setStep b src off) 0 (2 * b.litMem)
      (fun j => j < b.nLits ∨ (b.litMem ≤ j ∧ j < b.litMem + b.nLits)) (setVal b src off)
      (setStep_eq b hb src off) b.nClauses b.clauses i (h * b.litMem + j) hi
    rw [Nat.add_assoc]
    have h01 : h = 0 ∨ h = 1 := by omega
    rcases h01 with rfl | rfl
    · have := key (by omega)
      rw [if_neg (by omega), Nat.zero_add (i * _ + _)] at this
      exact this
    · have := key (by omega)
      rw [if_neg (by omega), Nat.zero_add (i * _ + _)] at this
      exact this
  · intro a ha
    exact rows_loop_out (setStep b src off) 0 (2 * b.litMem)
      (fun j => j < b.nLits ∨ (b.litMem ≤ j ∧ j < b.litMem + b.nLits)) (setVal b src off) (setStep_eq b hb src off) b.nClauses b.clauses a
      (by omega)

theorem setWeights_step (b : Flat) (hb : b.nClasses ≤ b.wMem) (src : Nat → Int) (off : Nat) (m : Nat → Int) (i a : Nat) :
    setWStep b src off m i a =
      if 0 + i * b.wMem ≤ a ∧ a < 0 + i * b.wMem + b.wMem ∧
        (fun j => j < b.nClasses) (a - (0 + i * b.wMem)) then
        setWVal b src off i (a - (0 + i * b.wMem)) else m a := by
  unfold setWStep setWVal
  have := wStep_eq m src 0 b.wMem ((i + off) * b.nClasses) i a b.nClasses hb
  simp only [Nat.zero_add] at this ⊢
  exact this

theorem setClauseWeights_row (b : Flat) (hb : b.nClasses ≤ b.wMem) (src : Nat → Int) (off i k : Nat)
    (hi : i < b.nClauses) (hk : k < b.nClasses) :
    (b.setClauseWeights src off).weights (i * b.wMem + k) = src ((off + i) * b.nClasses + k) := by
  have := rows_loop_at (setWStep b src off) 0 b.wMem (fun j => j < b.nClasses) (setWVal b src off)
    (setWeights_step b hb src off) b.nClauses b.weights i k hi (by omega)
  rw [if_pos hk, Nat.zero_add, setWVal, Nat.add_comm i off] at this
  exact this

theorem setClauseWeights_pad (b : Flat) (hb : b.nClasses ≤ b.wMem) (src : Nat → Int) (off : Nat) :
    (∀ i k, i < b.nClauses → b.nClasses ≤ k → k < b.wMem →
      (b.setClauseWeights src off).weights (i * b.wMem + k) = b.weights (i * b.wMem + k)) ∧
    (∀ a, b.nClauses * b.wMem ≤ a → (b.setClauseWeights src off).weights a = b.weights a) := by
  constructor
  · intro i k hi hk hk'
    have := rows_loop_at (setWStep b src off) 0 b.wMem (fun j => j < b.nClasses) (setWVal b src off)
      (setWeights_step b hb src off) b.nClauses b.weights i k hi hk'
    rw [if_neg (by omega), Nat.zero_add] at this
    exact this
  · intro a ha
    exact rows_loop_out (setWStep b src off) 0 b.wMem (fun j => j < b.nClasses) (setWVal b src off) (setWeights_step b hb src off) b.nClauses b.weights a
      (by omega)

/-! ### All blocks of a machine -/

/-- Clause `i` in the arrays. -/
def arrayRow (n m : Nat) (c w : Nat → Int) (i : Nat) : List Int × List Int × List Int :=
  ((List.range n).map (fun j => c (i * (2 * n) + j)),
   (List.range n).map (fun j => c (i * (2 * n) + n + j)),
   (List.range m).map (fun k => w (i * m + k)))

/-- Clause `i` in a block. -/
def blockRow (b : Flat) (i : Nat) : List Int × List Int × List Int :=
  ((List.range b.nLits).map (fun j => b.clauses (i * (2 * b.litMem) + j)),
   (List.range b.nLits).map (fun j => b.clauses (i * (2 * b.litMem) + b.litMem + j)),
   (List.range b.nClasses).map (fun k => b.weights (i * b.wMem + k)))

theorem arrayRow_get (b : Flat) (c w : Nat → Int) (off i : Nat) (hi : i < b.nClauses) :
    arrayRow b.nLits b.nClasses (b.getClauseState c off) (b.getClauseWeights w off) (off + i) = blockRow b i := by
  unfold arrayRow blockRow
  simp only [Prod.mk.injEq]
  refine ⟨List.map_congr_left ?_, List.map_congr_left ?_, List.map_congr_left ?_⟩
  · intro j hj; exact (getClauseState_row b c off i j hi (List.mem_range.mp hj)).1
  · intro j hj; exact (getClauseState_row b c off i j hi (List.mem_range.mp hj)).2
  · intro j hj; exact getClauseWeights_row b w off i j hi (List.mem_range.mp hj)

theorem blockRow_set (b : Flat) (hl : b.nLits ≤ b.litMem) (hw : b.nClasses ≤ b.wMem) (c w : Nat → Int) (off i : Nat)
    (hi : i < b.nClauses) :
    blockRow ((b.setClauseState c off).setClauseWeights w off) i = arrayRow b.nLits b.nClasses c w (off + i) := by
  unfold arrayRow blockRow
  simp only [Prod.mk.injEq]
  refine ⟨List.map_congr_left ?_, List.map_congr_left ?_, List.map_congr_left ?_⟩
  · intro j hj; exact (setClauseState_row b hl c off i j hi (List.mem_range.mp hj)).1
  · intro j hj; exact (setClauseState_row b hl c off i j hi (List.mem_range.mp hj)).2
  · intro j hj; exact setClauseWeights_row (b.setClauseState c off) hw w off i j hi (List.mem_range.mp hj)

theorem arrayRow_congr (n m : Nat) (c w c' w' : Nat → Int) (i : Nat)
    (hc : ∀ a, i * (2 * n) ≤ a → a < (i + 1) * (2 * n) → c a = c' a)
    (hw : ∀ a, i * m ≤ a → a < (i + 1) * m → w a = w' a) : arrayRow n m c w i = arrayRow n m c' w' i := by
  unfold arrayRow
  rw [Nat.succ_mul i (2 * n)] at hc
  rw [Nat.succ_mul i m] at hw
  simp only [Prod.mk.injEq]
  refine ⟨List.map_congr_left ?_, List.map_congr_left ?_, List.map_congr_left ?_⟩ <;> intro j hj <;>
    rw [List.mem_range] at hj
  · exact hc _ (by omega) (by omega)
  · exact hc _ (by omega) (by omega)
  · exact hw _ (by omega) (by omega)

theorem loadLoop_spec (n m : Nat) (bs : List Flat) (hb : ∀ b ∈ bs, b.nLits = n ∧ b.nClasses = m) (off : Nat) (a : Arrays) :
    (∀ (i : Nat) (t : List Int × List Int × List Int), (machineClauses bs)[i]? = some t →
      arrayRow n m (loadLoop bs off a).c (loadLoop bs off a).w (off + i) = t) ∧
    (∀ p, p < off * (2 * n) ∨ (off + totalClauses bs) * (2 * n) ≤ p → (loadLoop bs off a).c p = a.c p) ∧
    (∀ p, p < off * m ∨ (off + totalClauses bs) * m ≤ p → (loadLoop bs off a).w p = a.w p) ∧
    (loadLoop bs off a).rows = a.rows ∧ (loadLoop bs off a).nLits = a.nLits ∧ (loadLoop bs off a).nClasses = a.nClasses := by
  induction bs generalizing off a with
  | nil =>
    refine ⟨by intro i t h; simp [machineClauses] at h, ?_, ?_, rfl, rfl, rfl⟩ <;> intro p _ <;> rfl
  | cons b bs ih =>
    obtain ⟨h1, h2⟩ := hb b (by simp)
    obtain ⟨i1, i2, i3, i4⟩ := ih (fun b hb' => hb b (by simp [hb'])) (off + b.nClauses)
      { a with c := b.getClauseState a.c off, w := b.getClauseWeights a.w off }
    have htot : totalClauses (b :: bs) = b.nClauses + totalClauses bs := by simp [totalClauses]
    have hmono : ∀ x y S : Nat, x ≤ y → x * S ≤ y * S := fun x y S h => Nat.mul_le_mul_right S h
    unfold loadLoop
    refine ⟨?_, ?_, ?_, i4⟩
    · intro i t ht
      have hm : machineClauses (b :: bs) = blockClauses b ++ machineClauses bs := by simp [machineClauses]
      have hlen : (blockClauses b).length = b.nClauses := by simp [blockClauses]
      rw [hm] at ht
      by_cases hi : i < b.nClauses
      · rw [List.getElem?_append_left (by omega)] at ht
        have ht' : blockRow b i = t := by
          simpa [blockClauses, blockRow, hi] using ht
        rw [← ht', ← arrayRow_get b a.c a.w off i hi, h1, h2]
        apply arrayRow_congr
        · intro p _ hp
          exact i2 p (Or.inl (Nat.lt_of_lt_of_le hp (hmono _ _ _ (by omega))))
        · intro p _ hp
          exact i3 p (Or.inl (Nat.lt_of_lt_of_le hp (hmono _ _ _ (by omega))))
      · rw [List.getElem?_append_right (by omega), hlen] at ht
        have := i1 _ _ ht
        rw [show off + b.nClauses + (i - b.nClauses) = off + i by omega] at this
        exact this
    · intro p hp
      have m1 := hmono off (off + b.nClauses) (2 * n) (by omega)
      have m2 := hmono (off + b.nClauses) (off + totalClauses (b :: bs)) (2 * n) (by omega)
      rw [i2 p (by rw [Nat.add_assoc, ← htot]; omega)]
      exact getClauseState_out b a.c off p (by rw [h1]; omega)
    · intro p hp
      have m1 := hmono off (off + b.nClauses) m (by omega)
      have m2 := hmono (off + b.nClauses) (off + totalClauses (b :: bs)) m (by omega)
      rw [i3 p (by rw [Nat.add_assoc, ← htot]; omega)]
      exact getClauseWeights_out b a.w off p (by rw [h2]; omega)

theorem saveLoop_spec (n m : Nat) (bs : List Flat) (hb : ∀ b ∈ bs, Fits n m b) (off : Nat) (a : Arrays) :
    machineClauses (saveLoop bs off a) = (List.range (totalClauses bs)).map (fun i => arrayRow n m a.c a.w (off + i)) := by
  induction bs generalizing off with
  | nil => simp [saveLoop, machineClauses, totalClauses]
  | cons b bs ih =>
    obtain ⟨h1, h2, h3, h4⟩ := hb b (by simp)
    have e : machineClauses (saveLoop (b :: bs) off a) =
        blockClauses ((b.setClauseState a.c off).setClauseWeights a.w off) ++
          machineClauses (saveLoop bs (off + b.nClauses) a) := by simp [machineClauses, saveLoop]
    have htot : totalClauses (b :: bs) = b.nClauses + totalClauses bs := by simp [totalClauses]
    rw [e, ih (fun b hb' => hb b (by simp [hb'])), htot, List.range_add, List.map_append, List.map_map]
    congr 1
    · have e2 : blockClauses ((b.setClauseState a.c off).setClauseWeights a.w off) =
          (List.range b.nClauses).map (blockRow ((b.setClauseState a.c off).setClauseWeights a.w off)) := rfl
      rw [e2]
      apply List.map_congr_left
      intro i hi
      rw [blockRow_set b (by omega) (by omega) a.c a.w off i (List.mem_range.mp hi), h1, h2]
    · apply List.map_congr_left
      intro i _
      simp only [Function.comp, Nat.add_assoc]

theorem machineClauses_length (bs : List Flat) : (machineClauses bs).length = totalClauses bs := by
  simp [machineClauses, totalClauses, List.length_flatMap, blockClauses]

theorem arrayClauses_eq (n m count : Nat) (a : Arrays) :
    arrayClauses n m count a = (List.range count).map (arrayRow n m a.c a.w) := rfl

theorem load_reads (n m : Nat) (bs : List Flat) (hb : ∀ b ∈ bs, b.nLits = n ∧ b.nClasses = m) (a : Arrays) :
    arrayClauses n m (totalClauses bs) (loadLoop bs 0 a) = machineClauses bs := by
  rw [arrayClauses_eq]
  apply List.ext_getElem?
  intro i
  have hs := (loadLoop_spec n m bs hb 0 a).1 i
  by_cases hi : i < totalClauses bs
  · rw [← machineClauses_length] at hi
    have := hs _ (List.getElem?_eq_getElem hi)
    rw [Nat.zero_add] at this
    rw [← machineClauses_length, List.getElem?_map, List.getElem?_range hi, List.getElem?_eq_getElem hi, ← this]
    rfl
  · rw [List.getElem?_eq_none (by simpa using hi), List.getElem?_eq_none (by rw [machineClauses_length]; omega)]

/-! ### The arrays as numpy shows them -/

theorem toDState_c (a : Arrays) :
    a.toDState.c = (arrayClauses a.nLits a.nClasses a.rows a).map (fun t => t.1 ++ t.2.1) := by
  unfold Arrays.toDState arrayClauses
  rw [List.map_map]
  apply List.map_congr_left
  intro i _
  simp only [Function.comp]
  rw [Nat.two_mul, List.range_add, List.map_append, List.map_map]
  congr 1
  apply List.map_congr_left
  intro j _
  simp [Function.comp, Nat.add_assoc]

theorem toDState_w (a : Arrays) :
    a.toDState.w = (arrayClauses a.nLits a.nClasses a.rows a).map (fun t => t.2.2) := by
  unfold Arrays.toDState arrayClauses
  rw [List.map_map]
  rfl

theorem stateClauses_toDState (a : Arrays) :
    stateClauses a.toDState = arrayClauses a.nLits a.nClasses a.rows a := by
  unfold stateClauses
  rw [toDState_c, toDState_w, List.zipWith_map_left, List.zipWith_map_right]
  rw [List.zipWith_self]
  conv_rhs => rw [← List.map_id (arrayClauses _ _ _ _)]
  apply List.map_congr_left
  intro t ht
  obtain ⟨i, -, rfl⟩ := List.mem_map.mp ht
  simp [Arrays.toDState]

theorem wellShaped_toDState (a : Arrays) : WellShaped a.toDState := by
  refine ⟨by simp [Arrays.toDState], ?_, ?_⟩ <;> intro r hr <;>
    simp only [Arrays.toDState, List.mem_map] at hr <;> obtain ⟨i, -, rfl⟩ := hr <;> simp [Arrays.toDState]

end GT

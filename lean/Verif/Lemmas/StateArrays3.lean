import Verif.Lemmas.StateArrays2

/-! # Lemmas about state transfer on checked arrays: converted arrays, and when the transfer is defined -/

namespace GT
namespace Arr
open Spec FlatMem

/-! ### Converted arrays -/

theorem grid_length (f : Nat → Nat → Int) (r k : Nat) :
    ((List.range r).flatMap fun (i : Nat) => (List.range k).map (f i)).length = r * k := by
  induction r with
  | zero => simp
  | succ r ih => rw [List.range_succ, List.flatMap_append, List.length_append, ih, Nat.succ_mul]; simp

theorem grid_get (f : Nat → Nat → Int) (r k i j : Nat) (hi : i < r) (hj : j < k) :
    ((List.range r).flatMap fun (i : Nat) => (List.range k).map (f i))[i * k + j]? = some (f i j) := by
  induction r with
  | zero => omega
  | succ r ih =>
    rw [List.range_succ, List.flatMap_append]
    by_cases h : i < r
    · rw [List.getElem?_append_left (by rw [grid_length]; exact row_lt k i j r h hj), ih h]
    · have e : i = r := by omega
      subst e
      rw [List.getElem?_append_right (by rw [grid_length]; omega), grid_length, Nat.add_sub_cancel_left]
      simp [hj]

theorem asType_row (d : DType) (a : NpMat) (h : a.cs.natAbs ≤ a.rs.natAbs) :
    RowAfterRow (a.asType d) ∧ (a.asType d).rows = a.rows ∧ (a.asType d).cols = a.cols ∧ (a.asType d).off = 0 ∧
      (a.asType d).buf.length = a.rows * a.cols ∧
      ∀ i j, i < a.rows → j < a.cols → valueAt (a.asType d) i j = castTo d (valueAt a i j) := by
  have hr : RowAfterRow (a.asType d) := by unfold NpMat.asType; rw [if_pos h]; exact ⟨rfl, rfl⟩
  refine ⟨hr, ?_, ?_, ?_, ?_, ?_⟩
  · unfold NpMat.asType; rw [if_pos h]
  · unfold NpMat.asType; rw [if_pos h]
  · unfold NpMat.asType; rw [if_pos h]
  · unfold NpMat.asType; rw [if_pos h]
    exact grid_length (fun i j => castTo d ((a.elem i j).getD 0)) a.rows a.cols
  · intro i j hi hj
    rw [valueAt_row _ hr]
    unfold ptr den NpMat.asType
    rw [if_pos h]
    simp only [Nat.zero_add]
    rw [List.getD_eq_getElem?_getD, grid_get (fun i j => castTo d ((a.elem i j).getD 0)) a.rows a.cols i j hi hj]
    rfl

theorem asType_dtype (d : DType) (a : NpMat) : (a.asType d).dtype = d := by
  unfold NpMat.asType; split <;> rfl

theorem asType_rowMajor (d : DType) (a : NpMat) (h : a.cs.natAbs ≤ a.rs.natAbs) (i j : Nat) (hi : i < a.rows) (hj : j < a.cols) :
    (a.asType d).buf[i * a.cols + j]? = some (castTo d (valueAt a i j)) := by
  unfold NpMat.asType; rw [if_pos h]
  exact grid_get (fun i j => castTo d ((a.elem i j).getD 0)) a.rows a.cols i j hi hj

theorem asType_colMajor (d : DType) (a : NpMat) (h : a.rs.natAbs < a.cs.natAbs) (i j : Nat) (hi : i < a.rows) (hj : j < a.cols) :
    (a.asType d).buf[j * a.rows + i]? = some (castTo d (valueAt a i j)) := by
  unfold NpMat.asType; rw [if_neg (by omega)]
  exact grid_get (fun j i => castTo d ((a.elem i j).getD 0)) a.cols a.rows j i hj hi

theorem asType_values (d : DType) (a : NpMat) : (a.asType d).rows = a.rows ∧ (a.asType d).cols = a.cols ∧
    ∀ i j, i < a.rows → j < a.cols → valueAt (a.asType d) i j = castTo d (valueAt a i j) := by
  by_cases h : a.cs.natAbs ≤ a.rs.natAbs
  · obtain ⟨_, h1, h2, _, _, h3⟩ := asType_row d a h
    exact ⟨h1, h2, h3⟩
  · have h' : a.rs.natAbs < a.cs.natAbs := by omega
    refine ⟨by unfold NpMat.asType; rw [if_neg h], by unfold NpMat.asType; rw [if_neg h], fun i j hi hj => ?_⟩
    have hb := asType_colMajor d a h' i j hi hj
    have e : (a.asType d).elem i j = rd (a.asType d).buf ((j * a.rows + i : Nat) : Int) := by
      unfold NpMat.elem
      congr 1
      unfold NpMat.asType
      rw [if_neg h]
      push_cast
      rw [Int.mul_comm (j : Int), Int.one_mul]
      omega
    conv_lhs => unfold valueAt
    rw [e]
    unfold rd
    rw [if_pos (Int.natCast_nonneg _), Int.toNat_natCast, hb]
    rfl

theorem pass_same {d : DType} {a : NpMat} (h : a.dtype = d) : a.pass d = a := by unfold NpMat.pass; rw [if_pos h]

theorem pass_other {d : DType} {a : NpMat} (h : a.dtype ≠ d) : a.pass d = a.asType d := by unfold NpMat.pass; rw [if_neg h]

/-- What a readable array looks like to the parameter. -/
theorem readable_pass {d : DType} {lim : Int} {a : NpMat} (hd : ∀ v, -lim ≤ v → v < lim → castTo d v = v) (h : Readable d lim a) :
    RowAfterRow (a.pass d) ∧ (a.pass d).rows = a.rows ∧ (a.pass d).cols = a.cols ∧
      (a.pass d).off + a.rows * a.cols ≤ (a.pass d).buf.length ∧
      ∀ i j, i < a.rows → j < a.cols → valueAt (a.pass d) i j = valueAt a i j := by
  obtain ⟨hv, h | ⟨h1, h2, h3⟩⟩ := h
  · rw [pass_same h.1]
    exact ⟨h.2, rfl, rfl, valid_size a h.2 hv, fun _ _ _ _ => rfl⟩
  · rw [pass_other h1]
    obtain ⟨k1, k2, k3, k4, k5, k6⟩ := asType_row d a h2
    refine ⟨k1, k2, k3, by omega, fun i j hi hj => ?_⟩
    rw [k6 i j hi hj]
    exact hd _ (h3 i j hi hj).1 (h3 i j hi hj).2

theorem cast8 (v : Int) (h1 : -128 ≤ v) (h2 : v < 128) : castTo .int8 v = v := by
  show wrap8 v = v
  unfold wrap8; omega

theorem cast16 (v : Int) (h1 : -32768 ≤ v) (h2 : v < 32768) : castTo .int16 v = v := by
  show wrap16 v = v
  unfold wrap16; omega

theorem arrClauses_congr {n m : Nat} {w c w' c' : NpMat} (hr : c'.rows = c.rows)
    (hc : ∀ i j, i < c.rows → j < 2 * n → valueAt c' i j = valueAt c i j)
    (hw : ∀ i k, i < c.rows → k < m → valueAt w' i k = valueAt w i k) : arrClauses n m w' c' = arrClauses n m w c := by
  unfold arrClauses
  rw [hr]
  apply List.map_congr_left
  intro i hi
  rw [List.mem_range] at hi
  simp only [Prod.mk.injEq]
  refine ⟨List.map_congr_left ?_, List.map_congr_left ?_, List.map_congr_left ?_⟩ <;> intro j hj <;>
    rw [List.mem_range] at hj
  · exact hc i j hi (by omega)
  · exact hc i (n + j) hi (by omega)
  · exact hw i j hi hj

/-! ### A transfer that is defined stays inside the arrays -/

theorem setStateBody_length (b : Blk) (src : List Int) (base off i : Nat) (l l' : List Int)
    (h : b.setStateBody src base off i l = some l') : l'.length = l.length := by
  unfold Blk.setStateBody at h
  simp only [Option.bind_eq_bind, Option.bind_eq_some_iff] at h
  obtain ⟨_, _, _, _, _, _, _, _, _, _, l1, c1, _, _, _, _, c2⟩ := h
  rw [cpy_length c2, cpy_length c1]

theorem setStateBody_in (b : Blk) (src : List Int) (base off i : Nat) (l l' : List Int) (hn : 0 < b.nLits)
    (h : b.setStateBody src base off i l = some l') : base + (i + off + 1) * (2 * b.nLits) ≤ src.length := by
  unfold Blk.setStateBody at h
  simp only [Option.bind_eq_bind, Option.bind_eq_some_iff] at h
  obtain ⟨a1, h1, a2, h2, a3, h3, _, _, _, _, l1, c1, _, _, a4, h4, c2⟩ := h
  have q1 := i32_some h1
  have q2 := i32_some h2
  have q3 := i32_some h3
  have q4 := i32_some h4
  have := (cpy_in c2 hn).1
  rw [q4, q3, q2, q1] at this
  have e : (((i + off) * (b.nLits * 2) : Nat) : Int) = ((i : Int) + off) * ((b.nLits : Int) * 2) := by push_cast; rfl
  rw [← e] at this
  have e2 : (i + off + 1) * (2 * b.nLits) = (i + off) * (b.nLits * 2) + b.nLits + b.nLits := by ring
  omega

theorem setWeightsBody_length (b : Blk) (src : List Int) (base off i : Nat) (l l' : List Int)
    (h : b.setWeightsBody src base off i l = some l') : l'.length = l.length := by
  unfold Blk.setWeightsBody at h
  simp only [Option.bind_eq_bind, Option.bind_eq_some_iff] at h
  obtain ⟨_, _, _, _, _, _, c1⟩ := h
  exact cpy_length c1

theorem setWeightsBody_in (b : Blk) (src : List Int) (base off i : Nat) (l l' : List Int) (hn : 0 < b.nClasses)
    (h : b.setWeightsBody src base off i l = some l') : base + (i + off + 1) * b.nClasses ≤ src.length := by
  unfold Blk.setWeightsBody at h
  simp only [Option.bind_eq_bind, Option.bind_eq_some_iff] at h
  obtain ⟨a1, h1, a2, h2, _, _, c1⟩ := h
  have q1 := i32_some h1
  have q2 := i32_some h2
  have := (cpy_in c1 hn).1
  rw [q2, q1] at this
  have e : (((i + off) * b.nClasses : Nat) : Int) = ((i : Int) + off) * (b.nClasses : Int) := by push_cast; rfl
  rw [← e] at this
  rw [Nat.succ_mul]
  omega

theorem setState_in (b b' : Blk) (src : List Int) (base off : Nat) (hn : 0 < b.nLits) (hk : 0 < b.nClauses)
    (h : b.setState src base off = some b') :
    base + (off + b.nClauses) * (2 * b.nLits) ≤ src.length ∧ b'.nClauses = b.nClauses ∧ b'.nClasses = b.nClasses := by
  unfold Blk.setState at h
  simp only [Option.bind_eq_bind, Option.bind_eq_some_iff, Option.pure_def, Option.some.injEq] at h
  obtain ⟨cl, hl, rfl⟩ := h
  refine ⟨?_, rfl, rfl⟩
  obtain ⟨a, a', -, ha⟩ := loop_each _ (setStateBody_length b src base off) b.nClauses 0 _ _ hl (b.nClauses - 1) (by omega) (by omega)
  have := setStateBody_in b src base off _ a a' hn ha
  rw [show b.nClauses - 1 + off + 1 = off + b.nClauses by omega] at this
  exact this

theorem setWeights_in (b b' : Blk) (src : List Int) (base off : Nat) (hn : 0 < b.nClasses) (hk : 0 < b.nClauses)
    (h : b.setWeights src base off = some b') : base + (off + b.nClauses) * b.nClasses ≤ src.length ∧ b'.nClauses = b.nClauses := by
  unfold Blk.setWeights at h
  simp only [Option.bind_eq_bind, Option.bind_eq_some_iff, Option.pure_def, Option.some.injEq] at h
  obtain ⟨cl, hl, rfl⟩ := h
  refine ⟨?_, rfl⟩
  obtain ⟨a, a', -, ha⟩ := loop_each _ (setWeightsBody_length b src base off) b.nClauses 0 _ _ hl (b.nClauses - 1) (by omega) (by omega)
  have := setWeightsBody_in b src base off _ a a' hn ha
  rw [show b.nClauses - 1 + off + 1 = off + b.nClauses by omega] at this
  exact this

theorem saveLoop_in (n m : Nat) (hn : 0 < n) (hm : 0 < m) (w c : NpMat) (bs : List Blk)
    (hb : ∀ b ∈ bs, b.nLits = n ∧ b.nClasses = m ∧ 0 < b.nClauses) (done : List Blk) (off : Nat) (r : List Blk × Except PyErr Unit)
    (h : saveLoop ⟨some w, some c⟩ done bs off = some r) (hne : bs ≠ []) :
    (c.pass .int8).off + (off + total bs) * (2 * n) ≤ (c.pass .int8).buf.length ∧
    (w.pass .int16).off + (off + total bs) * m ≤ (w.pass .int16).buf.length := by
  induction bs generalizing done off with
  | nil => exact absurd rfl hne
  | cons b bs ih =>
    obtain ⟨b1, b2, b3⟩ := hb b (by simp)
    rw [saveLoop] at h
    simp only [Option.bind_eq_bind, Option.bind_eq_some_iff] at h
    obtain ⟨x, hx, y, hy, hr⟩ := h
    obtain ⟨i1, i2, i2'⟩ := setState_in b x _ _ _ (by omega) b3 hx
    obtain ⟨i3, i4⟩ := setWeights_in x y _ _ _ (by omega) (by omega) hy
    rw [b1] at i1
    rw [i2', b2, i2] at i3
    rw [total_cons]
    by_cases h0 : bs = []
    · subst h0
      have : total [] = 0 := rfl
      rw [this, Nat.add_zero]
      exact ⟨i1, i3⟩
    · have := ih (fun b hb' => hb b (by simp [hb'])) _ _ hr h0
      rw [i4, i2, Nat.add_assoc] at this
      exact this

/-- Collecting into arrays of other element types does not reach them. -/
theorem loadLoop_lost (w c : NpMat) (dc : c.dtype ≠ .int8) (dw : w.dtype ≠ .int16) (bs : List Blk) (off : Nat)
    (r : St × Except PyErr Unit) (h : loadLoop bs off ⟨some w, some c⟩ = some r) : r = (⟨some w, some c⟩, .ok ()) := by
  induction bs generalizing off with
  | nil => exact (Option.some.inj h).symm
  | cons b bs ih =>
    rw [loadLoop] at h
    simp only [Option.bind_eq_bind, Option.bind_eq_some_iff] at h
    obtain ⟨c', hc, w', hw, hr⟩ := h
    have e1 : c' = c := by
      unfold Blk.getStateNpy at hc
      simp only [Option.bind_eq_bind, Option.bind_eq_some_iff, Option.pure_def, Option.some.injEq, if_neg dc] at hc
      obtain ⟨_, _, h⟩ := hc
      exact h.symm
    have e2 : w' = w := by
      unfold Blk.getWeightsNpy at hw
      simp only [Option.bind_eq_bind, Option.bind_eq_some_iff, Option.pure_def, Option.some.injEq, if_neg dw] at hw
      obtain ⟨_, _, h⟩ := hw
      exact h.symm
    subst e1 e2
    exact ih _ hr

end Arr
end GT

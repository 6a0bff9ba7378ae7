import Verif.Lemmas.StateArrays

/-! # Lemmas about state transfer on checked arrays: whole machines -/

namespace GT
namespace Arr
open Spec FlatMem

/-- The memory from which a `pybind11` parameter reads. -/
def ptr (a : NpMat) : Nat → Int := fun p => den a.buf (a.off + p)

/-- The same dimensions and memory sizes. -/
def SameDims (b b' : Blk) : Prop :=
  b'.nLits = b.nLits ∧ b'.nClauses = b.nClauses ∧ b'.nClasses = b.nClasses ∧ b'.litMem = b.litMem ∧ b'.wMem = b.wMem ∧
  b'.clauses.length = b.clauses.length ∧ b'.weights.length = b.weights.length

theorem SameDims.ready {n m : Nat} {b b' : Blk} (h : SameDims b b') (hb : BlockReady n m b) : BlockReady n m b' := by
  obtain ⟨e1, e2, e3, e4, e5, e6, e7⟩ := h
  obtain ⟨h1, h2, h3, h4, h5, h6, h7, h8⟩ := hb
  constructor <;> simp only [e1, e2, e3, e4, e5, e6, e7] <;> assumption

def total (bs : List Blk) : Nat := (bs.map (·.nClauses)).sum

theorem total_cons (b : Blk) (bs : List Blk) : total (b :: bs) = b.nClauses + total bs := by simp [total]

theorem total_flat (bs : List Blk) : totalClauses (bs.map Blk.flat) = total bs := by
  simp only [totalClauses, total, List.map_map]; rfl

theorem held_flat (bs : List Blk) : machineClauses (bs.map Blk.flat) = held bs := by
  unfold machineClauses held
  rw [List.flatMap_map]; rfl

theorem saveLoop_ok (n m : Nat) (w c : NpMat) (bs : List Blk) (hb : ∀ b ∈ bs, BlockReady n m b) (a : Arrays)
    (ac : a.c = ptr (c.pass .int8)) (aw : a.w = ptr (w.pass .int16)) (done : List Blk) (off : Nat)
    (h31 : off + total bs < 2147483648) (hc32 : (off + total bs) * (2 * n) < 2147483648)
    (hw32 : (off + total bs) * m < 2147483648)
    (hc : (c.pass .int8).off + (off + total bs) * (2 * n) ≤ (c.pass .int8).buf.length)
    (hw : (w.pass .int16).off + (off + total bs) * m ≤ (w.pass .int16).buf.length) :
    ∃ bs', saveLoop ⟨some w, some c⟩ done bs off = some (done ++ bs', .ok ()) ∧
      bs'.map Blk.flat = GT.saveLoop (bs.map Blk.flat) off a ∧ List.Forall₂ SameDims bs bs' := by
  induction bs generalizing done off with
  | nil => exact ⟨[], by simp [saveLoop], rfl, .nil⟩
  | cons b bs ih =>
    rw [total_cons] at h31 hc32 hw32 hc hw
    have hr := hb b (by simp)
    have m1 : (off + b.nClauses) * (2 * n) ≤ (off + (b.nClauses + total bs)) * (2 * n) := Nat.mul_le_mul_right _ (by omega)
    have m2 : (off + b.nClauses) * m ≤ (off + (b.nClauses + total bs)) * m := Nat.mul_le_mul_right _ (by omega)
    obtain ⟨cl, e1, l1, f1⟩ := setState_ok hr (c.pass .int8).buf (c.pass .int8).off off (by omega) (by omega) (by omega)
    have hr1 : BlockReady n m { b with clauses := cl } := SameDims.ready (b := b) ⟨rfl, rfl, rfl, rfl, rfl, l1, rfl⟩ hr
    obtain ⟨ws, e2, l2, f2⟩ := setWeights_ok hr1 (w.pass .int16).buf (w.pass .int16).off off
      (show _ + (off + b.nClauses) * m ≤ _ by omega) (show off + b.nClauses < _ by omega)
      (show (off + b.nClauses) * m < _ by omega)
    obtain ⟨bs', e3, f3, d3⟩ := ih (fun b hb' => hb b (by simp [hb'])) (done ++ [{ b with clauses := cl, weights := ws }])
      (off + b.nClauses) (by omega) (by rw [Nat.add_assoc]; exact hc32) (by rw [Nat.add_assoc]; exact hw32)
      (by rw [Nat.add_assoc]; exact hc) (by rw [Nat.add_assoc]; exact hw)
    refine ⟨{ b with clauses := cl, weights := ws } :: bs', ?_, ?_, .cons ⟨rfl, rfl, rfl, rfl, rfl, l1, l2⟩ d3⟩
    · rw [saveLoop]
      have e1' : b.setStateNpy c off = some { b with clauses := cl } := e1
      have e2' : ({ b with clauses := cl } : Blk).setWeightsNpy w off = some { b with clauses := cl, weights := ws } := e2
      dsimp only
      rw [bind_of e1', bind_of e2', e3]
      simp
    · simp only [List.map_cons, GT.saveLoop, f3, List.cons.injEq]
      refine ⟨?_, by rfl⟩
      rw [ac, aw]
      calc ({ b with clauses := cl, weights := ws } : Blk).flat
          = ({ b with clauses := cl } : Blk).flat.setClauseWeights (ptr (w.pass .int16)) off := f2
        _ = _ := by rw [f1]; rfl

theorem loadLoop_ok (n m : Nat) (bs : List Blk) (hb : ∀ b ∈ bs, BlockReady n m b) (w c : NpMat)
    (dc : c.dtype = .int8) (dw : w.dtype = .int16) (a : Arrays) (ac : a.c = ptr c) (aw : a.w = ptr w) (off : Nat)
    (h31 : off + total bs < 2147483648) (hc32 : (off + total bs) * (2 * n) < 2147483648)
    (hw32 : (off + total bs) * m < 2147483648)
    (hc : c.off + (off + total bs) * (2 * n) ≤ c.buf.length)
    (hw : w.off + (off + total bs) * m ≤ w.buf.length) :
    ∃ bw bc, loadLoop bs off ⟨some w, some c⟩ = some (⟨some { w with buf := bw }, some { c with buf := bc }⟩, .ok ()) ∧
      bw.length = w.buf.length ∧ bc.length = c.buf.length ∧
      ptr { c with buf := bc } = (GT.loadLoop (bs.map Blk.flat) off a).c ∧
      ptr { w with buf := bw } = (GT.loadLoop (bs.map Blk.flat) off a).w ∧
      (∀ p, p < c.off → den bc p = den c.buf p) ∧ (∀ p, p < w.off → den bw p = den w.buf p) := by
  induction bs generalizing w c a off with
  | nil => exact ⟨w.buf, c.buf, rfl, rfl, rfl, ac.symm, aw.symm, fun _ _ => rfl, fun _ _ => rfl⟩
  | cons b bs ih =>
    rw [total_cons] at h31 hc32 hw32 hc hw
    have hr := hb b (by simp)
    have m1 : (off + b.nClauses) * (2 * n) ≤ (off + (b.nClauses + total bs)) * (2 * n) := Nat.mul_le_mul_right _ (by omega)
    have m2 : (off + b.nClauses) * m ≤ (off + (b.nClauses + total bs)) * m := Nat.mul_le_mul_right _ (by omega)
    obtain ⟨bc1, e1, l1, f1⟩ := getState_ok hr c.buf c.off off (by omega) (by omega) (by omega)
    obtain ⟨bw1, e2, l2, f2⟩ := getWeights_ok hr w.buf w.off off (by omega) (by omega) (by omega)
    obtain ⟨bw, bc, e3, k1, k2, k3, k4, k5, k6⟩ := ih (fun b hb' => hb b (by simp [hb'])) { w with buf := bw1 } { c with buf := bc1 } dc dw
      { a with c := b.flat.getClauseState a.c off, w := b.flat.getClauseWeights a.w off }
      (by
        funext p
        show b.flat.getClauseState a.c off p = den bc1 (c.off + p)
        rw [f1]
        simp only [show ¬ c.off + p < c.off by omega, if_false, Nat.add_sub_cancel_left, ac]
        rfl)
      (by
        funext p
        show b.flat.getClauseWeights a.w off p = den bw1 (w.off + p)
        rw [f2]
        simp only [show ¬ w.off + p < w.off by omega, if_false, Nat.add_sub_cancel_left, aw]
        rfl)
      (off + b.nClauses) (by omega) (by rw [Nat.add_assoc]; exact hc32) (by rw [Nat.add_assoc]; exact hw32)
      (by rw [Nat.add_assoc, l1]; exact hc) (by rw [Nat.add_assoc, l2]; exact hw)
    have e1' : b.getStateNpy c off = some { c with buf := bc1 } := by
      unfold Blk.getStateNpy NpMat.pass
      simp only [dc, if_true]
      rw [bind_of e1]
      simp
    have e2' : b.getWeightsNpy w off = some { w with buf := bw1 } := by
      unfold Blk.getWeightsNpy NpMat.pass
      simp only [dw, if_true]
      rw [bind_of e2]
      simp
    refine ⟨bw, bc, ?_, k1.trans l2, k2.trans l1, k3, k4, ?_, ?_⟩
    · rw [loadLoop]
      dsimp only
      rw [bind_of e1', bind_of e2', e3]
    · intro p hp
      have hp' : p < ({ c with buf := bc1 } : NpMat).off := hp
      rw [k5 p hp']
      show den bc1 p = _
      rw [f1]
      simp only [hp, if_true]
    · intro p hp
      have hp' : p < ({ w with buf := bw1 } : NpMat).off := hp
      rw [k6 p hp']
      show den bw1 p = _
      rw [f2]
      simp only [hp, if_true]

/-! ### Arrays -/

theorem elem_row (a : NpMat) (h : RowAfterRow a) (i j : Nat) : a.elem i j = rd a.buf ((a.off + (i * a.cols + j) : Nat) : Int) := by
  unfold NpMat.elem
  rw [h.1, h.2]
  congr 1
  push_cast
  ring

theorem valueAt_row (a : NpMat) (h : RowAfterRow a) (i j : Nat) : valueAt a i j = ptr a (i * a.cols + j) := by
  unfold valueAt ptr den
  rw [elem_row a h, rd, if_pos (by omega), Int.toNat_natCast]
  simp

theorem valid_size (a : NpMat) (h : RowAfterRow a) (hv : ValidArray a) : a.off + a.rows * a.cols ≤ a.buf.length := by
  by_cases h0 : a.rows = 0
  · rw [h0]; have := hv.1; omega
  by_cases h1 : a.cols = 0
  · rw [h1]; have := hv.1; omega
  obtain ⟨v, hv⟩ := hv.2 (a.rows - 1) (a.cols - 1) (by omega) (by omega)
  rw [elem_row a h] at hv
  have := rd_lt hv
  have e : (a.rows - 1) * a.cols + a.cols = a.rows * a.cols := by
    rw [← Nat.succ_mul]; congr 1; omega
  omega
where
  rd_lt {l : List Int} {k : Nat} {v : Int} (h : rd l (k : Int) = some v) : k < l.length := by
    unfold rd at h
    simp only [Int.natCast_nonneg, if_true, Int.toNat_natCast] at h
    exact (List.getElem?_eq_some_iff.mp h).1

/-- The clauses of two arrays with rows one after the other, as flat memory. -/
theorem arrClauses_flat (n m : Nat) (w c : NpMat) (hc : RowAfterRow c) (hw : RowAfterRow w) (cc : c.cols = 2 * n)
    (cw : w.cols = m) : arrClauses n m w c = (List.range c.rows).map (arrayRow n m (ptr c) (ptr w)) := by
  unfold arrClauses
  apply List.map_congr_left
  intro i _
  unfold arrayRow
  simp only [valueAt_row c hc, valueAt_row w hw, cc, cw, Nat.add_assoc]

end Arr
end GT

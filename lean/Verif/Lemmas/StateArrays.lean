import Verif.Lemmas.Layout
import Verif.Lemmas.Flat
import Verif.Spec.StateArrays

/-! # Lemmas about state transfer on checked arrays -/

namespace GT
namespace Arr
open Spec GT.FlatMem

/-- A list as memory. -/
def den (l : List Int) : Nat → Int := fun p => l.getD p 0

/-- The block of `Verif.Model.Layout`. -/
def Blk.flat (b : Blk) : Flat := ⟨b.nLits, b.nClauses, b.nClasses, b.litMem, b.wMem, den b.clauses, den b.weights⟩

theorem i32_of {z : Int} {n : Nat} (h : z = n) (hn : n < 2147483648) : i32 z = some (n : Int) := by
  unfold i32
  rw [if_pos (by omega), h]

theorem i32_some {z r : Int} (h : i32 z = some r) : r = z := by
  unfold i32 at h
  split at h
  · exact (Option.some.inj h).symm
  · cases h

theorem rd_nat {l : List Int} {z : Int} {n : Nat} (h : z = n) (hn : n < l.length) : rd l z = some (den l n) := by
  subst h
  simp [rd, den, List.getD_eq_getElem?_getD, List.getElem?_eq_getElem hn]

theorem wr_nat {l : List Int} {z v : Int} {n : Nat} (h : z = n) (hn : n < l.length) : wr l z v = some (l.set n v) := by
  subst h
  simp [wr, hn]

theorem den_set {l : List Int} {n : Nat} (hn : n < l.length) (v : Int) (a : Nat) :
    den (l.set n v) a = if a = n then v else den l a := by
  unfold den
  rw [List.getD_eq_getElem?_getD, List.getD_eq_getElem?_getD, List.getElem?_set]
  by_cases h : n = a
  · subst h; simp [hn]
  · simp [h, Ne.symm h]

theorem cpy_loop (src : List Int) (d s : Nat) (rem k : Nat) (dst : List Int) (hd : d + (k + rem) ≤ dst.length)
    (hs : s + (k + rem) ≤ src.length) :
    ∃ dst', forLoop (fun (k : Nat) dst => do
        let v ← rd src ((s : Int) + k)
        wr dst ((d : Int) + k) v) rem k dst = some dst' ∧ dst'.length = dst.length ∧
      ∀ a, den dst' a = if d + k ≤ a ∧ a < d + (k + rem) then den src (s + (a - d)) else den dst a := by
  induction rem generalizing k dst with
  | zero =>
    refine ⟨dst, rfl, rfl, fun a => ?_⟩
    rw [if_neg (by omega)]
  | succ rem ih =>
    have e1 : rd src ((s : Int) + k) = some (den src (s + k)) := rd_nat (by omega) (by omega)
    have e2 : wr dst ((d : Int) + k) (den src (s + k)) = some (dst.set (d + k) (den src (s + k))) := wr_nat (by omega) (by omega)
    obtain ⟨dst', h1, h2, h3⟩ := ih (k + 1) (dst.set (d + k) (den src (s + k))) (by simp; omega) (by omega)
    refine ⟨dst', ?_, ?_, fun a => ?_⟩
    · rw [forLoop]
      simp only [e1, e2, Option.bind_eq_bind, Option.bind_some]
      exact h1
    · simpa using h2
    · rw [h3, den_set (by omega)]
      by_cases ha : a = d + k
      · subst ha
        rw [if_neg (by omega), if_pos rfl, if_pos (by omega)]
        congr 1; omega
      · by_cases hb : d + (k + 1) ≤ a ∧ a < d + (k + 1 + rem)
        · rw [if_pos hb, if_pos (by omega)]
        · rw [if_neg hb, if_neg ha, if_neg (by omega)]

theorem cpy_ok (dst src : List Int) {z y : Int} {d s n : Nat} (hz : z = d) (hy : y = s) (hd : d + n ≤ dst.length)
    (hs : s + n ≤ src.length) :
    ∃ dst', cpy dst z src y n = some dst' ∧ dst'.length = dst.length ∧ den dst' = memcpy (den dst) d (den src) s n := by
  subst hz hy
  obtain ⟨dst', h1, h2, h3⟩ := cpy_loop src d s n 0 dst (by omega) (by omega)
  refine ⟨dst', h1, h2, funext fun a => ?_⟩
  rw [h3, memcpy]
  simp

theorem cpy_length_loop (src : List Int) (d s : Int) (rem k : Nat) (dst dst' : List Int)
    (h : forLoop (fun (k : Nat) dst => do
        let v ← rd src (s + k)
        wr dst (d + k) v) rem k dst = some dst') : dst'.length = dst.length := by
  induction rem generalizing k dst with
  | zero => rw [← Option.some.inj h]
  | succ rem ih =>
    rw [forLoop] at h
    simp only [Option.bind_eq_bind, Option.bind_eq_some_iff] at h
    obtain ⟨t, ⟨v, -, hw⟩, hr⟩ := h
    rw [ih _ _ hr]
    unfold wr at hw
    split at hw
    · rw [← Option.some.inj hw]; simp
    · cases hw

theorem cpy_length {dst src dst' : List Int} {d s : Int} {n : Nat} (h : cpy dst d src s n = some dst') :
    dst'.length = dst.length := cpy_length_loop src d s n 0 dst dst' h

theorem cpy_in_loop (src : List Int) (d s : Int) (rem k : Nat) (dst dst' : List Int)
    (h : forLoop (fun (k : Nat) dst => do
        let v ← rd src (s + k)
        wr dst (d + k) v) rem k dst = some dst') (hr : 0 < rem) :
    s + (k + rem : Nat) ≤ src.length ∧ d + (k + rem : Nat) ≤ dst.length := by
  induction rem generalizing k dst with
  | zero => omega
  | succ rem ih =>
    rw [forLoop] at h
    simp only [Option.bind_eq_bind, Option.bind_eq_some_iff] at h
    obtain ⟨t, ⟨v, hv, hw⟩, hr'⟩ := h
    have ht : t.length = dst.length ∧ 0 ≤ d + k ∧ (d + k).toNat < dst.length := by
      unfold wr at hw
      split at hw
      · rw [← Option.some.inj hw]; simp; omega
      · cases hw
    have hs : 0 ≤ s + k ∧ (s + k).toNat < src.length := by
      unfold rd at hv
      split at hv
      · refine ⟨by assumption, ?_⟩
        obtain ⟨h, -⟩ := List.getElem?_eq_some_iff.mp hv
        exact h
      · cases hv
    by_cases h0 : rem = 0
    · subst h0; omega
    · have := ih _ _ hr' (by omega)
      rw [ht.1] at this
      omega

/-- A copy that is defined stays inside both lists. -/
theorem cpy_in {dst src dst' : List Int} {d s : Int} {n : Nat} (h : cpy dst d src s n = some dst') (hn : 0 < n) :
    s + n ≤ src.length ∧ d + n ≤ dst.length := by
  have := cpy_in_loop src d s n 0 dst dst' h hn
  simpa using this

theorem loop_den (body : Nat → List Int → Option (List Int)) (f : (Nat → Int) → Nat → (Nat → Int)) (L N : Nat)
    (h : ∀ i, i < N → ∀ l : List Int, l.length = L → ∃ l', body i l = some l' ∧ l'.length = L ∧ den l' = f (den l) i)
    (rem k : Nat) (hk : k + rem = N) (l : List Int) (hl : l.length = L) :
    ∃ l', forLoop body rem k l = some l' ∧ l'.length = L ∧ den l' = (List.range' k rem).foldl f (den l) := by
  induction rem generalizing k l with
  | zero => exact ⟨l, rfl, hl, rfl⟩
  | succ rem ih =>
    obtain ⟨l1, e1, n1, d1⟩ := h k (by omega) l hl
    obtain ⟨l2, e2, n2, d2⟩ := ih (k + 1) (by omega) l1 n1
    refine ⟨l2, ?_, n2, ?_⟩
    · rw [forLoop, e1]; exact e2
    · rw [d2, d1]; rfl

theorem loop_den0 (body : Nat → List Int → Option (List Int)) (f : (Nat → Int) → Nat → (Nat → Int)) (N : Nat) (l : List Int)
    (h : ∀ i, i < N → ∀ l' : List Int, l'.length = l.length →
      ∃ l'', body i l' = some l'' ∧ l''.length = l.length ∧ den l'' = f (den l') i) :
    ∃ l', forLoop body N 0 l = some l' ∧ l'.length = l.length ∧ den l' = (List.range N).foldl f (den l) := by
  obtain ⟨l', e, n, d⟩ := loop_den body f l.length N h N 0 (by omega) l rfl
  exact ⟨l', e, n, by rw [d, List.range_eq_range']⟩

/-- If a loop is defined, so is each of its steps. -/
theorem loop_each (body : Nat → List Int → Option (List Int))
    (hlen : ∀ i l l', body i l = some l' → l'.length = l.length) (rem k : Nat) (l l' : List Int)
    (h : forLoop body rem k l = some l') (i : Nat) (hi : k ≤ i) (hi' : i < k + rem) :
    ∃ a a', a.length = l.length ∧ body i a = some a' := by
  induction rem generalizing k l with
  | zero => omega
  | succ rem ih =>
    rw [forLoop] at h
    simp only [Option.bind_eq_bind, Option.bind_eq_some_iff] at h
    obtain ⟨t, ht, hr⟩ := h
    by_cases hk : i = k
    · subst hk; exact ⟨l, t, rfl, ht⟩
    · obtain ⟨a, a', h1, h2⟩ := ih (k + 1) t hr (by omega) (by omega)
      exact ⟨a, a', h1.trans (hlen _ _ _ ht), h2⟩

/-! ### The four loops -/

theorem row_le {i N S : Nat} (h : i < N) : i * S + S ≤ N * S := by
  rw [← Nat.succ_mul]; exact Nat.mul_le_mul_right S h

theorem memcpy_shift (m f : Nat → Int) (d o s n : Nat) :
    memcpy m d f (o + s) n = memcpy m d (fun p => f (o + p)) s n := by
  funext a; unfold memcpy; simp only [Nat.add_assoc]

/-- A step on memory that starts at `base`. -/
def shiftStep (base : Nat) (g : (Nat → Int) → Nat → (Nat → Int)) (mem : Nat → Int) (i : Nat) : Nat → Int := fun a =>
  if a < base then mem a else g (fun p => mem (base + p)) i (a - base)

theorem foldl_shift (base : Nat) (g : (Nat → Int) → Nat → (Nat → Int)) (is : List Nat) (mem : Nat → Int) :
    is.foldl (shiftStep base g) mem = fun a => if a < base then mem a else is.foldl g (fun p => mem (base + p)) (a - base) := by
  induction is generalizing mem with
  | nil =>
    funext a
    simp only [List.foldl_nil]
    split
    · rfl
    · congr 1; omega
  | cons i is ih =>
    funext a
    rw [List.foldl_cons, ih, List.foldl_cons]
    have e : (fun p => shiftStep base g mem i (base + p)) = g (fun p => mem (base + p)) i := by
      funext p
      unfold shiftStep
      rw [if_neg (by omega), Nat.add_sub_cancel_left]
    simp only [e]
    split
    · unfold shiftStep; rw [if_pos (by assumption)]
    · rfl

theorem memcpy_base (mem f : Nat → Int) (base d s n : Nat) :
    memcpy mem (base + d) f s n = fun a => if a < base then mem a else memcpy (fun p => mem (base + p)) d f s n (a - base) := by
  funext a
  unfold memcpy
  by_cases h : a < base
  · rw [if_neg (by omega), if_pos h]
  · rw [if_neg h]
    by_cases h2 : base + d ≤ a ∧ a < base + d + n
    · rw [if_pos h2, if_pos (by omega)]; congr 1; omega
    · rw [if_neg h2, if_neg (by omega)]; congr 1; omega

/-- `set_clause_state` is defined when the source is large enough, and then is the copy of `Verif.Model.Layout`. -/
theorem setState_ok {n m : Nat} {b : Blk} (hb : BlockReady n m b) (src : List Int) (base off : Nat)
    (hs : base + (off + b.nClauses) * (2 * n) ≤ src.length) (h31 : off + b.nClauses < 2147483648)
    (h32 : (off + b.nClauses) * (2 * n) < 2147483648) :
    ∃ cl, b.setState src base off = some { b with clauses := cl } ∧ cl.length = b.clauses.length ∧
      ({ b with clauses := cl } : Blk).flat = b.flat.setClauseState (fun p => den src (base + p)) off := by
  obtain ⟨h1, h2, h3, h4, h5, h6, h7, h8⟩ := hb
  obtain ⟨cl, e, hl, hd⟩ := loop_den0 (b.setStateBody src base off) (setStep b.flat (fun p => den src (base + p)) off)
    b.nClauses b.clauses (by
      intro i hi l hl
      have r1 := row_le (S := 2 * b.litMem) hi
      have r2 : (i + off) * (2 * n) + 2 * n ≤ (off + b.nClauses) * (2 * n) := row_le (by omega)
      have e1 : i * (b.litMem * 2) = i * (2 * b.litMem) := by ring
      have e2 : (i + off) * (b.nLits * 2) = (i + off) * (2 * n) := by rw [h1]; ring
      have i1 : i32 ((i : Int) + off) = some ((i + off : Nat) : Int) := i32_of (by push_cast; rfl) (by omega)
      have i2 : i32 ((b.nLits : Int) * 2) = some ((b.nLits * 2 : Nat) : Int) := i32_of (by push_cast; rfl) (by omega)
      have i3 : i32 (((i + off : Nat) : Int) * ((b.nLits * 2 : Nat) : Int)) = some (((i + off) * (b.nLits * 2) : Nat) : Int) :=
        i32_of (by push_cast; rfl) (by omega)
      have i4 : i32 ((b.litMem : Int) * 2) = some ((b.litMem * 2 : Nat) : Int) := i32_of (by push_cast; rfl) (by omega)
      have i5 : i32 ((i : Int) * ((b.litMem * 2 : Nat) : Int)) = some ((i * (b.litMem * 2) : Nat) : Int) :=
        i32_of (by push_cast; rfl) (by omega)
      have i6 : i32 (((i * (b.litMem * 2) : Nat) : Int) + b.litMem) = some ((i * (b.litMem * 2) + b.litMem : Nat) : Int) :=
        i32_of (by push_cast; rfl) (by omega)
      have i7 : i32 ((((i + off) * (b.nLits * 2) : Nat) : Int) + b.nLits) = some (((i + off) * (b.nLits * 2) + b.nLits : Nat) : Int) :=
        i32_of (by push_cast; rfl) (by omega)
      obtain ⟨l1, c1, n1, d1⟩ := cpy_ok l src (z := ((i * (b.litMem * 2) : Nat) : Int)) (y := (base : Int) + ((i + off) * (b.nLits * 2) : Nat))
        (d := i * (b.litMem * 2)) (s := base + (i + off) * (b.nLits * 2)) (n := b.nLits) rfl (by push_cast; rfl) (by omega) (by omega)
      obtain ⟨l2, c2, n2, d2⟩ := cpy_ok l1 src (z := ((i * (b.litMem * 2) + b.litMem : Nat) : Int))
        (y := (base : Int) + ((i + off) * (b.nLits * 2) + b.nLits : Nat))
        (d := i * (b.litMem * 2) + b.litMem) (s := base + ((i + off) * (b.nLits * 2) + b.nLits)) (n := b.nLits) rfl (by push_cast; rfl)
        (by omega) (by omega)
      refine ⟨l2, ?_, by omega, ?_⟩
      · unfold Blk.setStateBody
        rw [bind_of i1, bind_of i2, bind_of i3, bind_of i4, bind_of i5, bind_of c1, bind_of i6, bind_of i7]
        exact c2
      · rw [d2, d1, memcpy_shift _ (den src) _ base ((i + off) * (b.nLits * 2)),
          memcpy_shift _ (den src) _ base ((i + off) * (b.nLits * 2) + b.nLits)]
        rfl)
  refine ⟨cl, ?_, hl, ?_⟩
  · unfold Blk.setState
    rw [e]; rfl
  · unfold Blk.flat
    rw [hd]; rfl

theorem setWeights_ok {n m : Nat} {b : Blk} (hb : BlockReady n m b) (src : List Int) (base off : Nat)
    (hs : base + (off + b.nClauses) * m ≤ src.length) (h31 : off + b.nClauses < 2147483648)
    (h32 : (off + b.nClauses) * m < 2147483648) :
    ∃ ws, b.setWeights src base off = some { b with weights := ws } ∧ ws.length = b.weights.length ∧
      ({ b with weights := ws } : Blk).flat = b.flat.setClauseWeights (fun p => den src (base + p)) off := by
  obtain ⟨h1, h2, h3, h4, h5, h6, h7, h8⟩ := hb
  obtain ⟨ws, e, hl, hd⟩ := loop_den0 (b.setWeightsBody src base off) (setWStep b.flat (fun p => den src (base + p)) off)
    b.nClauses b.weights (by
      intro i hi l hl
      have r1 := row_le (S := b.wMem) hi
      have r2 : (i + off) * m + m ≤ (off + b.nClauses) * m := row_le (by omega)
      have e2 : (i + off) * b.nClasses = (i + off) * m := by rw [h2]
      have i1 : i32 ((i : Int) + off) = some ((i + off : Nat) : Int) := i32_of (by push_cast; rfl) (by omega)
      have i3 : i32 (((i + off : Nat) : Int) * (b.nClasses : Int)) = some (((i + off) * b.nClasses : Nat) : Int) :=
        i32_of (by push_cast; rfl) (by omega)
      have i5 : i32 ((i : Int) * (b.wMem : Int)) = some ((i * b.wMem : Nat) : Int) :=
        i32_of (by push_cast; rfl) (by omega)
      obtain ⟨l1, c1, n1, d1⟩ := cpy_ok l src (z := ((i * b.wMem : Nat) : Int)) (y := (base : Int) + ((i + off) * b.nClasses : Nat))
        (d := i * b.wMem) (s := base + (i + off) * b.nClasses) (n := b.nClasses) rfl (by push_cast; rfl) (by omega) (by omega)
      refine ⟨l1, ?_, by omega, ?_⟩
      · unfold Blk.setWeightsBody
        rw [bind_of i1, bind_of i3, bind_of i5]
        exact c1
      · rw [d1, memcpy_shift]
        rfl)
  refine ⟨ws, ?_, hl, ?_⟩
  · unfold Blk.setWeights
    rw [e]; rfl
  · unfold Blk.flat
    rw [hd]; rfl

theorem getState_ok {n m : Nat} {b : Blk} (hb : BlockReady n m b) (dst : List Int) (base off : Nat)
    (hs : base + (off + b.nClauses) * (2 * n) ≤ dst.length) (h31 : off + b.nClauses < 2147483648)
    (h32 : (off + b.nClauses) * (2 * n) < 2147483648) :
    ∃ dst', b.getState dst base off = some dst' ∧ dst'.length = dst.length ∧ den dst' = fun a => if a < base then den dst a else b.flat.getClauseState (fun p => den dst (base + p)) off (a - base) := by
  obtain ⟨h1, h2, h3, h4, h5, h6, h7, h8⟩ := hb
  obtain ⟨dst', e, hl, hd⟩ := loop_den0 (b.getStateBody base off) (shiftStep base (getStep b.flat off)) b.nClauses dst (by
      intro i hi l hl
      have r1 := row_le (S := 2 * b.litMem) hi
      have r2 : (i + off) * (2 * n) + 2 * n ≤ (off + b.nClauses) * (2 * n) := row_le (by omega)
      have e1 : i * b.litMem * 2 = i * (2 * b.litMem) := by ring
      have e2 : (i + off) * b.nLits * 2 = (i + off) * (2 * n) := by rw [h1]; ring
      have i1 : i32 ((i : Int) * b.litMem) = some ((i * b.litMem : Nat) : Int) := i32_of (by push_cast; rfl) (by omega)
      have i2 : i32 (((i * b.litMem : Nat) : Int) * 2) = some ((i * b.litMem * 2 : Nat) : Int) := i32_of (by push_cast; rfl) (by omega)
      have i3 : i32 ((i : Int) + off) = some ((i + off : Nat) : Int) := i32_of (by push_cast; rfl) (by omega)
      have i4 : i32 (((i + off : Nat) : Int) * b.nLits) = some (((i + off) * b.nLits : Nat) : Int) :=
        i32_of (by push_cast; rfl) (by omega)
      have i5 : i32 ((((i + off) * b.nLits : Nat) : Int) * 2) = some (((i + off) * b.nLits * 2 : Nat) : Int) :=
        i32_of (by push_cast; rfl) (by omega)
      have i6 : i32 ((((i + off) * b.nLits * 2 : Nat) : Int) + b.nLits) = some (((i + off) * b.nLits * 2 + b.nLits : Nat) : Int) :=
        i32_of (by push_cast; rfl) (by omega)
      have i7 : i32 (((i * b.litMem * 2 : Nat) : Int) + b.litMem) = some ((i * b.litMem * 2 + b.litMem : Nat) : Int) :=
        i32_of (by push_cast; rfl) (by omega)
      obtain ⟨l1, c1, n1, d1⟩ := cpy_ok l b.clauses (z := (base : Int) + (((i + off) * b.nLits * 2 : Nat) : Int))
        (y := ((i * b.litMem * 2 : Nat) : Int)) (d := base + (i + off) * b.nLits * 2) (s := i * b.litMem * 2) (n := b.nLits)
        (by push_cast; rfl) rfl (by omega) (by omega)
      obtain ⟨l2, c2, n2, d2⟩ := cpy_ok l1 b.clauses (z := (base : Int) + (((i + off) * b.nLits * 2 + b.nLits : Nat) : Int))
        (y := ((i * b.litMem * 2 + b.litMem : Nat) : Int)) (d := base + ((i + off) * b.nLits * 2 + b.nLits)) (s := i * b.litMem * 2 + b.litMem)
        (n := b.nLits) (by push_cast; rfl) rfl (by omega) (by omega)
      refine ⟨l2, ?_, by omega, ?_⟩
      · unfold Blk.getStateBody
        rw [bind_of i1, bind_of i2, bind_of i3, bind_of i4, bind_of i5, bind_of c1, bind_of i6, bind_of i7]
        exact c2
      · rw [d2, memcpy_base, d1, memcpy_base]
        funext a
        unfold shiftStep getStep
        by_cases ha : a < base
        · simp only [if_pos ha]
        · simp only [if_neg ha]
          have e : (fun p => (fun a => if a < base then den l a else
              memcpy (fun p => den l (base + p)) ((i + off) * b.nLits * 2) (den b.clauses) (i * b.litMem * 2) b.nLits (a - base)) (base + p)) =
              memcpy (fun p => den l (base + p)) ((i + off) * b.nLits * 2) (den b.clauses) (i * b.litMem * 2) b.nLits := by
            funext p
            simp
          simp only [Nat.add_sub_cancel_left, show ∀ p, ¬ base + p < base from fun p => by omega, if_false]
          rfl)
  exact ⟨dst', e, hl, hd.trans (foldl_shift base (getStep b.flat off) (List.range b.nClauses) (den dst))⟩

theorem getWeights_ok {n m : Nat} {b : Blk} (hb : BlockReady n m b) (dst : List Int) (base off : Nat)
    (hs : base + (off + b.nClauses) * m ≤ dst.length) (h31 : off + b.nClauses < 2147483648)
    (h32 : (off + b.nClauses) * m < 2147483648) :
    ∃ dst', b.getWeights dst base off = some dst' ∧ dst'.length = dst.length ∧ den dst' = fun a => if a < base then den dst a else b.flat.getClauseWeights (fun p => den dst (base + p)) off (a - base) := by
  obtain ⟨h1, h2, h3, h4, h5, h6, h7, h8⟩ := hb
  obtain ⟨dst', e, hl, hd⟩ := loop_den0 (b.getWeightsBody base off) (shiftStep base (getWStep b.flat off)) b.nClauses dst (by
      intro i hi l hl
      have r1 := row_le (S := b.wMem) hi
      have r2 : (i + off) * m + m ≤ (off + b.nClauses) * m := row_le (by omega)
      have e2 : (i + off) * b.nClasses = (i + off) * m := by rw [h2]
      have i1 : i32 ((i : Int) * b.wMem) = some ((i * b.wMem : Nat) : Int) := i32_of (by push_cast; rfl) (by omega)
      have i3 : i32 ((i : Int) + off) = some ((i + off : Nat) : Int) := i32_of (by push_cast; rfl) (by omega)
      have i4 : i32 (((i + off : Nat) : Int) * b.nClasses) = some (((i + off) * b.nClasses : Nat) : Int) :=
        i32_of (by push_cast; rfl) (by omega)
      obtain ⟨l1, c1, n1, d1⟩ := cpy_ok l b.weights (z := (base : Int) + (((i + off) * b.nClasses : Nat) : Int))
        (y := ((i * b.wMem : Nat) : Int)) (d := base + (i + off) * b.nClasses) (s := i * b.wMem) (n := b.nClasses)
        (by push_cast; rfl) rfl (by omega) (by omega)
      refine ⟨l1, ?_, by omega, ?_⟩
      · unfold Blk.getWeightsBody
        rw [bind_of i1, bind_of i3, bind_of i4]
        exact c1
      · rw [d1, memcpy_base]
        rfl)
  exact ⟨dst', e, hl, hd.trans (foldl_shift base (getWStep b.flat off) (List.range b.nClauses) (den dst))⟩

end Arr
end GT

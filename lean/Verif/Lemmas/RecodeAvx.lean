import Verif.Spec.RecodeAvx
import Verif.Lemmas.Avx2
import Verif.Lemmas.Recode
import Verif.Lemmas.OnePatch
import Verif.Lemmas.Start
import Mathlib.Data.List.Nodup
import Mathlib.Data.List.NodupEquivFin

/-! # Lemmas: the coding of the features does not matter on the AVX2 backend (C100) -/

namespace GT.RecodeV
open GT GT.Spec

variable {r : Recoding} {n : Nat}

/-- The old column that is now column `j`. -/
def col (r : Recoding) (j : Nat) : Nat := r.order.getD j j

theorem order_len (hr : r.Of n) : r.order.length = n := by simpa using hr.length_eq

theorem col_lt (hr : r.Of n) {j : Nat} (hj : j < n) : col r j < n := by
  have hl := order_len hr
  have : col r j ∈ r.order := by
    unfold col
    rw [List.getD_eq_getElem?_getD, List.getElem?_eq_getElem (by omega)]
    exact List.getElem_mem _
  simpa using hr.mem_iff.1 this

theorem col_surj (hr : r.Of n) {o : Nat} (ho : o < n) : ∃ j, j < n ∧ col r j = o := by
  have hm : o ∈ r.order := hr.mem_iff.2 (by simpa using ho)
  obtain ⟨j, hj, h⟩ := List.getElem_of_mem hm
  refine ⟨j, by rw [← order_len hr]; exact hj, ?_⟩
  unfold col
  rw [List.getD_eq_getElem?_getD, List.getElem?_eq_getElem hj]
  exact h

theorem col_inj (hr : r.Of n) {i j : Nat} (hi : i < n) (hj : j < n) (h : col r i = col r j) : i = j := by
  have hl := order_len hr
  have hnd : r.order.Nodup := hr.nodup_iff.2 List.nodup_range
  unfold col at h
  rw [List.getD_eq_getElem?_getD, List.getElem?_eq_getElem (by omega), List.getD_eq_getElem?_getD,
    List.getElem?_eq_getElem (by omega)] at h
  exact (hnd.getElem_inj_iff).1 h

theorem order_map {α : Type} (hr : r.Of n) (f : Nat → α) : r.order.map f = (List.range n).map fun j => f (col r j) := by
  apply List.ext_getElem (by simp [order_len hr])
  intro i h1 h2
  simp only [List.getElem_map, List.getElem_range, col]
  rw [List.getD_eq_getElem?_getD, List.getElem?_eq_getElem (by simpa using h1)]
  rfl

/-! ### Rows -/

/-- The bytes of the second row are those of the first in the new coding. -/
def RowR (r : Recoding) (n : Nat) (p q : Mem) : Prop := ∀ j, j < n →
  q j = (if r.flip (col r j) then p (avxMem n + col r j) else p (col r j)) ∧
  q (avxMem n + j) = (if r.flip (col r j) then p (col r j) else p (avxMem n + col r j))

structure CV (r : Recoding) (n : Nat) (c d : VClause) : Prop where
  row : RowR r n c.row d.row
  w   : d.w = c.w
  out : d.out = c.out

theorem cv_iff (hr : r.Of n) (c d : VClause) : CV r n c d ↔ visible n d = r.clause (visible n c) := by
  have hg : ∀ (f : Nat → Int) j, j < n → ((List.range n).map f).getD j 0 = f j := by
    intro f j hj
    simp [List.getD_eq_getElem?_getD, hj]
  have hpos : r.pos (visible n c) = (List.range n).map fun j =>
      (if r.flip (col r j) then c.row (avxMem n + col r j) else c.row (col r j)).toInt := by
    unfold Recoding.pos
    rw [order_map hr]
    refine List.map_congr_left fun j hj => ?_
    have := col_lt hr (List.mem_range.1 hj)
    simp only [visible, unpad, hg _ _ this]
    split <;> rfl
  have hneg : r.neg (visible n c) = (List.range n).map fun j =>
      (if r.flip (col r j) then c.row (col r j) else c.row (avxMem n + col r j)).toInt := by
    unfold Recoding.neg
    rw [order_map hr]
    refine List.map_congr_left fun j hj => ?_
    have := col_lt hr (List.mem_range.1 hj)
    simp only [visible, unpad, hg _ _ this]
    split <;> rfl
  have he : visible n d = r.clause (visible n c) ↔
      ((List.range n).map fun i => (d.row i).toInt) = r.pos (visible n c) ∧
      ((List.range n).map fun i => (d.row (avxMem n + i)).toInt) = r.neg (visible n c) ∧ d.w = c.w ∧ d.out = c.out := by
    simp only [visible, unpad, Recoding.clause, Clause.mk.injEq, and_true]
  rw [he, hpos, hneg]
  simp only [List.map_inj_left, List.mem_range, BitVec.toInt_inj]
  constructor
  · rintro ⟨h1, h2, h3⟩
    exact ⟨fun j hj => (h1 j hj).1, fun j hj => (h1 j hj).2, h2, h3⟩
  · rintro ⟨h1, h2, h3, h4⟩
    exact ⟨fun j hj => ⟨h1 j hj, h2 j hj⟩, h3, h4⟩

/-- The second example is the first in the new coding, and both are binary. -/
def LitR (r : Recoding) (n : Nat) (x y : Mem) : Prop := ∀ j, j < n → (x (col r j) = 0#8 ∨ x (col r j) = 1#8) ∧
  y j = if r.flip (col r j) then (if x (col r j) = 0#8 then 1#8 else 0#8) else x (col r j)

theorem lit_of (hr : r.Of n) {x y : Mem} (hb : Binary (unpadExample n x)) (h : unpadExample n y = r.lits (unpadExample n x)) :
    LitR r n x y := by
  intro j hj
  have hc := col_lt hr hj
  have hx := binary_unpad hb hc
  refine ⟨hx, ?_⟩
  have hl : r.lits (unpadExample n x) = (List.range n).map fun j =>
      if r.flip (col r j) then 1 - (x (col r j)).toNat else (x (col r j)).toNat := by
    unfold Recoding.lits
    rw [order_map hr]
    refine List.map_congr_left fun j hj => ?_
    have := col_lt hr (List.mem_range.1 hj)
    simp [unpadExample, List.getD_eq_getElem?_getD, this]
  rw [hl] at h
  have h := congrArg (·[j]?) h
  simp only [unpadExample, List.getElem?_map, List.getElem?_range hj, Option.map_some, Option.some.injEq] at h
  apply BitVec.eq_of_toNat_eq
  rw [h]
  rcases hx with hx | hx <;> rw [hx] <;> split <;> rfl

theorem lit_one {x y : Mem} (h : LitR r n x y) {j : Nat} (hj : j < n) :
    (y j == 1#8) = (if r.flip (col r j) then !(x (col r j) == 1#8) else x (col r j) == 1#8) := by
  obtain ⟨h1, h2⟩ := h j hj
  rw [h2]
  rcases h1 with h1 | h1 <;> rw [h1] <;> split <;> rfl

theorem lit_zero {x y : Mem} (h : LitR r n x y) {j : Nat} (hj : j < n) :
    (y j == 0#8) = (if r.flip (col r j) then !(x (col r j) == 0#8) else x (col r j) == 0#8) := by
  obtain ⟨h1, h2⟩ := h j hj
  rw [h2]
  rcases h1 with h1 | h1 <;> rw [h1] <;> split <;> rfl

theorem ok_iff (hr : r.Of n) {p q x y : Mem} (hp : RowR r n p q) (hx : LitR r n x y) :
    OkRange (avxMem n) q y 0 n ↔ OkRange (avxMem n) p x 0 n := by
  have hz : ∀ j, j < n → (y j = 0#8 ↔ if r.flip (col r j) then x (col r j) ≠ 0#8 else x (col r j) = 0#8) := by
    intro j hj
    have := lit_zero hx hj
    by_cases hf : r.flip (col r j) = true
    · simp only [hf, if_true] at this ⊢
      rw [← beq_iff_eq, this]
      simp
    · simp only [hf] at this ⊢
      rw [← beq_iff_eq, this]
      simp
  unfold OkRange
  constructor
  · intro h o _ ho
    obtain ⟨j, hj, rfl⟩ := col_surj hr ho
    obtain ⟨h1, h2⟩ := h j (by omega) hj
    obtain ⟨e1, e2⟩ := hp j hj
    rw [e1, Ne, hz j hj] at h1
    rw [e2, hz j hj] at h2
    by_cases hf : r.flip (col r j) = true
    · simp only [hf, if_true] at h1 h2
      exact ⟨h2, fun h => Classical.byContradiction fun hc => h1 h hc⟩
    · simp only [hf] at h1 h2
      exact ⟨h1, h2⟩
  · intro h j _ hj
    obtain ⟨h1, h2⟩ := h (col r j) (by omega) (col_lt hr hj)
    obtain ⟨e1, e2⟩ := hp j hj
    rw [e1, e2, Ne, hz j hj]
    by_cases hf : r.flip (col r j) = true
    · simp only [hf, if_true]
      exact ⟨fun h hc => hc (h2 h), h1⟩
    · simp only [hf]
      exact ⟨h1, h2⟩

theorem nonempty_iff (hr : r.Of n) {p q : Mem} (hp : RowR r n p q) :
    (∃ a, a < n ∧ (0 ≤ (q a).toInt ∨ 0 ≤ (q (avxMem n + a)).toInt)) ↔ ∃ a, a < n ∧ (0 ≤ (p a).toInt ∨ 0 ≤ (p (avxMem n + a)).toInt) := by
  constructor
  · rintro ⟨j, hj, h⟩
    refine ⟨col r j, col_lt hr hj, ?_⟩
    obtain ⟨e1, e2⟩ := hp j hj
    rw [e1, e2] at h
    by_cases hf : r.flip (col r j) = true
    · simp only [hf, if_true] at h
      exact h.symm
    · simp only [hf] at h
      exact h
  · rintro ⟨o, ho, h⟩
    obtain ⟨j, hj, rfl⟩ := col_surj hr ho
    refine ⟨j, hj, ?_⟩
    obtain ⟨e1, e2⟩ := hp j hj
    rw [e1, e2]
    by_cases hf : r.flip (col r j) = true
    · simp only [hf, if_true]
      exact h.symm
    · simp only [hf]
      exact h

theorem incCount_sum (row : Mem) (lo k : Nat) :
    incCount row lo k = ((List.range k).map fun j => if 0 ≤ (row (lo + j)).toInt then 1 else 0).sum := by
  unfold incCount
  rw [List.range'_eq_map_range, List.countP_map]
  generalize List.range k = l
  induction l with
  | nil => rfl
  | cons j l ih =>
    rw [List.countP_cons, ih, List.map_cons, List.sum_cons]
    simp only [Function.comp]
    by_cases h : 0 ≤ (row (lo + j)).toInt <;> simp [h] <;> omega

theorem count_eq (hr : r.Of n) {p q : Mem} (hp : RowR r n p q) :
    incCount q 0 n + incCount q (avxMem n) n = incCount p 0 n + incCount p (avxMem n) n := by
  simp only [incCount_sum, Nat.zero_add, Recode.sum_add]
  have h : ((List.range n).map fun j => (if 0 ≤ (q j).toInt then 1 else 0) + (if 0 ≤ (q (avxMem n + j)).toInt then 1 else 0)) =
      r.order.map fun o => (if 0 ≤ (p o).toInt then 1 else 0) + (if 0 ≤ (p (avxMem n + o)).toInt then 1 else 0) := by
    rw [order_map hr]
    refine List.map_congr_left fun j hj => ?_
    obtain ⟨e1, e2⟩ := hp j (List.mem_range.1 hj)
    rw [e1, e2]
    by_cases hf : r.flip (col r j) = true
    · simp only [hf, if_true]
      exact Nat.add_comm _ _
    · simp only [hf]
      rfl
  rw [h]
  exact (hr.map _).sum_eq

theorem set_cv (hr : r.Of n) (cfg : VCfg) (hn : cfg.nLits = n) (h0 : 0 < n) {c d : VClause} (h : CV r n c d) {x y : Mem}
    (hx : LitR r n x y) :
    CV r n (avxSetClause cfg x c) (avxSetClause cfg y d) ∧
    (cfg.budget.isSome = true → (avxSetClause cfg x c).out = 1 → (avxSetClause cfg y d).cnt = (avxSetClause cfg x c).cnt) := by
  obtain ⟨a1, a2, a3, a4, a5⟩ := avxSetClause_spec cfg x c (by omega)
  obtain ⟨b1, b2, b3, b4, b5⟩ := avxSetClause_spec cfg y d (by omega)
  rw [hn] at a2 a3 b2 b3
  have ho : (avxSetClause cfg y d).out = (avxSetClause cfg x c).out := by
    have := b2.trans ((ok_iff hr h.row hx).trans a2.symm)
    omega
  refine ⟨⟨by rw [a4, b4]; exact h.row, by rw [a5, b5]; exact h.w, ho⟩, fun hb h1 => ?_⟩
  rw [a3 hb h1, b3 hb (by omega), count_eq hr h.row]

theorem eval_cv (hr : r.Of n) (cfg : VCfg) (hn : cfg.nLits = n) (h0 : 0 < n) {c d : VClause} (h : CV r n c d) {x y : Mem}
    (hx : LitR r n x y) : CV r n (avxEvalClause cfg x c) (avxEvalClause cfg y d) := by
  obtain ⟨a1, a2, a3, a4, _⟩ := avxEvalClause_spec cfg x c (by omega)
  obtain ⟨b1, b2, b3, b4, _⟩ := avxEvalClause_spec cfg y d (by omega)
  rw [hn] at a2 b2
  rw [ok_iff hr h.row hx, nonempty_iff hr h.row] at b2
  have ho : (avxEvalClause cfg y d).out = (avxEvalClause cfg x c).out := by
    have := b2.trans a2.symm
    omega
  exact ⟨by rw [a3, b3]; exact h.row, by rw [a4, b4]; exact h.w, ho⟩

/-! ### The vector generator -/

/-- Vectors a Type I update takes. -/
def span (n : Nat) : Nat := 2 * (avxMem n / 32)

/-- The draws of the second generator: in each span, the byte for a literal is the one the first generator has for the same literal. -/
def vdraw (r : Recoding) (n p0 : Nat) (D : Nat → Nat → Byte) (q l : Nat) : Byte :=
  let s := (q - p0) % span n
  let a := s / 2 * 32 + l
  if p0 ≤ q ∧ a < n ∧ l < 32 then
    D (q - s + (2 * (col r a / 32) + if r.flip (col r a) then 1 - s % 2 else s % 2)) (col r a % 32)
  else D q l

def GenR (r : Recoding) (n : Nat) (g h : VRng) : Prop :=
  ∃ p0 t, g.pos = p0 + span n * t ∧ h = ⟨vdraw r n p0 g.draw, g.pos⟩

theorem gen_adv {g h : VRng} (hg : GenR r n g h) :
    GenR r n { g with pos := g.pos + 2 * (avxMem n / 32) } { h with pos := h.pos + 2 * (avxMem n / 32) } := by
  obtain ⟨p0, t, h1, rfl⟩ := hg
  exact ⟨p0, t + 1, by simp only [h1, span]; ring, rfl⟩

theorem gen_byte {g h : VRng} (hg : GenR r n g h) {j s : Nat} (hj : j < n) (hs : s < 2) :
    h.draw (h.pos + (2 * (j / 32) + s)) (j % 32) =
      g.draw (g.pos + (2 * (col r j / 32) + if r.flip (col r j) then 1 - s else s)) (col r j % 32) := by
  obtain ⟨p0, t, h1, rfl⟩ := hg
  have hm := avxMem_div n
  have hlt : 2 * (j / 32) + s < span n := by unfold span; omega
  have e1 : (g.pos + (2 * (j / 32) + s) - p0) % span n = 2 * (j / 32) + s := by
    rw [h1, show p0 + span n * t + (2 * (j / 32) + s) - p0 = 2 * (j / 32) + s + span n * t by omega, Nat.add_mul_mod_self_left,
      Nat.mod_eq_of_lt hlt]
  have e2 : (2 * (j / 32) + s) / 2 * 32 + j % 32 = j := by omega
  have e3 : (2 * (j / 32) + s) % 2 = s := by omega
  show vdraw r n p0 g.draw (g.pos + (2 * (j / 32) + s)) (j % 32) = _
  unfold vdraw
  simp only [e1, e2, e3]
  rw [if_pos ⟨by omega, hj, by omega⟩, show g.pos + (2 * (j / 32) + s) - (2 * (j / 32) + s) = g.pos by omega]

/-! ### Updates -/

theorem t1a_at (cfg : VCfg) (hn : cfg.nLits = n) (p x : Mem) (g : VRng) {j : Nat} (hj : j < n) :
    (avxT1a cfg p x g).1 j = t1aLane cfg.boost cfg.cmpS (x j == 1#8) (g.draw (g.pos + (2 * (j / 32) + 0)) (j % 32)) (p j) ∧
    (avxT1a cfg p x g).1 (avxMem n + j) =
      t1aLane cfg.boost cfg.cmpS (!(x j == 1#8)) (g.draw (g.pos + (2 * (j / 32) + 1)) (j % 32)) (p (avxMem n + j)) := by
  have hm := (avxMem_div n).2
  rw [avxT1a_eq]
  subst hn
  constructor
  · show (if j < avxMem cfg.nLits then _ else _) = _
    rw [if_pos (by omega)]
    rfl
  · show (if avxMem cfg.nLits + j < avxMem cfg.nLits then _ else if avxMem cfg.nLits + j < 2 * avxMem cfg.nLits then _ else _) = _
    rw [if_neg (by omega), if_pos (by omega), Nat.add_sub_cancel_left]
    rfl

theorem t1b_at (cfg : VCfg) (hn : cfg.nLits = n) (p : Mem) (g : VRng) {j : Nat} (hj : j < n) :
    (avxT1b cfg p g).1 j = t1bLane cfg.cmpS (g.draw (g.pos + (2 * (j / 32) + 0)) (j % 32)) (p j) ∧
    (avxT1b cfg p g).1 (avxMem n + j) = t1bLane cfg.cmpS (g.draw (g.pos + (2 * (j / 32) + 1)) (j % 32)) (p (avxMem n + j)) := by
  have hm := (avxMem_div n).2
  rw [avxT1b_eq]
  subst hn
  constructor
  · show (if j < avxMem cfg.nLits then _ else _) = _
    rw [if_pos (by omega)]
    rfl
  · show (if avxMem cfg.nLits + j < avxMem cfg.nLits then _ else if avxMem cfg.nLits + j < 2 * avxMem cfg.nLits then _ else _) = _
    rw [if_neg (by omega), if_pos (by omega), Nat.add_sub_cancel_left]
    rfl

theorem t2_at (cfg : VCfg) (hn : cfg.nLits = n) (p x : Mem) (g : VRng) {j : Nat} (hj : j < n) :
    (avxT2 cfg p x g).1 j = t2Lane (x j == 0#8) (p j) ∧
    (avxT2 cfg p x g).1 (avxMem n + j) = t2Lane (!(x j == 0#8)) (p (avxMem n + j)) := by
  have hm := (avxMem_div n).2
  rw [avxT2_eq]
  subst hn
  constructor
  · show (if j < avxMem cfg.nLits then _ else _) = _
    rw [if_pos (by omega)]
  · show (if avxMem cfg.nLits + j < avxMem cfg.nLits then _ else if avxMem cfg.nLits + j < 2 * avxMem cfg.nLits then _ else _) = _
    rw [if_neg (by omega), if_pos (by omega), Nat.add_sub_cancel_left]

theorem t1a_row (hr : r.Of n) (cfg : VCfg) (hn : cfg.nLits = n) {p q x y : Mem} (hp : RowR r n p q) (hx : LitR r n x y) {g h : VRng}
    (hg : GenR r n g h) :
    RowR r n (avxT1a cfg p x g).1 (avxT1a cfg q y h).1 ∧ GenR r n (avxT1a cfg p x g).2 (avxT1a cfg q y h).2 := by
  refine ⟨fun j hj => ?_, by rw [avxT1a_eq, avxT1a_eq, hn]; exact gen_adv hg⟩
  obtain ⟨a1, a2⟩ := t1a_at cfg hn q y h hj
  obtain ⟨b1, b2⟩ := t1a_at cfg hn p x g (col_lt hr hj)
  obtain ⟨e1, e2⟩ := hp j hj
  rw [a1, a2, b1, b2, gen_byte hg hj (by omega), gen_byte hg hj (by omega), lit_one hx hj, e1, e2]
  by_cases hf : r.flip (col r j) = true
  · simp only [hf, if_true, Nat.sub_zero, Nat.sub_self, Bool.not_not]
    exact ⟨trivial, trivial⟩
  · simp only [hf]
    exact ⟨rfl, rfl⟩

theorem t1b_row (hr : r.Of n) (cfg : VCfg) (hn : cfg.nLits = n) {p q : Mem} (hp : RowR r n p q) {g h : VRng}
    (hg : GenR r n g h) :
    RowR r n (avxT1b cfg p g).1 (avxT1b cfg q h).1 ∧ GenR r n (avxT1b cfg p g).2 (avxT1b cfg q h).2 := by
  refine ⟨fun j hj => ?_, by rw [avxT1b_eq, avxT1b_eq, hn]; exact gen_adv hg⟩
  obtain ⟨a1, a2⟩ := t1b_at cfg hn q h hj
  obtain ⟨b1, b2⟩ := t1b_at cfg hn p g (col_lt hr hj)
  obtain ⟨e1, e2⟩ := hp j hj
  rw [a1, a2, b1, b2, gen_byte hg hj (by omega), gen_byte hg hj (by omega), e1, e2]
  by_cases hf : r.flip (col r j) = true
  · simp only [hf, if_true, Nat.sub_zero, Nat.sub_self]
    exact ⟨trivial, trivial⟩
  · simp only [hf]
    exact ⟨rfl, rfl⟩

theorem t2_row (hr : r.Of n) (cfg : VCfg) (hn : cfg.nLits = n) {p q x y : Mem} (hp : RowR r n p q) (hx : LitR r n x y) {g h : VRng}
    (hg : GenR r n g h) :
    RowR r n (avxT2 cfg p x g).1 (avxT2 cfg q y h).1 ∧ GenR r n (avxT2 cfg p x g).2 (avxT2 cfg q y h).2 := by
  refine ⟨fun j hj => ?_, by rw [avxT2_eq, avxT2_eq]; exact hg⟩
  obtain ⟨a1, a2⟩ := t2_at cfg hn q y h hj
  obtain ⟨b1, b2⟩ := t2_at cfg hn p x g (col_lt hr hj)
  obtain ⟨e1, e2⟩ := hp j hj
  rw [a1, a2, b1, b2, lit_zero hx hj, e1, e2]
  by_cases hf : r.flip (col r j) = true
  · simp only [hf, if_true, Bool.not_not]
    exact ⟨trivial, trivial⟩
  · simp only [hf]
    exact ⟨rfl, rfl⟩

theorem update_cv (hr : r.Of n) (cfg : VCfg) (hn : cfg.nLits = n) {x y : Mem} (hx : LitR r n x y) (k : Nat) (t : Int)
    {c d : VClause} (h : CV r n c d) {g g' : VRng} (hg : GenR r n g g') :
    CV r n (avxClauseUpdate cfg x k t c g).1 (avxClauseUpdate cfg y k t d g').1 ∧
    GenR r n (avxClauseUpdate cfg x k t c g).2 (avxClauseUpdate cfg y k t d g').2 := by
  obtain ⟨h1, h2, h3⟩ := h
  unfold avxClauseUpdate
  simp only [h2, h3]
  generalize (if c.w.getD k 0 ≥ 0 then (1 : Int) else -1) = sg
  by_cases c1 : t * sg > 0
  · simp only [if_pos c1]
    by_cases c2 : c.out = 1
    · simp only [if_pos c2]
      obtain ⟨a, b⟩ := t1a_row hr cfg hn h1 hx hg
      exact ⟨⟨a, rfl, rfl⟩, b⟩
    · simp only [if_neg c2]
      obtain ⟨a, b⟩ := t1b_row hr cfg hn h1 hg
      exact ⟨⟨a, rfl, rfl⟩, b⟩
  · simp only [if_neg c1]
    by_cases c2 : t * sg < 0 ∧ c.out = 1
    · simp only [if_pos c2]
      obtain ⟨a, b⟩ := t2_row hr cfg hn h1 hx hg
      exact ⟨⟨a, rfl, rfl⟩, b⟩
    · simp only [if_neg c2]
      exact ⟨⟨h1, h2, h3⟩, hg⟩

/-- Clauses after their output was set: the literal counts agree where they matter. -/
def Set (r : Recoding) (n : Nat) (cfg : VCfg) (c d : VClause) : Prop :=
  CV r n c d ∧ (c.out = 0 ∨ c.out = 1) ∧ (cfg.budget.isSome = true → c.out = 1 → d.cnt = c.cnt)

theorem gate_cv (cfg : VCfg) {c d : VClause} (h : Set r n cfg c d) : CV r n (avxBudgetGate cfg c) (avxBudgetGate cfg d) := by
  obtain ⟨h1, h2, h3⟩ := h
  unfold avxBudgetGate
  cases hb : cfg.budget with
  | none => exact h1
  | some b =>
    rw [hb] at h3
    show CV r n (if c.cnt > b then _ else _) (if d.cnt > b then _ else _)
    rcases h2 with h2 | h2
    · have hc : (if c.cnt > b then { c with out := 0 } else c : VClause).out = 0 := by split <;> simp [h2]
      have hd : (if d.cnt > b then { d with out := 0 } else d : VClause).out = 0 := by split <;> simp [h1.out, h2]
      refine ⟨?_, ?_, hd.trans hc.symm⟩
      · split <;> split <;> exact h1.row
      · split <;> split <;> exact h1.w
    · rw [h3 rfl h2]
      split
      · exact ⟨h1.row, h1.w, rfl⟩
      · exact h1

theorem trainClause_cv (hr : r.Of n) (cfg : VCfg) (hn : cfg.nLits = n) {x y : Mem} (hx : LitR r n x y) (fb : Feedback)
    {c d : VClause} (h : Set r n cfg c d) (fast : Rng) {g g' : VRng} (hg : GenR r n g g') :
    CV r n (avxTrainClause cfg x fb c fast g).1 (avxTrainClause cfg y fb d fast g').1 ∧
    (avxTrainClause cfg y fb d fast g').2.1 = (avxTrainClause cfg x fb c fast g).2.1 ∧
    GenR r n (avxTrainClause cfg x fb c fast g).2.2 (avxTrainClause cfg y fb d fast g').2.2 := by
  have h0 := gate_cv cfg h
  unfold avxTrainClause
  simp only
  have h1 : CV r n (if fast.next.1 < fb.posProb then avxClauseUpdate cfg x fb.posClass 1 (avxBudgetGate cfg c) g else (avxBudgetGate cfg c, g)).1
        (if fast.next.1 < fb.posProb then avxClauseUpdate cfg y fb.posClass 1 (avxBudgetGate cfg d) g' else (avxBudgetGate cfg d, g')).1 ∧
      GenR r n (if fast.next.1 < fb.posProb then avxClauseUpdate cfg x fb.posClass 1 (avxBudgetGate cfg c) g else (avxBudgetGate cfg c, g)).2
        (if fast.next.1 < fb.posProb then avxClauseUpdate cfg y fb.posClass 1 (avxBudgetGate cfg d) g' else (avxBudgetGate cfg d, g')).2 := by
    split
    · exact update_cv hr cfg hn hx _ _ h0 hg
    · exact ⟨h0, hg⟩
  obtain ⟨h1, h2⟩ := h1
  generalize (if fast.next.1 < fb.posProb then avxClauseUpdate cfg x fb.posClass 1 (avxBudgetGate cfg c) g else (avxBudgetGate cfg c, g)) = u
    at h1 h2 ⊢
  generalize (if fast.next.1 < fb.posProb then avxClauseUpdate cfg y fb.posClass 1 (avxBudgetGate cfg d) g' else (avxBudgetGate cfg d, g')) = v
    at h1 h2 ⊢
  split
  · obtain ⟨a, b⟩ := update_cv hr cfg hn hx fb.negClass (-1) h1 h2
    exact ⟨a, trivial, b⟩
  · exact ⟨h1, trivial, h2⟩

theorem trainClauses_cv (hr : r.Of n) (cfg : VCfg) (hn : cfg.nLits = n) {x y : Mem} (hx : LitR r n x y) (fb : Feedback)
    {cs ds : List VClause} (h : List.Forall₂ (Set r n cfg) cs ds) (fast : Rng) {g g' : VRng} (hg : GenR r n g g') :
    List.Forall₂ (CV r n) (avxTrainClauses cfg x fb cs fast g).1 (avxTrainClauses cfg y fb ds fast g').1 ∧
    (avxTrainClauses cfg y fb ds fast g').2.1 = (avxTrainClauses cfg x fb cs fast g).2.1 ∧
    GenR r n (avxTrainClauses cfg x fb cs fast g).2.2 (avxTrainClauses cfg y fb ds fast g').2.2 := by
  induction h generalizing fast g g' with
  | nil => exact ⟨.nil, rfl, hg⟩
  | cons h _ ih =>
    obtain ⟨a1, a2, a3⟩ := trainClause_cv hr cfg hn hx fb h fast hg
    simp only [avxTrainClauses, a2]
    obtain ⟨b1, b2, b3⟩ := ih _ a3
    exact ⟨.cons a1 b1, b2, b3⟩

theorem votes_cv (k : Nat) {cs ds : List VClause} (h : List.Forall₂ (CV r n) cs ds) : avxCountVotes k ds = avxCountVotes k cs := by
  unfold avxCountVotes
  generalize List.replicate k (0 : Int) = v
  induction h generalizing v with
  | nil => rfl
  | cons h _ ih =>
    simp only [List.foldl_cons, h.out, h.w]
    exact ih _

/-! ### Blocks and machines -/

structure BV (r : Recoding) (n : Nat) (b d : VBlock) : Prop where
  nLits    : b.cfg.nLits = n
  cfg      : d.cfg = b.cfg
  nClasses : d.nClasses = b.nClasses
  votes    : d.votes = b.votes
  fast     : d.fast = b.fast
  vrng     : GenR r n b.vrng d.vrng
  clauses  : List.Forall₂ (CV r n) b.clauses d.clauses

theorem train_bv (hr : r.Of n) (h0 : 0 < n) {b d : VBlock} (h : BV r n b d) {x y : Mem} (hx : LitR r n x y) :
    BV r n (b.apply (.trainExample x)) (d.apply (.trainExample y)) ∧
    List.Forall₂ (Set r n b.cfg) (b.apply (.trainExample x)).clauses (d.apply (.trainExample y)).clauses := by
  have hs : List.Forall₂ (Set r n b.cfg) (b.clauses.map (avxSetClause b.cfg x)) (d.clauses.map (avxSetClause b.cfg y)) := by
    rw [List.forall₂_map_left_iff, List.forall₂_map_right_iff]
    refine h.clauses.imp fun c d hc => ?_
    obtain ⟨a, b⟩ := set_cv hr _ h.nLits h0 hc hx
    exact ⟨a, (avxSetClause_spec _ x c (by rw [h.nLits]; exact h0)).1, b⟩
  have hc : List.Forall₂ (CV r n) (b.clauses.map (avxSetClause b.cfg x)) (d.clauses.map (avxSetClause b.cfg y)) := hs.imp fun _ _ h => h.1
  simp only [VBlock.apply, h.cfg, h.nClasses]
  exact ⟨⟨h.nLits, rfl, rfl, votes_cv _ hc, h.fast, h.vrng, hc⟩, hs⟩

theorem eval_bv (hr : r.Of n) (h0 : 0 < n) {b d : VBlock} (h : BV r n b d) {x y : Mem} (hx : LitR r n x y) :
    BV r n (b.apply (.evalExample x)) (d.apply (.evalExample y)) := by
  have hc : List.Forall₂ (CV r n) (b.clauses.map (avxEvalClause b.cfg x)) (d.clauses.map (avxEvalClause b.cfg y)) := by
    rw [List.forall₂_map_left_iff, List.forall₂_map_right_iff]
    exact h.clauses.imp fun c d hc => eval_cv hr _ h.nLits h0 hc hx
  simp only [VBlock.apply, h.cfg, h.nClasses]
  exact ⟨h.nLits, rfl, rfl, votes_cv _ hc, h.fast, h.vrng, hc⟩

theorem step_bv (hr : r.Of n) (h0 : 0 < n) {b d : VBlock} (h : BV r n b d) {x y : Mem} (hx : LitR r n x y) (fb : Feedback) :
    BV r n ((b.apply (.trainExample x)).apply (.trainUpdate x fb)) ((d.apply (.trainExample y)).apply (.trainUpdate y fb)) := by
  obtain ⟨h1, h2⟩ := train_bv hr h0 h hx
  have hcfg : (b.apply (.trainExample x)).cfg = b.cfg := rfl
  generalize b.apply (.trainExample x) = b' at h1 h2 hcfg ⊢
  generalize d.apply (.trainExample y) = d' at h1 h2 ⊢
  obtain ⟨a1, a2, a3⟩ := trainClauses_cv hr b.cfg h.nLits hx fb h2 b'.fast h1.vrng
  simp only [VBlock.apply, h1.cfg, hcfg, h1.fast]
  exact ⟨h.nLits, rfl, h1.nClasses, h1.votes, a2, a3, a1⟩

/-- A backend that reads its examples out of something else. -/
def on {B E F : Type} (be : Backend B E) (f : F → E) : Backend B F :=
  ⟨fun b x => be.trainExample b (f x), fun b x => be.evalExample b (f x), fun b x fb => be.trainUpdate b (f x) fb, be.votes, be.trainable⟩

theorem run_on {B E F : Type} (be : Backend B E) (f : F → E) (smp : List Rat → Rat → Nat) (cs : List (F × Option Nat)) (e : Exec B) :
    runCalls (on be f) smp cs e = runCalls be smp (cs.map fun c => (f c.1, c.2)) e := by
  induction cs generalizing e with
  | nil => rfl
  | cons c cs ih =>
    obtain ⟨x, l⟩ := c
    cases l with
    | none =>
      simp only [runCalls, List.map_cons, ih]
      rfl
    | some y =>
      simp only [runCalls, List.map_cons, ih]
      rfl

theorem sim (hr : r.Of n) (h0 : 0 < n) : OnePatch.Sim (on avxBackend (Prod.fst : Mem × Mem → Mem)) (on avxBackend Prod.snd)
    (fun _ x => LitR r n x.1 x.2) (BV r n) where
  trainVotes := fun _ _ _ h hx => (train_bv hr h0 h hx).1.votes.symm
  trainStep := fun _ _ _ fb h hx => step_bv hr h0 h hx fb
  evalVotes := fun _ _ _ h hx => (eval_bv hr h0 h hx).votes.symm
  evalStep := fun _ _ _ h hx => eval_bv hr h0 h hx
  okTrain := fun _ _ _ _ h => h
  okEval := fun _ _ _ h => h
  left := fun _ => rfl
  right := fun _ => rfl

/-! ### The bytes are reordered -/

def slots (m : Nat) : List (Nat × Nat) := (List.range m).flatMap fun i => (List.range 32).map fun l => (i, l)

theorem mem_slots {m : Nat} {p : Nat × Nat} : p ∈ slots m ↔ p.1 < m ∧ p.2 < 32 := by
  obtain ⟨i, l⟩ := p
  simp [slots]

theorem slots_nodup (m : Nat) : (slots m).Nodup := by
  unfold slots
  rw [List.nodup_flatMap]
  refine ⟨fun i _ => (List.nodup_range).map fun a b h => by simpa using h, ?_⟩
  refine (List.nodup_range (n := m)).imp_of_mem ?_ |> fun h => h
  intro i j _ _ hij p h1 h2
  simp only [List.mem_map] at h1 h2
  obtain ⟨_, _, rfl⟩ := h1
  obtain ⟨_, _, h⟩ := h2
  simp only [Prod.mk.injEq] at h
  exact hij h.1.symm

/-- Where the second generator takes the byte of a slot from. -/
def slot (r : Recoding) (n : Nat) (p : Nat × Nat) : Nat × Nat :=
  let s := p.1 % span n
  let a := s / 2 * 32 + p.2
  if a < n then (p.1 - s + (2 * (col r a / 32) + if r.flip (col r a) then 1 - s % 2 else s % 2), col r a % 32) else p

theorem bytes_slots (g : VRng) (m : Nat) : vectorBytes 32 g m = (slots m).map fun p => g.draw (g.pos + p.1) p.2 := by
  simp [vectorBytes, slots, List.map_flatMap, Function.comp_def]

/-- A slot stays in its window, and its place there tells its literal. -/
theorem slot_spec (hr : r.Of n) {p : Nat × Nat} (hp : p.2 < 32) :
    ∃ u l, slot r n p = (span n * (p.1 / span n) + u, l) ∧ (0 < n → u < span n) ∧ l < 32 ∧
      (p.1 % span n / 2 * 32 + p.2 < n → u / 2 * 32 + l = col r (p.1 % span n / 2 * 32 + p.2) ∧
        u % 2 = if r.flip (col r (p.1 % span n / 2 * 32 + p.2)) then 1 - p.1 % span n % 2 else p.1 % span n % 2) ∧
      (¬ p.1 % span n / 2 * 32 + p.2 < n → u = p.1 % span n ∧ l = p.2) := by
  have hd := Nat.div_add_mod p.1 (span n)
  unfold slot
  generalize hs : p.1 % span n = s at hd ⊢
  generalize ha : s / 2 * 32 + p.2 = a
  by_cases h : a < n
  · have hc := col_lt hr h
    have hm := avxMem_div n
    refine ⟨2 * (col r a / 32) + (if r.flip (col r a) then 1 - s % 2 else s % 2), col r a % 32, ?_, fun _ => ?_, by omega,
      fun _ => ?_, fun h' => absurd h h'⟩
    · simp only [ha, if_pos h]
      rw [show p.1 - s = span n * (p.1 / span n) by omega]
    · unfold span
      split <;> omega
    · split <;> omega
  · refine ⟨s, p.2, ?_, fun h0 => ?_, hp, fun h' => absurd h' h, fun _ => ⟨rfl, rfl⟩⟩
    · simp only [ha, if_neg h]
      rw [hd]
    · rw [← hs]
      have hm := avxMem_div n
      exact Nat.mod_lt _ (by unfold span; omega)

theorem slots_perm (hr : r.Of n) (h0 : 0 < n) (k : Nat) : ((slots (span n * k)).map (slot r n)).Perm (slots (span n * k)) := by
  have hm := avxMem_div n
  have hK : 0 < span n := by unfold span; omega
  have hin : ∀ p ∈ slots (span n * k), slot r n p ∈ slots (span n * k) := by
    intro p hp
    obtain ⟨h1, h2⟩ := mem_slots.1 hp
    obtain ⟨u, l, e, hu, hl, -, -⟩ := slot_spec hr h2
    rw [e, mem_slots]
    refine ⟨?_, hl⟩
    have : p.1 / span n < k := (Nat.div_lt_iff_lt_mul hK).2 (by rw [Nat.mul_comm]; exact h1)
    calc span n * (p.1 / span n) + u < span n * (p.1 / span n) + span n := by have := hu h0; omega
      _ = span n * (p.1 / span n + 1) := by ring
      _ ≤ span n * k := Nat.mul_le_mul_left _ this
  have hnd : ((slots (span n * k)).map (slot r n)).Nodup := by
    rw [List.nodup_map_iff_inj_on (slots_nodup _)]
    intro p hp q hq h
    have hp2 := (mem_slots.1 hp).2
    have hq2 := (mem_slots.1 hq).2
    obtain ⟨u, l, e, hu, hl, h1, h2⟩ := slot_spec hr hp2
    obtain ⟨v, l', e', hv, hl', h1', h2'⟩ := slot_spec hr hq2
    rw [e, e', Prod.mk.injEq] at h
    obtain ⟨ha, hb⟩ := h
    have hw : p.1 / span n = q.1 / span n := by
      have := congrArg (· / span n) ha
      simpa only [Nat.mul_add_div hK, Nat.div_eq_of_lt (hu h0), Nat.div_eq_of_lt (hv h0), Nat.add_zero] using this
    have huv : u = v := by rw [hw] at ha; omega
    subst huv
    subst hb
    have dp := Nat.div_add_mod p.1 (span n)
    have dq := Nat.div_add_mod q.1 (span n)
    rw [hw] at dp
    generalize p.1 % span n = s at dp h1 h2
    generalize q.1 % span n = s' at dq h1' h2'
    have key : s = s' ∧ p.2 = q.2 := by
      by_cases c1 : s / 2 * 32 + p.2 < n <;> by_cases c2 : s' / 2 * 32 + q.2 < n
      · obtain ⟨a1, a2⟩ := h1 c1
        obtain ⟨b1, b2⟩ := h1' c2
        have hab := col_inj hr c1 c2 (a1.symm.trans b1)
        rw [hab] at a2
        by_cases hf : r.flip (col r (s' / 2 * 32 + q.2)) = true
        · rw [if_pos hf] at a2 b2
          omega
        · rw [if_neg hf] at a2 b2
          omega
      · obtain ⟨a1, a2⟩ := h1 c1
        obtain ⟨b1, b2⟩ := h2' c2
        have := col_lt hr c1
        omega
      · obtain ⟨a1, a2⟩ := h2 c1
        obtain ⟨b1, b2⟩ := h1' c2
        have := col_lt hr c2
        omega
      · obtain ⟨a1, a2⟩ := h2 c1
        obtain ⟨b1, b2⟩ := h2' c2
        omega
    exact Prod.ext (by omega) key.2
  exact (List.subperm_of_subset hnd fun p hp => by
    obtain ⟨q, hq, rfl⟩ := List.mem_map.1 hp
    exact hin q hq).perm_of_length_le (by simp)

/-- The second generator. -/
def regen (r : Recoding) (n : Nat) (g : VRng) : VRng := ⟨vdraw r n g.pos g.draw, g.pos⟩

theorem regen_genR (g : VRng) : GenR r n g (regen r n g) := ⟨g.pos, 0, by simp, rfl⟩

theorem regen_perm (hr : r.Of n) (h0 : 0 < n) (g : VRng) : ReshuffledBytes 32 g (regen r n g) := by
  intro k
  have hm := avxMem_div n
  have hK : 0 < span n := by unfold span; omega
  refine ⟨span n * k, Nat.le_mul_of_pos_left _ hK, ?_⟩
  rw [bytes_slots, bytes_slots]
  have e : ((slots (span n * k)).map fun p => (regen r n g).draw ((regen r n g).pos + p.1) p.2) =
      ((slots (span n * k)).map (slot r n)).map fun p => g.draw (g.pos + p.1) p.2 := by
    rw [List.map_map]
    refine List.map_congr_left fun p hp => ?_
    obtain ⟨h1, h2⟩ := mem_slots.1 hp
    show vdraw r n g.pos g.draw (g.pos + p.1) p.2 = g.draw (g.pos + (slot r n p).1) (slot r n p).2
    have hle := Nat.mod_le p.1 (span n)
    unfold vdraw slot
    simp only [Nat.add_sub_cancel_left]
    by_cases h : p.1 % span n / 2 * 32 + p.2 < n
    · rw [if_pos ⟨by omega, h, h2⟩, if_pos h]
      congr 1
      omega
    · rw [if_neg (fun hc => h hc.2.1), if_neg h]
  rw [e]
  exact (slots_perm hr h0 k).map _

theorem bv_of (hr : r.Of n) {b d : VBlock} (hn : b.cfg.nLits = n) (h : r.AvxBlock n b (regen r n b.vrng) d) : BV r n b d := by
  refine ⟨hn, h.cfg, h.nClasses, h.votes, h.fast, by rw [h.vrng]; exact regen_genR _, ?_⟩
  have hc := h.clauses
  generalize b.clauses = cs at hc
  generalize d.clauses = ds at hc
  induction cs generalizing ds with
  | nil =>
    cases ds with
    | nil => exact .nil
    | cons _ _ => simp at hc
  | cons c cs ih =>
    cases ds with
    | nil => simp at hc
    | cons d ds =>
      simp only [List.map_cons, List.cons.injEq] at hc
      exact .cons ((cv_iff hr c d).2 hc.1) (ih ds hc.2)

theorem same_of (hr : r.Of n) {b d : VBlock} (h : BV r n b d) : SameRecodedAvx r n b d := by
  refine ⟨?_, h.votes⟩
  have hc := h.clauses
  generalize b.clauses = cs at hc
  generalize d.clauses = ds at hc
  induction hc with
  | nil => rfl
  | cons h _ ih => simp only [List.map_cons, ih, (cv_iff hr _ _).1 h]

theorem pairs {cs cs' : List (Mem × Option Nat)} (h : List.Forall₂ (r.AvxCall n) cs cs') :
    ∃ zs : List ((Mem × Mem) × Option Nat), zs.map (fun c => (c.1.1, c.2)) = cs ∧ zs.map (fun c => (c.1.2, c.2)) = cs' ∧
      ∀ c ∈ zs, unpadExample n c.1.2 = r.lits (unpadExample n c.1.1) := by
  induction h with
  | nil => exact ⟨[], rfl, rfl, by simp⟩
  | cons h _ ih =>
    rename_i c c' _ _ _
    obtain ⟨zs, h1, h2, h3⟩ := ih
    refine ⟨((c.1, c'.1), c.2) :: zs, by simp [h1], by simp [h2, ← h.2], ?_⟩
    intro z hz
    rcases List.mem_cons.1 hz with rfl | hz
    · exact h.1
    · exact h3 z hz

theorem run_bv (hr : r.Of n) (h0 : 0 < n) (smp : List Rat → Rat → Nat) {cs cs' : List (Mem × Option Nat)}
    (hc : List.Forall₂ (r.AvxCall n) cs cs') (hx : ∀ c ∈ cs, Binary (unpadExample n c.1)) (e d : Exec VBlock) (hf : d.fb = e.fb)
    (hb : List.Forall₂ (BV r n) e.blocks d.blocks) :
    (runCalls avxBackend smp cs' d).2 = (runCalls avxBackend smp cs e).2 ∧
    (runCalls avxBackend smp cs' d).1.fb = (runCalls avxBackend smp cs e).1.fb ∧
    List.Forall₂ (BV r n) (runCalls avxBackend smp cs e).1.blocks (runCalls avxBackend smp cs' d).1.blocks := by
  obtain ⟨zs, rfl, rfl, h3⟩ := pairs hc
  have h := OnePatch.run_sim (sim hr h0) smp zs e d hf hb fun _ _ c hc' =>
    lit_of hr (hx (c.1.1, c.2) (List.mem_map.2 ⟨c, hc', rfl⟩)) (h3 c hc')
  rw [run_on, run_on] at h
  exact h

/-! ### The start -/

/-- Where the second generator takes the number of a place from: within the `T` numbers of the rows, from the place of the same literal. -/
def place (r : Recoding) (n T i : Nat) : Nat :=
  let s := i % (2 * n)
  if i < T then i - s + (2 * col r (s / 2) + if r.flip (col r (s / 2)) then 1 - s % 2 else s % 2) else i

theorem place_spec (hr : r.Of n) (h0 : 0 < n) {T i : Nat} (h : i < T) :
    ∃ u, place r n T i = 2 * n * (i / (2 * n)) + u ∧ u < 2 * n ∧ u / 2 = col r (i % (2 * n) / 2) ∧
      u % 2 = if r.flip (col r (i % (2 * n) / 2)) then 1 - i % (2 * n) % 2 else i % (2 * n) % 2 := by
  have hd := Nat.div_add_mod i (2 * n)
  have hlt := Nat.mod_lt i (show 0 < 2 * n by omega)
  unfold place
  generalize i % (2 * n) = s at hd hlt ⊢
  have hc := col_lt hr (show s / 2 < n by omega)
  refine ⟨2 * col r (s / 2) + (if r.flip (col r (s / 2)) then 1 - s % 2 else s % 2), ?_, ?_, ?_, ?_⟩
  · simp only [if_pos h]
    rw [show i - s = 2 * n * (i / (2 * n)) by omega]
  all_goals split <;> omega

theorem place_lt (hr : r.Of n) (h0 : 0 < n) (k : Nat) {i : Nat} (h : i < k * (2 * n)) : place r n (k * (2 * n)) i < k * (2 * n) := by
  obtain ⟨u, e, hu, -, -⟩ := place_spec hr h0 h
  rw [e]
  have : i / (2 * n) < k := (Nat.div_lt_iff_lt_mul (by omega)).2 h
  calc 2 * n * (i / (2 * n)) + u < 2 * n * (i / (2 * n)) + 2 * n := by omega
    _ = (i / (2 * n) + 1) * (2 * n) := by ring
    _ ≤ k * (2 * n) := Nat.mul_le_mul_right _ this

theorem place_perm (hr : r.Of n) (h0 : 0 < n) (k m : Nat) (hm : k * (2 * n) ≤ m) :
    ((List.range m).map (place r n (k * (2 * n)))).Perm (List.range m) := by
  have hge : ∀ i, ¬ i < k * (2 * n) → place r n (k * (2 * n)) i = i := fun i h => by
    unfold place
    simp only [if_neg h]
  have hnd : ((List.range m).map (place r n (k * (2 * n)))).Nodup := by
    rw [List.nodup_map_iff_inj_on List.nodup_range]
    intro i _ j _ h
    by_cases c1 : i < k * (2 * n) <;> by_cases c2 : j < k * (2 * n)
    · obtain ⟨u, e, hu, h1, h2⟩ := place_spec hr h0 c1
      obtain ⟨v, e', hv, h1', h2'⟩ := place_spec hr h0 c2
      rw [e, e'] at h
      have hw : i / (2 * n) = j / (2 * n) := by
        have := congrArg (· / (2 * n)) h
        simpa only [Nat.mul_add_div (show 0 < 2 * n by omega), Nat.div_eq_of_lt hu, Nat.div_eq_of_lt hv, Nat.add_zero] using this
      have huv : u = v := by rw [hw] at h; omega
      subst huv
      have di := Nat.div_add_mod i (2 * n)
      have dj := Nat.div_add_mod j (2 * n)
      have li := Nat.mod_lt i (show 0 < 2 * n by omega)
      have lj := Nat.mod_lt j (show 0 < 2 * n by omega)
      rw [hw] at di
      generalize i % (2 * n) = s at di li h1 h2
      generalize j % (2 * n) = s' at dj lj h1' h2'
      have hab := col_inj hr (show s / 2 < n by omega) (show s' / 2 < n by omega) (h1.symm.trans h1')
      rw [hab] at h2
      have : s = s' := by
        by_cases hf : r.flip (col r (s' / 2)) = true
        · rw [if_pos hf] at h2 h2'
          omega
        · rw [if_neg hf] at h2 h2'
          omega
      omega
    · have := place_lt hr h0 k c1
      rw [h, hge j c2] at this
      exact absurd this c2
    · have := place_lt hr h0 k c2
      rw [← h, hge i c1] at this
      exact absurd this c1
    · rw [hge i c1, hge j c2] at h
      exact h
  refine (List.subperm_of_subset hnd fun p hp => ?_).perm_of_length_le (by simp)
  obtain ⟨i, hi, rfl⟩ := List.mem_map.1 hp
  simp only [List.mem_range] at hi ⊢
  by_cases c : i < k * (2 * n)
  · have := place_lt hr h0 k c
    omega
  · rw [hge i c]
    exact hi

/-- The generator for allocating the recoded block. -/
def restart (r : Recoding) (n T : Nat) (g : Rng) : Rng := ⟨fun q => if g.pos ≤ q then g.draw (g.pos + place r n T (q - g.pos)) else g.draw q, g.pos⟩

theorem restart_draw (T : Nat) (g : Rng) (i : Nat) :
    (restart r n T g).draw ((restart r n T g).pos + i) = g.draw (g.pos + place r n T i) := by
  show (if g.pos ≤ g.pos + i then _ else _) = _
  rw [if_pos (by omega), show (restart r n T g).pos + i - g.pos = i from Nat.add_sub_cancel_left ..]

theorem restart_perm (hr : r.Of n) (h0 : 0 < n) (k : Nat) (g : Rng) : Reshuffled g (restart r n (k * (2 * n)) g) := by
  intro j
  refine ⟨k * (2 * n) + j, by omega, ?_⟩
  have e : numbers (restart r n (k * (2 * n)) g) (k * (2 * n) + j) =
      ((List.range (k * (2 * n) + j)).map (place r n (k * (2 * n)))).map fun i => g.draw (g.pos + i) := by
    unfold numbers
    rw [List.map_map]
    exact List.map_congr_left fun i _ => restart_draw _ g i
  rw [e]
  exact (place_perm hr h0 k _ (by omega)).map _

theorem weights_congr (nc k : Nat) (g h : Rng) (hg : ∀ i, h.draw (h.pos + i) = g.draw (g.pos + i)) :
    (initAllWeights nc k h).1 = (initAllWeights nc k g).1 := by
  obtain ⟨-, a2, a3⟩ := Start.allWeights_spec nc k g
  obtain ⟨-, b2, b3⟩ := Start.allWeights_spec nc k h
  apply List.ext_getElem?
  intro j
  by_cases hj : j < k
  · obtain ⟨w, w1, w2, w3⟩ := a3 j hj
    obtain ⟨v, v1, v2, v3⟩ := b3 j hj
    rw [w1, v1]
    congr 1
    apply List.ext_getElem?
    intro i
    by_cases hi : i < nc
    · rw [w3 i hi, v3 i hi, hg]
    · rw [List.getElem?_eq_none (by omega), List.getElem?_eq_none (by omega)]
  · rw [List.getElem?_eq_none (by omega), List.getElem?_eq_none (by omega)]

theorem start (h0 : 0 < n) (hr : r.Of n) (nClauses nClasses : Nat) (cfg : VCfg) (hn : cfg.nLits = n)
    (fastOf : Nat → Rng) (vrngOf : Nat → VRng) (junk : Nat → Mem) (junkCnt : Nat → Nat) (seed : Nat) (b : VBlock)
    (h : avxInit nClauses nClasses cfg fastOf vrngOf junk junkCnt seed = some b) :
    ∃ fast, Reshuffled (fastOf seed) fast ∧ ∀ g, ∃ d,
      avxInit nClauses nClasses cfg (fun _ => fast) (fun _ => g) junk junkCnt seed = some d ∧
      r.AvxBlock n b g { d with fast := b.fast } ∧ ∀ k, numbers d.fast k = numbers b.fast k := by
  subst hn
  unfold avxInit at h
  by_cases hs : seed = 0
  · rw [if_pos hs] at h; cases h
  rw [if_neg hs] at h
  obtain rfl := Option.some.inj h
  generalize fastOf seed = f
  have hm := avxMem_div cfg.nLits
  refine ⟨restart r cfg.nLits (nClauses * (2 * cfg.nLits)) f, restart_perm hr h0 nClauses f, fun g => ⟨_, by rw [avxInit, if_neg hs], ?_⟩⟩
  obtain ⟨a1, a2, a3⟩ := Start.avxRows_spec cfg.nLits junk hm.2 nClauses f
  obtain ⟨b1, b2, b3⟩ := Start.avxRows_spec cfg.nLits junk hm.2 nClauses (restart r cfg.nLits (nClauses * (2 * cfg.nLits)) f)
  have hd : ∀ i, (avxInitRows cfg.nLits junk nClauses (restart r cfg.nLits (nClauses * (2 * cfg.nLits)) f)).2.draw
      ((avxInitRows cfg.nLits junk nClauses (restart r cfg.nLits (nClauses * (2 * cfg.nLits)) f)).2.pos + i) =
      (avxInitRows cfg.nLits junk nClauses f).2.draw ((avxInitRows cfg.nLits junk nClauses f).2.pos + i) := by
    intro i
    rw [a1, b1]
    show (restart r cfg.nLits (nClauses * (2 * cfg.nLits)) f).draw
      ((restart r cfg.nLits (nClauses * (2 * cfg.nLits)) f).pos + nClauses * (2 * cfg.nLits) + i) = f.draw (f.pos + nClauses * (2 * cfg.nLits) + i)
    rw [Nat.add_assoc, restart_draw, Nat.add_assoc]
    unfold place
    simp only
    rw [if_neg (by omega)]
  have hw := weights_congr nClasses nClauses _ _ hd
  obtain ⟨c1, c2, -⟩ := Start.allWeights_spec nClasses nClauses (avxInitRows cfg.nLits junk nClauses f).2
  obtain ⟨d1, -, -⟩ := Start.allWeights_spec nClasses nClauses
    (avxInitRows cfg.nLits junk nClauses (restart r cfg.nLits (nClauses * (2 * cfg.nLits)) f)).2
  refine ⟨⟨rfl, rfl, rfl, rfl, rfl, ?_⟩, ?_⟩
  · simp only [hw]
    generalize (initAllWeights nClasses nClauses (avxInitRows cfg.nLits junk nClauses f).2).1 = ws at c2
    apply List.ext_getElem
    · simp [a2, b2]
    · intro i h1 h2
      simp only [List.length_map, List.length_mapIdx, List.length_zip] at h1
      simp only [List.getElem_mapIdx, List.getElem_zip, List.getElem_map]
      have hi : i < nClauses := by omega
      obtain ⟨p, p1, p2, -⟩ := a3 i hi
      obtain ⟨q, q1, q2, -⟩ := b3 i hi
      rw [List.getElem?_eq_getElem (by omega)] at p1 q1
      rw [Option.some.inj p1, Option.some.inj q1, ← cv_iff hr]
      refine ⟨fun j hj => ?_, rfl, rfl⟩
      obtain ⟨x1, x2⟩ := q2 j hj
      obtain ⟨y1, y2⟩ := p2 (col r j) (col_lt hr hj)
      have hpl : ∀ s, s < 2 → place r cfg.nLits (nClauses * (2 * cfg.nLits)) (i * (2 * cfg.nLits) + 2 * j + s) =
          i * (2 * cfg.nLits) + 2 * col r j + if r.flip (col r j) then 1 - s else s := by
        intro s hs'
        have hlt : i * (2 * cfg.nLits) + 2 * j + s < nClauses * (2 * cfg.nLits) :=
          calc i * (2 * cfg.nLits) + 2 * j + s < i * (2 * cfg.nLits) + 2 * cfg.nLits := by omega
            _ = (i + 1) * (2 * cfg.nLits) := by ring
            _ ≤ nClauses * (2 * cfg.nLits) := Nat.mul_le_mul_right _ hi
        have hmod : (i * (2 * cfg.nLits) + 2 * j + s) % (2 * cfg.nLits) = 2 * j + s := by
          rw [Nat.add_assoc, Nat.mul_comm, Nat.mul_add_mod, Nat.mod_eq_of_lt (by omega)]
        unfold place
        simp only [hmod, if_pos hlt, show (2 * j + s) / 2 = j by omega, show (2 * j + s) % 2 = s by omega]
        omega
      have e0 := hpl 0 (by omega)
      have e1 := hpl 1 (by omega)
      rw [restart_draw] at x1 x2
      rw [Nat.add_zero] at e0
      rw [e0] at x1
      rw [e1] at x2
      rw [Nat.add_comm j] at x2
      rw [Nat.add_comm (col r j)] at y2
      constructor
      · apply BitVec.eq_of_toInt_eq
        rw [x1]
        by_cases hf : r.flip (col r j) = true
        · simp only [hf, if_true]
          rw [y2]
        · simp only [hf]
          exact y1.symm
      · apply BitVec.eq_of_toInt_eq
        rw [x2]
        by_cases hf : r.flip (col r j) = true
        · simp only [hf, if_true, Nat.sub_self, Nat.add_zero]
          rw [y1]
        · simp only [hf]
          exact y2.symm
  · intro k
    refine List.map_congr_left fun i _ => ?_
    simp only [c1, d1]
    rw [Nat.add_assoc, Nat.add_assoc]
    exact hd _

end GT.RecodeV

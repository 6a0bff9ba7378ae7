import Verif.Spec.RecodeNeon
import Verif.Lemmas.Neon
import Verif.Lemmas.RecodeAvx
import Verif.Model.ConvExec

/-! # Lemmas: the coding of the features does not matter on the NEON backend (C100) -/

namespace GT.RecodeN
open GT GT.Spec GT.Neon
open GT.RecodeV (col order_len col_lt col_surj col_inj order_map LitR lit_of lit_one lit_zero incCount_sum on run_on pairs place place_lt restart
  restart_draw restart_perm)

variable {r : Recoding} {n : Nat}

/-! ### Rows -/

/-- The bytes of the second row are those of the first in the new coding. -/
def RowR (r : Recoding) (n : Nat) (p q : Mem) : Prop := ∀ j, j < n →
  q j = (if r.flip (col r j) then p (neonMem n + col r j) else p (col r j)) ∧
  q (neonMem n + j) = (if r.flip (col r j) then p (col r j) else p (neonMem n + col r j))

structure CV (r : Recoding) (n : Nat) (c d : VClause) : Prop where
  row : RowR r n c.row d.row
  w   : d.w = c.w
  out : d.out = c.out

theorem cv_iff (hr : r.Of n) (c d : VClause) : CV r n c d ↔ face (neonUnpad n d) = face (r.clause (neonUnpad n c)) := by
  have hg : ∀ (f : Nat → Int) j, j < n → ((List.range n).map f).getD j 0 = f j := by
    intro f j hj
    simp [List.getD_eq_getElem?_getD, hj]
  have hpos : r.pos (neonUnpad n c) = (List.range n).map fun j =>
      (if r.flip (col r j) then c.row (neonMem n + col r j) else c.row (col r j)).toInt := by
    unfold Recoding.pos
    rw [order_map hr]
    refine List.map_congr_left fun j hj => ?_
    have := col_lt hr (List.mem_range.1 hj)
    simp only [neonUnpad, hg _ _ this]
    split <;> rfl
  have hneg : r.neg (neonUnpad n c) = (List.range n).map fun j =>
      (if r.flip (col r j) then c.row (col r j) else c.row (neonMem n + col r j)).toInt := by
    unfold Recoding.neg
    rw [order_map hr]
    refine List.map_congr_left fun j hj => ?_
    have := col_lt hr (List.mem_range.1 hj)
    simp only [neonUnpad, hg _ _ this]
    split <;> rfl
  have he : face (neonUnpad n d) = face (r.clause (neonUnpad n c)) ↔
      ((List.range n).map fun i => (d.row i).toInt) = r.pos (neonUnpad n c) ∧
      ((List.range n).map fun i => (d.row (neonMem n + i)).toInt) = r.neg (neonUnpad n c) ∧ d.w = c.w ∧ d.out = c.out := by
    simp only [face, neonUnpad, Recoding.clause, Prod.mk.injEq]
  rw [he, hpos, hneg]
  simp only [List.map_inj_left, List.mem_range, BitVec.toInt_inj]
  constructor
  · rintro ⟨h1, h2, h3⟩
    exact ⟨fun j hj => (h1 j hj).1, fun j hj => (h1 j hj).2, h2, h3⟩
  · rintro ⟨h1, h2, h3, h4⟩
    exact ⟨fun j hj => ⟨h1 j hj, h2 j hj⟩, h3, h4⟩

theorem ok_iff (hr : r.Of n) {p q x y : Mem} (hp : RowR r n p q) (hx : LitR r n x y) :
    OkRange (neonMem n) q y 0 n ↔ OkRange (neonMem n) p x 0 n := by
  have hz : ∀ j, j < n → (y j = 0#8 ↔ if r.flip (col r j) then x (col r j) ≠ 0#8 else x (col r j) = 0#8) := by
    intro j hj
    have := lit_zero hx hj
    by_cases hf : r.flip (col r j) = true
    · simp only [hf, if_true] at this ⊢
      rw [← beq_iff_eq, this]
      simp
    · simp only [hf] at this ⊢
      rw [← beq_iff_eq, this]
      simp
  unfold OkRange
  constructor
  · intro h o _ ho
    obtain ⟨j, hj, rfl⟩ := col_surj hr ho
    obtain ⟨h1, h2⟩ := h j (by omega) hj
    obtain ⟨e1, e2⟩ := hp j hj
    rw [e1, Ne, hz j hj] at h1
    rw [e2, hz j hj] at h2
    by_cases hf : r.flip (col r j) = true
    · simp only [hf, if_true] at h1 h2
      exact ⟨h2, fun h => Classical.byContradiction fun hc => h1 h hc⟩
    · simp only [hf] at h1 h2
      exact ⟨h1, h2⟩
  · intro h j _ hj
    obtain ⟨h1, h2⟩ := h (col r j) (by omega) (col_lt hr hj)
    obtain ⟨e1, e2⟩ := hp j hj
    rw [e1, e2, Ne, hz j hj]
    by_cases hf : r.flip (col r j) = true
    · simp only [hf, if_true]
      exact ⟨fun h hc => hc (h2 h), h1⟩
    · simp only [hf]
      exact ⟨h1, h2⟩

theorem nonempty_iff (hr : r.Of n) {p q : Mem} (hp : RowR r n p q) :
    (∃ a, a < n ∧ (0 ≤ (q a).toInt ∨ 0 ≤ (q (neonMem n + a)).toInt)) ↔ ∃ a, a < n ∧ (0 ≤ (p a).toInt ∨ 0 ≤ (p (neonMem n + a)).toInt) := by
  constructor
  · rintro ⟨j, hj, h⟩
    refine ⟨col r j, col_lt hr hj, ?_⟩
    obtain ⟨e1, e2⟩ := hp j hj
    rw [e1, e2] at h
    by_cases hf : r.flip (col r j) = true
    · simp only [hf, if_true] at h
      exact h.symm
    · simp only [hf] at h
      exact h
  · rintro ⟨o, ho, h⟩
    obtain ⟨j, hj, rfl⟩ := col_surj hr ho
    refine ⟨j, hj, ?_⟩
    obtain ⟨e1, e2⟩ := hp j hj
    rw [e1, e2]
    by_cases hf : r.flip (col r j) = true
    · simp only [hf, if_true]
      exact h.symm
    · simp only [hf]
      exact h

theorem count_eq (hr : r.Of n) {p q : Mem} (hp : RowR r n p q) :
    incCount q 0 n + incCount q (neonMem n) n = incCount p 0 n + incCount p (neonMem n) n := by
  simp only [incCount_sum, Nat.zero_add, Recode.sum_add]
  have h : ((List.range n).map fun j => (if 0 ≤ (q j).toInt then 1 else 0) + (if 0 ≤ (q (neonMem n + j)).toInt then 1 else 0)) =
      r.order.map fun o => (if 0 ≤ (p o).toInt then 1 else 0) + (if 0 ≤ (p (neonMem n + o)).toInt then 1 else 0) := by
    rw [order_map hr]
    refine List.map_congr_left fun j hj => ?_
    obtain ⟨e1, e2⟩ := hp j (List.mem_range.1 hj)
    rw [e1, e2]
    by_cases hf : r.flip (col r j) = true
    · simp only [hf, if_true]
      exact Nat.add_comm _ _
    · simp only [hf]
      rfl
  rw [h]
  exact (hr.map _).sum_eq

theorem set_cv (hr : r.Of n) (cfg : VCfg) (hn : cfg.nLits = n) (h0 : 0 < n) {c d : VClause} (h : CV r n c d) {x y : Mem}
    (hx : LitR r n x y) :
    CV r n (neonSetClause cfg x c) (neonSetClause cfg y d) ∧
    (cfg.budget.isSome = true → (neonSetClause cfg x c).out = 1 → (neonSetClause cfg y d).cnt = (neonSetClause cfg x c).cnt) := by
  obtain ⟨a1, a2, a3, a4, a5⟩ := neonSetClause_spec cfg x c (by omega)
  obtain ⟨b1, b2, b3, b4, b5⟩ := neonSetClause_spec cfg y d (by omega)
  rw [hn] at a2 a3 b2 b3
  have ho : (neonSetClause cfg y d).out = (neonSetClause cfg x c).out := by
    have := b2.trans ((ok_iff hr h.row hx).trans a2.symm)
    omega
  refine ⟨⟨by rw [a4, b4]; exact h.row, by rw [a5, b5]; exact h.w, ho⟩, fun hb h1 => ?_⟩
  rw [a3 hb h1, b3 hb (by omega), count_eq hr h.row]

/-- Leaving the loop early means a literal was there to fail. -/
theorem evalLoop_left (mem : Nat) (row lits : Mem) (k : Nat) :
    ∀ i act, (neonEvalLoop mem row lits i k act).1 = false → (neonEvalLoop mem row lits i k act).2 = true := by
  induction k with
  | zero => intro i act h; cases h
  | succ k ih =>
    intro i act
    rw [neonEvalLoop]
    dsimp only
    by_cases h1 : anyBit (cmpeq (vor (cmpgt (set1 16 0#8) (load 16 row (i * 16))) (load 16 lits (i * 16))) (set1 16 0#8)) = true
    · simp only [h1, if_true]
      intro _
      obtain ⟨a, h2, h3, h4, -⟩ := (Neon.viol_pos row lits i).1 h1
      rw [Bool.or_eq_true]
      exact Or.inr ((movemask_active _ _).2 ⟨a, h2, h3, h4⟩)
    · simp only [h1]
      by_cases h5 : anyBit (cmpeq (vor (cmpgt (set1 16 0#8) (load 16 row (mem + i * 16))) (cmpeq (set1 16 0#8) (load 16 lits (i * 16))))
          (set1 16 0#8)) = true
      · simp only [h5, if_true]
        intro _
        obtain ⟨a, h2, h3, h4, -⟩ := (Neon.viol_neg mem row lits i).1 h5
        show (_ || _) = true
        rw [Bool.or_eq_true]
        exact Or.inr ((movemask_active _ _).2 ⟨mem + a, by omega, by omega, h4⟩)
      · simp only [h5]
        exact ih _ _

theorem eval_act (cfg : VCfg) (lits : Mem) (act0 : Bool) (c : VClause) (hn : 0 < cfg.nLits)
    (h : ∃ a, a < cfg.nLits ∧ (0 ≤ (c.row a).toInt ∨ 0 ≤ (c.row (neonMem cfg.nLits + a)).toInt)) :
    (neonEvalClause cfg lits act0 c).2 = true := by
  obtain ⟨f1, f2, f3⟩ := neonMem_facts hn
  have hmask := fun l => neonMask_eq hn l
  have hloop := neonEvalLoop_spec (neonMem cfg.nLits) c.row lits (neonMem cfg.nLits / 16 - 1) 0 act0
  have hleft := evalLoop_left (neonMem cfg.nLits) c.row lits (neonMem cfg.nLits / 16 - 1) 0 act0
  unfold neonEvalClause
  dsimp only
  generalize hk : neonMem cfg.nLits / 16 - 1 = k at *
  generalize hmem : neonMem cfg.nLits = mem at *
  generalize hr : neonEvalLoop mem c.row lits 0 k act0 = z at *
  simp only [Nat.zero_mul, Nat.zero_add] at hloop
  cases hr1 : z.1 with
  | false =>
    simp only [if_true]
    exact hleft hr1
  | true =>
    simp only [Bool.true_eq_false, if_false]
    have hact := hloop.2 hr1
    have a1 := Neon.active_lane c.row (k * 16) cfg.nLits (k * 16) _ hmask
    have a2 := Neon.active_lane c.row (mem + k * 16) cfg.nLits (k * 16) _ hmask
    have m1 := movemask_lane _ _ a1
    have m2 := movemask_lane _ _ a2
    have v1 := anyBit_masked' (load 16 c.row (k * 16)) (load 16 lits (k * 16)) _ _ hmask
    by_cases h1 : anyBit (vand (cmpeq (vor (cmpgt (set1 16 0#8)
        (load 16 c.row (k * 16))) (load 16 lits (k * 16))) (set1 16 0#8)) (neonMask cfg.nLits)) = true
    · simp only [h1, if_true]
      obtain ⟨l, ⟨h3, h4⟩, -⟩ := v1.mp h1
      rw [Bool.or_eq_true, m1]
      exact Or.inr ⟨l, h3, h4⟩
    · rw [if_neg h1]
      show (_ || _ || _) = true
      rw [Bool.or_eq_true, Bool.or_eq_true, hact, m1, m2]
      obtain ⟨a, ha, h⟩ := h
      by_cases hlt : a < k * 16
      · exact Or.inl (Or.inl (Or.inr ⟨a, by omega, hlt, h⟩))
      · have hl : k * 16 + (a - k * 16) = a := by omega
        rcases h with h | h
        · refine Or.inl (Or.inr ⟨⟨a - k * 16, by omega⟩, ?_, ?_⟩)
          · simp only [hl]; exact h
          · simp only [hl]; exact ha
        · refine Or.inr ⟨⟨a - k * 16, by omega⟩, ?_, ?_⟩
          · simp only [Nat.add_assoc, hl]; exact h
          · simp only [hl]; exact ha

theorem eval_cv (hr : r.Of n) (cfg : VCfg) (hn : cfg.nLits = n) (h0 : 0 < n) {c d : VClause} (h : CV r n c d) {x y : Mem}
    (hx : LitR r n x y) (act : Bool) : CV r n (neonEvalClause cfg x act c).1 (neonEvalClause cfg y act d).1 ∧
      (neonEvalClause cfg y act d).2 = (neonEvalClause cfg x act c).2 := by
  obtain ⟨a1, a2, a3, a4, -, a5, a6⟩ := neonEvalClause_spec cfg x act c (by omega)
  obtain ⟨b1, b2, b3, b4, -, b5, b6⟩ := neonEvalClause_spec cfg y act d (by omega)
  have a7 := eval_act cfg x act c (by omega)
  have b7 := eval_act cfg y act d (by omega)
  rw [hn] at a2 b2 a6 b6 a7 b7
  rw [ok_iff hr h.row hx, nonempty_iff hr h.row] at b2
  rw [nonempty_iff hr h.row] at b6 b7
  have ho : (neonEvalClause cfg y act d).1.out = (neonEvalClause cfg x act c).1.out := by
    have := b2.trans a2.symm
    omega
  refine ⟨⟨by rw [a3, b3]; exact h.row, by rw [a4, b4]; exact h.w, ho⟩, ?_⟩
  rw [Bool.eq_iff_iff]
  constructor
  · intro hb
    rcases b6 hb with hb | hb
    · exact a5 (Or.inl hb)
    · exact a7 hb
  · intro hb
    rcases a6 hb with hb | hb
    · exact b5 (Or.inl hb)
    · exact b7 hb

theorem evals_cv (hr : r.Of n) (cfg : VCfg) (hn : cfg.nLits = n) (h0 : 0 < n) {cs ds : List VClause} (h : List.Forall₂ (CV r n) cs ds)
    {x y : Mem} (hx : LitR r n x y) (act : Bool) :
    List.Forall₂ (CV r n) (neonEvalClauses cfg x act cs) (neonEvalClauses cfg y act ds) := by
  induction h generalizing act with
  | nil => exact .nil
  | cons h _ ih =>
    obtain ⟨a, b⟩ := eval_cv hr cfg hn h0 h hx act
    simp only [neonEvalClauses, b]
    exact .cons a (ih _)

/-! ### The vector generator -/

/-- Vectors a Type I update takes. -/
def span (n : Nat) : Nat := 2 * (neonMem n / 16)

/-- The draws of the second generator: in each span, the byte for a literal is the one the first generator has for the same literal. -/
def vdraw (r : Recoding) (n p0 : Nat) (D : Nat → Nat → Byte) (q l : Nat) : Byte :=
  let s := (q - p0) % span n
  let a := s / 2 * 16 + l
  if p0 ≤ q ∧ a < n ∧ l < 16 then
    D (q - s + (2 * (col r a / 16) + if r.flip (col r a) then 1 - s % 2 else s % 2)) (col r a % 16)
  else D q l

/-- In every span to come, the second generator has for each literal the byte the first one has for the same literal. -/
def GenR (r : Recoding) (n : Nat) (g h : VRng) : Prop := ∀ t j s, j < n → s < 2 →
  h.draw (h.pos + (span n * t + (2 * (j / 16) + s))) (j % 16) =
    g.draw (g.pos + (span n * t + (2 * (col r j / 16) + if r.flip (col r j) then 1 - s else s))) (col r j % 16)

theorem gen_adv {g h : VRng} (hg : GenR r n g h) :
    GenR r n { g with pos := g.pos + 2 * (neonMem n / 16) } { h with pos := h.pos + 2 * (neonMem n / 16) } := by
  intro t j s hj hs
  have h1 := hg (t + 1) j s hj hs
  have e : ∀ p u, p + 2 * (neonMem n / 16) + (span n * t + u) = p + (span n * (t + 1) + u) := by
    intro p u
    unfold span
    ring
  simp only [e]
  exact h1

theorem gen_byte {g h : VRng} (hg : GenR r n g h) {j s : Nat} (hj : j < n) (hs : s < 2) :
    h.draw (h.pos + (2 * (j / 16) + s)) (j % 16) =
      g.draw (g.pos + (2 * (col r j / 16) + if r.flip (col r j) then 1 - s else s)) (col r j % 16) := by
  have h1 := hg 0 j s hj hs
  simp only [Nat.mul_zero, Nat.zero_add] at h1
  exact h1

/-! ### Updates -/

theorem t1a_at (cfg : VCfg) (hn : cfg.nLits = n) (p x : Mem) (g : VRng) {j : Nat} (hj : j < n) :
    (neonT1a cfg p x g).1 j = t1aLane cfg.boost cfg.cmpS (x j == 1#8) (g.draw (g.pos + (2 * (j / 16) + 0)) (j % 16)) (p j) ∧
    (neonT1a cfg p x g).1 (neonMem n + j) =
      t1aLane false cfg.cmpS (!(x j == 1#8)) (g.draw (g.pos + (2 * (j / 16) + 1)) (j % 16)) (p (neonMem n + j)) := by
  have hm := (neonMem_div n).2
  rw [neonT1a_eq]
  subst hn
  constructor
  · show (if j < neonMem cfg.nLits then _ else _) = _
    rw [if_pos (by omega)]
    rfl
  · show (if neonMem cfg.nLits + j < neonMem cfg.nLits then _ else if neonMem cfg.nLits + j < 2 * neonMem cfg.nLits then _ else _) = _
    rw [if_neg (by omega), if_pos (by omega), Nat.add_sub_cancel_left]
    rfl

theorem t1b_at (cfg : VCfg) (hn : cfg.nLits = n) (p : Mem) (g : VRng) {j : Nat} (hj : j < n) :
    (neonT1b cfg p g).1 j = t1bLane cfg.cmpS (g.draw (g.pos + (2 * (j / 16) + 0)) (j % 16)) (p j) ∧
    (neonT1b cfg p g).1 (neonMem n + j) = t1bLane cfg.cmpS (g.draw (g.pos + (2 * (j / 16) + 1)) (j % 16)) (p (neonMem n + j)) := by
  have hm := (neonMem_div n).2
  rw [neonT1b_eq]
  subst hn
  constructor
  · show (if j < neonMem cfg.nLits then _ else _) = _
    rw [if_pos (by omega)]
    rfl
  · show (if neonMem cfg.nLits + j < neonMem cfg.nLits then _ else if neonMem cfg.nLits + j < 2 * neonMem cfg.nLits then _ else _) = _
    rw [if_neg (by omega), if_pos (by omega), Nat.add_sub_cancel_left]
    rfl

theorem t2_at (cfg : VCfg) (hn : cfg.nLits = n) (p x : Mem) (g : VRng) {j : Nat} (hj : j < n) :
    (neonT2 cfg p x g).1 j = t2Lane (x j == 0#8) (p j) ∧
    (neonT2 cfg p x g).1 (neonMem n + j) = t2Lane (!(x j == 0#8)) (p (neonMem n + j)) := by
  have hm := (neonMem_div n).2
  rw [neonT2_eq]
  subst hn
  constructor
  · show (if j < neonMem cfg.nLits then _ else _) = _
    rw [if_pos (by omega)]
  · show (if neonMem cfg.nLits + j < neonMem cfg.nLits then _ else if neonMem cfg.nLits + j < 2 * neonMem cfg.nLits then _ else _) = _
    rw [if_neg (by omega), if_pos (by omega), Nat.add_sub_cancel_left]

theorem t1a_row (hr : r.Of n) (cfg : VCfg) (hn : cfg.nLits = n) (hbo : cfg.boost = true → ∀ i, r.flip i = false) {p q x y : Mem} (hp : RowR r n p q) (hx : LitR r n x y) {g h : VRng}
    (hg : GenR r n g h) :
    RowR r n (neonT1a cfg p x g).1 (neonT1a cfg q y h).1 ∧ GenR r n (neonT1a cfg p x g).2 (neonT1a cfg q y h).2 := by
  refine ⟨fun j hj => ?_, by rw [neonT1a_eq, neonT1a_eq, hn]; exact gen_adv hg⟩
  obtain ⟨a1, a2⟩ := t1a_at cfg hn q y h hj
  obtain ⟨b1, b2⟩ := t1a_at cfg hn p x g (col_lt hr hj)
  obtain ⟨e1, e2⟩ := hp j hj
  rw [a1, a2, b1, b2, gen_byte hg hj (by omega), gen_byte hg hj (by omega), lit_one hx hj, e1, e2]
  by_cases hf : r.flip (col r j) = true
  · have hb0 : cfg.boost = false := by
      cases hb : cfg.boost with
      | false => rfl
      | true => rw [hbo hb] at hf; cases hf
    simp only [hf, hb0, if_true, Nat.sub_zero, Nat.sub_self, Bool.not_not]
    exact ⟨trivial, trivial⟩
  · simp only [hf]
    exact ⟨rfl, rfl⟩

theorem t1b_row (hr : r.Of n) (cfg : VCfg) (hn : cfg.nLits = n) {p q : Mem} (hp : RowR r n p q) {g h : VRng}
    (hg : GenR r n g h) :
    RowR r n (neonT1b cfg p g).1 (neonT1b cfg q h).1 ∧ GenR r n (neonT1b cfg p g).2 (neonT1b cfg q h).2 := by
  refine ⟨fun j hj => ?_, by rw [neonT1b_eq, neonT1b_eq, hn]; exact gen_adv hg⟩
  obtain ⟨a1, a2⟩ := t1b_at cfg hn q h hj
  obtain ⟨b1, b2⟩ := t1b_at cfg hn p g (col_lt hr hj)
  obtain ⟨e1, e2⟩ := hp j hj
  rw [a1, a2, b1, b2, gen_byte hg hj (by omega), gen_byte hg hj (by omega), e1, e2]
  by_cases hf : r.flip (col r j) = true
  · simp only [hf, if_true, Nat.sub_zero, Nat.sub_self]
    exact ⟨trivial, trivial⟩
  · simp only [hf]
    exact ⟨rfl, rfl⟩

theorem t2_row (hr : r.Of n) (cfg : VCfg) (hn : cfg.nLits = n) {p q x y : Mem} (hp : RowR r n p q) (hx : LitR r n x y) {g h : VRng}
    (hg : GenR r n g h) :
    RowR r n (neonT2 cfg p x g).1 (neonT2 cfg q y h).1 ∧ GenR r n (neonT2 cfg p x g).2 (neonT2 cfg q y h).2 := by
  refine ⟨fun j hj => ?_, by rw [neonT2_eq, neonT2_eq]; exact hg⟩
  obtain ⟨a1, a2⟩ := t2_at cfg hn q y h hj
  obtain ⟨b1, b2⟩ := t2_at cfg hn p x g (col_lt hr hj)
  obtain ⟨e1, e2⟩ := hp j hj
  rw [a1, a2, b1, b2, lit_zero hx hj, e1, e2]
  by_cases hf : r.flip (col r j) = true
  · simp only [hf, if_true, Bool.not_not]
    exact ⟨trivial, trivial⟩
  · simp only [hf]
    exact ⟨rfl, rfl⟩

theorem update_cv (hr : r.Of n) (cfg : VCfg) (hn : cfg.nLits = n) (hbo : cfg.boost = true → ∀ i, r.flip i = false) {x y : Mem} (hx : LitR r n x y) (k : Nat) (t : Int)
    {c d : VClause} (h : CV r n c d) {g g' : VRng} (hg : GenR r n g g') :
    CV r n (neonClauseUpdate cfg x k t c g).1 (neonClauseUpdate cfg y k t d g').1 ∧
    GenR r n (neonClauseUpdate cfg x k t c g).2 (neonClauseUpdate cfg y k t d g').2 := by
  obtain ⟨h1, h2, h3⟩ := h
  unfold neonClauseUpdate
  simp only [h2, h3]
  generalize (if c.w.getD k 0 ≥ 0 then (1 : Int) else -1) = sg
  by_cases c1 : t * sg > 0
  · simp only [if_pos c1]
    by_cases c2 : c.out = 1
    · simp only [if_pos c2]
      obtain ⟨a, b⟩ := t1a_row hr cfg hn hbo h1 hx hg
      exact ⟨⟨a, rfl, rfl⟩, b⟩
    · simp only [if_neg c2]
      obtain ⟨a, b⟩ := t1b_row hr cfg hn h1 hg
      exact ⟨⟨a, rfl, rfl⟩, b⟩
  · simp only [if_neg c1]
    by_cases c2 : t * sg < 0 ∧ c.out = 1
    · simp only [if_pos c2]
      obtain ⟨a, b⟩ := t2_row hr cfg hn h1 hx hg
      exact ⟨⟨a, rfl, rfl⟩, b⟩
    · simp only [if_neg c2]
      exact ⟨⟨h1, h2, h3⟩, hg⟩

/-- Clauses after their output was set: the literal counts agree where they matter. -/
def Set (r : Recoding) (n : Nat) (cfg : VCfg) (c d : VClause) : Prop :=
  CV r n c d ∧ (c.out = 0 ∨ c.out = 1) ∧ (cfg.budget.isSome = true → c.out = 1 → d.cnt = c.cnt)

theorem gate_cv (cfg : VCfg) {c d : VClause} (h : Set r n cfg c d) : CV r n (neonBudgetGate cfg c) (neonBudgetGate cfg d) := by
  obtain ⟨h1, h2, h3⟩ := h
  unfold neonBudgetGate
  cases hb : cfg.budget with
  | none => exact h1
  | some b =>
    rw [hb] at h3
    show CV r n (if c.cnt > b then _ else _) (if d.cnt > b then _ else _)
    rcases h2 with h2 | h2
    · have hc : (if c.cnt > b then { c with out := 0 } else c : VClause).out = 0 := by split <;> simp [h2]
      have hd : (if d.cnt > b then { d with out := 0 } else d : VClause).out = 0 := by split <;> simp [h1.out, h2]
      refine ⟨?_, ?_, hd.trans hc.symm⟩
      · split <;> split <;> exact h1.row
      · split <;> split <;> exact h1.w
    · rw [h3 rfl h2]
      split
      · exact ⟨h1.row, h1.w, rfl⟩
      · exact h1

theorem trainClause_cv (hr : r.Of n) (cfg : VCfg) (hn : cfg.nLits = n) (hbo : cfg.boost = true → ∀ i, r.flip i = false) {x y : Mem} (hx : LitR r n x y) (fb : Feedback)
    {c d : VClause} (h : Set r n cfg c d) (fast : Rng) {g g' : VRng} (hg : GenR r n g g') :
    CV r n (neonTrainClause cfg x fb c fast g).1 (neonTrainClause cfg y fb d fast g').1 ∧
    (neonTrainClause cfg y fb d fast g').2.1 = (neonTrainClause cfg x fb c fast g).2.1 ∧
    GenR r n (neonTrainClause cfg x fb c fast g).2.2 (neonTrainClause cfg y fb d fast g').2.2 := by
  have h0 := gate_cv cfg h
  unfold neonTrainClause
  simp only
  have h1 : CV r n (if fast.next.1 < fb.posProb then neonClauseUpdate cfg x fb.posClass 1 (neonBudgetGate cfg c) g else (neonBudgetGate cfg c, g)).1
        (if fast.next.1 < fb.posProb then neonClauseUpdate cfg y fb.posClass 1 (neonBudgetGate cfg d) g' else (neonBudgetGate cfg d, g')).1 ∧
      GenR r n (if fast.next.1 < fb.posProb then neonClauseUpdate cfg x fb.posClass 1 (neonBudgetGate cfg c) g else (neonBudgetGate cfg c, g)).2
        (if fast.next.1 < fb.posProb then neonClauseUpdate cfg y fb.posClass 1 (neonBudgetGate cfg d) g' else (neonBudgetGate cfg d, g')).2 := by
    split
    · exact update_cv hr cfg hn hbo hx _ _ h0 hg
    · exact ⟨h0, hg⟩
  obtain ⟨h1, h2⟩ := h1
  generalize (if fast.next.1 < fb.posProb then neonClauseUpdate cfg x fb.posClass 1 (neonBudgetGate cfg c) g else (neonBudgetGate cfg c, g)) = u
    at h1 h2 ⊢
  generalize (if fast.next.1 < fb.posProb then neonClauseUpdate cfg y fb.posClass 1 (neonBudgetGate cfg d) g' else (neonBudgetGate cfg d, g')) = v
    at h1 h2 ⊢
  split
  · obtain ⟨a, b⟩ := update_cv hr cfg hn hbo hx fb.negClass (-1) h1 h2
    exact ⟨a, trivial, b⟩
  · exact ⟨h1, trivial, h2⟩

theorem trainClauses_cv (hr : r.Of n) (cfg : VCfg) (hn : cfg.nLits = n) (hbo : cfg.boost = true → ∀ i, r.flip i = false) {x y : Mem} (hx : LitR r n x y) (fb : Feedback)
    {cs ds : List VClause} (h : List.Forall₂ (Set r n cfg) cs ds) (fast : Rng) {g g' : VRng} (hg : GenR r n g g') :
    List.Forall₂ (CV r n) (neonTrainClauses cfg x fb cs fast g).1 (neonTrainClauses cfg y fb ds fast g').1 ∧
    (neonTrainClauses cfg y fb ds fast g').2.1 = (neonTrainClauses cfg x fb cs fast g).2.1 ∧
    GenR r n (neonTrainClauses cfg x fb cs fast g).2.2 (neonTrainClauses cfg y fb ds fast g').2.2 := by
  induction h generalizing fast g g' with
  | nil => exact ⟨.nil, rfl, hg⟩
  | cons h _ ih =>
    obtain ⟨a1, a2, a3⟩ := trainClause_cv hr cfg hn hbo hx fb h fast hg
    simp only [neonTrainClauses, a2]
    obtain ⟨b1, b2, b3⟩ := ih _ a3
    exact ⟨.cons a1 b1, b2, b3⟩

theorem votes_cv (k : Nat) {cs ds : List VClause} (h : List.Forall₂ (CV r n) cs ds) : neonCountVotes k ds = neonCountVotes k cs := by
  unfold neonCountVotes
  generalize List.replicate k (0 : Int) = v
  induction h generalizing v with
  | nil => rfl
  | cons h _ ih =>
    simp only [List.foldl_cons, h.out, h.w]
    exact ih _

/-! ### Blocks and machines -/

structure BV (r : Recoding) (n : Nat) (b d : NBlock) : Prop where
  nLits    : b.cfg.nLits = n
  boost    : b.cfg.boost = true → ∀ i, r.flip i = false
  cfg      : d.cfg = b.cfg
  nClasses : d.nClasses = b.nClasses
  votes    : d.votes = b.votes
  fast     : d.fast = b.fast
  vrng     : GenR r n b.vrng d.vrng
  clauses  : List.Forall₂ (CV r n) b.clauses d.clauses

/-- The same, or both have crashed. -/
def OV (r : Recoding) (n : Nat) : Option NBlock → Option NBlock → Prop
  | none, none => True
  | some b, some d => BV r n b d
  | _, _ => False

theorem sets_cv (hr : r.Of n) (cfg : VCfg) (hn : cfg.nLits = n) (h0 : 0 < n) {cs ds : List VClause} (h : List.Forall₂ (CV r n) cs ds)
    {x y : Mem} (hx : LitR r n x y) :
    (neonSetClauses cfg x cs = none ∧ neonSetClauses cfg y ds = none) ∨
    ∃ cs' ds', neonSetClauses cfg x cs = some cs' ∧ neonSetClauses cfg y ds = some ds' ∧ List.Forall₂ (Set r n cfg) cs' ds' := by
  have he : ds ≠ [] ↔ cs ≠ [] := by
    cases h <;> simp
  unfold neonSetClauses
  by_cases hc : cs ≠ [] ∧ cfg.budget = none
  · rw [if_pos hc, if_pos ⟨he.2 hc.1, hc.2⟩]
    exact Or.inl ⟨rfl, rfl⟩
  · rw [if_neg hc, if_neg fun h' => hc ⟨he.1 h'.1, h'.2⟩]
    refine Or.inr ⟨_, _, rfl, rfl, ?_⟩
    rw [List.forall₂_map_left_iff, List.forall₂_map_right_iff]
    refine h.imp fun c d hc => ?_
    obtain ⟨a, b⟩ := set_cv hr _ hn h0 hc hx
    exact ⟨a, (neonSetClause_spec _ x c (by rw [hn]; exact h0)).1, b⟩

theorem train_bv (hr : r.Of n) (h0 : 0 < n) {b d : NBlock} (h : BV r n b d) {x y : Mem} (hx : LitR r n x y) :
    (b.apply (.trainExample x) = none ∧ d.apply (.trainExample y) = none) ∨
    ∃ b' d', b.apply (.trainExample x) = some b' ∧ d.apply (.trainExample y) = some d' ∧ BV r n b' d' ∧ b'.cfg = b.cfg ∧
      List.Forall₂ (Set r n b.cfg) b'.clauses d'.clauses := by
  simp only [NBlock.apply, h.cfg]
  rcases sets_cv hr b.cfg h.nLits h0 h.clauses hx with ⟨e1, e2⟩ | ⟨cs, ds, e1, e2, hs⟩
  · rw [e1, e2]
    exact Or.inl ⟨rfl, rfl⟩
  · rw [e1, e2]
    have hc : List.Forall₂ (CV r n) cs ds := hs.imp fun _ _ h => h.1
    refine Or.inr ⟨_, _, rfl, rfl, ⟨h.nLits, h.boost, rfl, h.nClasses, ?_, h.fast, h.vrng, hc⟩, rfl, hs⟩
    simp only [h.nClasses]
    exact votes_cv _ hc

theorem eval_bv (hr : r.Of n) (h0 : 0 < n) {b d : NBlock} (h : BV r n b d) {x y : Mem} (hx : LitR r n x y) :
    OV r n (b.apply (.evalExample x)) (d.apply (.evalExample y)) := by
  have hc := evals_cv hr b.cfg h.nLits h0 h.clauses hx false
  simp only [NBlock.apply, h.cfg, h.nClasses]
  exact ⟨h.nLits, h.boost, rfl, rfl, votes_cv _ hc, h.fast, h.vrng, hc⟩

theorem step_bv (hr : r.Of n) (h0 : 0 < n) {b d : NBlock} (h : BV r n b d) {x y : Mem} (hx : LitR r n x y) (fb : Feedback) :
    OV r n ((b.apply (.trainExample x)).bind (·.apply (.trainUpdate x fb))) ((d.apply (.trainExample y)).bind (·.apply (.trainUpdate y fb))) := by
  rcases train_bv hr h0 h hx with ⟨e1, e2⟩ | ⟨b', d', e1, e2, h1, hcfg, h2⟩
  · rw [e1, e2]
    exact trivial
  · rw [e1, e2]
    obtain ⟨a1, a2, a3⟩ := trainClauses_cv hr b.cfg h.nLits h.boost hx fb h2 b'.fast h1.vrng
    simp only [Option.bind_some, NBlock.apply, h1.cfg, hcfg, h1.fast]
    exact ⟨h.nLits, h.boost, rfl, h1.nClasses, h1.votes, a2, a3, a1⟩

theorem votes_ov {b d : Option NBlock} (h : OV r n b d) : (b.map NBlock.votes).getD [] = (d.map NBlock.votes).getD [] := by
  cases b <;> cases d
  · rfl
  · exact h.elim
  · exact h.elim
  · exact (BV.votes h).symm

theorem ov_cases {b d : Option NBlock} (h : OV r n b d) : (b = none ∧ d = none) ∨ ∃ b' d', b = some b' ∧ d = some d' ∧ BV r n b' d' := by
  cases b <;> cases d
  · exact Or.inl ⟨rfl, rfl⟩
  · exact h.elim
  · exact h.elim
  · exact Or.inr ⟨_, _, rfl, rfl, h⟩

theorem trainVotes_ov (hr : r.Of n) (h0 : 0 < n) {b d : Option NBlock} (h : OV r n b d) {x y : Mem} (hx : LitR r n x y) :
    ((b.bind (·.apply (.trainExample x))).map NBlock.votes).getD [] = ((d.bind (·.apply (.trainExample y))).map NBlock.votes).getD [] := by
  rcases ov_cases h with ⟨rfl, rfl⟩ | ⟨b, d, rfl, rfl, h⟩
  · rfl
  · rcases train_bv hr h0 h hx with ⟨e1, e2⟩ | ⟨b', d', e1, e2, h1, -, -⟩
    · rw [Option.bind_some, Option.bind_some, e1, e2]
    · rw [Option.bind_some, Option.bind_some, e1, e2, Option.map_some, Option.map_some, Option.getD_some, Option.getD_some, h1.votes]

theorem trainStep_ov (hr : r.Of n) (h0 : 0 < n) {b d : Option NBlock} (h : OV r n b d) {x y : Mem} (hx : LitR r n x y) (fb : Feedback) :
    OV r n ((b.bind (·.apply (.trainExample x))).bind (·.apply (.trainUpdate x fb)))
      ((d.bind (·.apply (.trainExample y))).bind (·.apply (.trainUpdate y fb))) := by
  rcases ov_cases h with ⟨rfl, rfl⟩ | ⟨b, d, rfl, rfl, h⟩
  · exact trivial
  · rw [Option.bind_some, Option.bind_some]
    exact step_bv hr h0 h hx fb

theorem eval_ov (hr : r.Of n) (h0 : 0 < n) {b d : Option NBlock} (h : OV r n b d) {x y : Mem} (hx : LitR r n x y) :
    OV r n (b.bind (·.apply (.evalExample x))) (d.bind (·.apply (.evalExample y))) := by
  rcases ov_cases h with ⟨rfl, rfl⟩ | ⟨b, d, rfl, rfl, h⟩
  · exact trivial
  · rw [Option.bind_some, Option.bind_some]
    exact eval_bv hr h0 h hx

theorem sim (hr : r.Of n) (h0 : 0 < n) : OnePatch.Sim (on neonBackend (Prod.fst : Mem × Mem → Mem)) (on neonBackend Prod.snd)
    (fun _ x => LitR r n x.1 x.2) (OV r n) where
  trainVotes := fun _ _ _ h hx => trainVotes_ov hr h0 h hx
  trainStep := fun _ _ _ fb h hx => trainStep_ov hr h0 h hx fb
  evalVotes := fun _ _ _ h hx => votes_ov (eval_ov hr h0 h hx)
  evalStep := fun _ _ _ h hx => eval_ov hr h0 h hx
  okTrain := fun _ _ _ _ h => h
  okEval := fun _ _ _ h => h
  left := fun _ => rfl
  right := fun _ => rfl

/-! ### The bytes are reordered -/

def slots (m : Nat) : List (Nat × Nat) := (List.range m).flatMap fun i => (List.range 16).map fun l => (i, l)

theorem mem_slots {m : Nat} {p : Nat × Nat} : p ∈ slots m ↔ p.1 < m ∧ p.2 < 16 := by
  obtain ⟨i, l⟩ := p
  simp [slots]

theorem slots_nodup (m : Nat) : (slots m).Nodup := by
  unfold slots
  rw [List.nodup_flatMap]
  refine ⟨fun i _ => (List.nodup_range).map fun a b h => by simpa using h, ?_⟩
  refine (List.nodup_range (n := m)).imp_of_mem ?_ |> fun h => h
  intro i j _ _ hij p h1 h2
  simp only [List.mem_map] at h1 h2
  obtain ⟨_, _, rfl⟩ := h1
  obtain ⟨_, _, h⟩ := h2
  simp only [Prod.mk.injEq] at h
  exact hij h.1.symm

/-- Where the second generator takes the byte of a slot from. -/
def slot (r : Recoding) (n : Nat) (p : Nat × Nat) : Nat × Nat :=
  let s := p.1 % span n
  let a := s / 2 * 16 + p.2
  if a < n then (p.1 - s + (2 * (col r a / 16) + if r.flip (col r a) then 1 - s % 2 else s % 2), col r a % 16) else p

theorem bytes_slots (g : VRng) (m : Nat) : vectorBytes 16 g m = (slots m).map fun p => g.draw (g.pos + p.1) p.2 := by
  simp [vectorBytes, slots, List.map_flatMap, Function.comp_def]

/-- A slot stays in its window, and its place there tells its literal. -/
theorem slot_spec (hr : r.Of n) {p : Nat × Nat} (hp : p.2 < 16) :
    ∃ u l, slot r n p = (span n * (p.1 / span n) + u, l) ∧ (0 < n → u < span n) ∧ l < 16 ∧
      (p.1 % span n / 2 * 16 + p.2 < n → u / 2 * 16 + l = col r (p.1 % span n / 2 * 16 + p.2) ∧
        u % 2 = if r.flip (col r (p.1 % span n / 2 * 16 + p.2)) then 1 - p.1 % span n % 2 else p.1 % span n % 2) ∧
      (¬ p.1 % span n / 2 * 16 + p.2 < n → u = p.1 % span n ∧ l = p.2) := by
  have hd := Nat.div_add_mod p.1 (span n)
  unfold slot
  generalize hs : p.1 % span n = s at hd ⊢
  generalize ha : s / 2 * 16 + p.2 = a
  by_cases h : a < n
  · have hc := col_lt hr h
    have hm := neonMem_div n
    refine ⟨2 * (col r a / 16) + (if r.flip (col r a) then 1 - s % 2 else s % 2), col r a % 16, ?_, fun _ => ?_, by omega,
      fun _ => ?_, fun h' => absurd h h'⟩
    · simp only [ha, if_pos h]
      rw [show p.1 - s = span n * (p.1 / span n) by omega]
    · unfold span
      split <;> omega
    · split <;> omega
  · refine ⟨s, p.2, ?_, fun h0 => ?_, hp, fun h' => absurd h' h, fun _ => ⟨rfl, rfl⟩⟩
    · simp only [ha, if_neg h]
      rw [hd]
    · rw [← hs]
      have hm := neonMem_div n
      exact Nat.mod_lt _ (by unfold span; omega)

theorem slots_perm (hr : r.Of n) (h0 : 0 < n) (k : Nat) : ((slots (span n * k)).map (slot r n)).Perm (slots (span n * k)) := by
  have hm := neonMem_div n
  have hK : 0 < span n := by unfold span; omega
  have hin : ∀ p ∈ slots (span n * k), slot r n p ∈ slots (span n * k) := by
    intro p hp
    obtain ⟨h1, h2⟩ := mem_slots.1 hp
    obtain ⟨u, l, e, hu, hl, -, -⟩ := slot_spec hr h2
    rw [e, mem_slots]
    refine ⟨?_, hl⟩
    have : p.1 / span n < k := (Nat.div_lt_iff_lt_mul hK).2 (by rw [Nat.mul_comm]; exact h1)
    calc span n * (p.1 / span n) + u < span n * (p.1 / span n) + span n := by have := hu h0; omega
      _ = span n * (p.1 / span n + 1) := by ring
      _ ≤ span n * k := Nat.mul_le_mul_left _ this
  have hnd : ((slots (span n * k)).map (slot r n)).Nodup := by
    rw [List.nodup_map_iff_inj_on (slots_nodup _)]
    intro p hp q hq h
    have hp2 := (mem_slots.1 hp).2
    have hq2 := (mem_slots.1 hq).2
    obtain ⟨u, l, e, hu, hl, h1, h2⟩ := slot_spec hr hp2
    obtain ⟨v, l', e', hv, hl', h1', h2'⟩ := slot_spec hr hq2
    rw [e, e', Prod.mk.injEq] at h
    obtain ⟨ha, hb⟩ := h
    have hw : p.1 / span n = q.1 / span n := by
      have := congrArg (· / span n) ha
      simpa only [Nat.mul_add_div hK, Nat.div_eq_of_lt (hu h0), Nat.div_eq_of_lt (hv h0), Nat.add_zero] using this
    have huv : u = v := by rw [hw] at ha; omega
    subst huv
    subst hb
    have dp := Nat.div_add_mod p.1 (span n)
    have dq := Nat.div_add_mod q.1 (span n)
    rw [hw] at dp
    generalize p.1 % span n = s at dp h1 h2
    generalize q.1 % span n = s' at dq h1' h2'
    have key : s = s' ∧ p.2 = q.2 := by
      by_cases c1 : s / 2 * 16 + p.2 < n <;> by_cases c2 : s' / 2 * 16 + q.2 < n
      · obtain ⟨a1, a2⟩ := h1 c1
        obtain ⟨b1, b2⟩ := h1' c2
        have hab := col_inj hr c1 c2 (a1.symm.trans b1)
        rw [hab] at a2
        by_cases hf : r.flip (col r (s' / 2 * 16 + q.2)) = true
        · rw [if_pos hf] at a2 b2
          omega
        · rw [if_neg hf] at a2 b2
          omega
      · obtain ⟨a1, a2⟩ := h1 c1
        obtain ⟨b1, b2⟩ := h2' c2
        have := col_lt hr c1
        omega
      · obtain ⟨a1, a2⟩ := h2 c1
        obtain ⟨b1, b2⟩ := h1' c2
        have := col_lt hr c2
        omega
      · obtain ⟨a1, a2⟩ := h2 c1
        obtain ⟨b1, b2⟩ := h2' c2
        omega
    exact Prod.ext (by omega) key.2
  exact (List.subperm_of_subset hnd fun p hp => by
    obtain ⟨q, hq, rfl⟩ := List.mem_map.1 hp
    exact hin q hq).perm_of_length_le (by simp)

/-- The second generator. -/
def regen (r : Recoding) (n : Nat) (g : VRng) : VRng := ⟨vdraw r n g.pos g.draw, g.pos⟩

theorem regen_genR (g : VRng) : GenR r n g (regen r n g) := by
  intro t j s hj hs
  have hm := neonMem_div n
  have hlt : 2 * (j / 16) + s < span n := by unfold span; omega
  have e1 : (g.pos + (span n * t + (2 * (j / 16) + s)) - g.pos) % span n = 2 * (j / 16) + s := by
    rw [Nat.add_sub_cancel_left, Nat.mul_add_mod, Nat.mod_eq_of_lt hlt]
  have e2 : (2 * (j / 16) + s) / 2 * 16 + j % 16 = j := by omega
  have e3 : (2 * (j / 16) + s) % 2 = s := by omega
  show vdraw r n g.pos g.draw (g.pos + (span n * t + (2 * (j / 16) + s))) (j % 16) = _
  unfold vdraw
  simp only [e1, e2, e3]
  rw [if_pos ⟨by omega, hj, by omega⟩, show g.pos + (span n * t + (2 * (j / 16) + s)) - (2 * (j / 16) + s) = g.pos + span n * t by omega,
    Nat.add_assoc]

/-- A generator of one byte keeps it in every order. -/
theorem constant_genR {g h : VRng} (a : Byte) (hg : ∀ i l, g.draw i l = a) (hs : ReshuffledBytes 16 g h) : GenR r n g h := by
  have hc : ∀ i l, l < 16 → h.draw (h.pos + i) l = a := by
    intro i l hl
    obtain ⟨m, hm, hp⟩ := hs (i + 1)
    have hi : h.draw (h.pos + i) l ∈ vectorBytes 16 h m := by
      rw [bytes_slots]
      exact List.mem_map.2 ⟨(i, l), mem_slots.2 ⟨by omega, hl⟩, rfl⟩
    have hi := hp.mem_iff.1 hi
    rw [bytes_slots] at hi
    obtain ⟨p, -, h1⟩ := List.mem_map.1 hi
    rw [← h1, hg]
  intro t j s _ _
  rw [hc _ _ (by omega), hg]

theorem regen_perm (hr : r.Of n) (h0 : 0 < n) (g : VRng) : ReshuffledBytes 16 g (regen r n g) := by
  intro k
  have hm := neonMem_div n
  have hK : 0 < span n := by unfold span; omega
  refine ⟨span n * k, Nat.le_mul_of_pos_left _ hK, ?_⟩
  rw [bytes_slots, bytes_slots]
  have e : ((slots (span n * k)).map fun p => (regen r n g).draw ((regen r n g).pos + p.1) p.2) =
      ((slots (span n * k)).map (slot r n)).map fun p => g.draw (g.pos + p.1) p.2 := by
    rw [List.map_map]
    refine List.map_congr_left fun p hp => ?_
    obtain ⟨h1, h2⟩ := mem_slots.1 hp
    show vdraw r n g.pos g.draw (g.pos + p.1) p.2 = g.draw (g.pos + (slot r n p).1) (slot r n p).2
    have hle := Nat.mod_le p.1 (span n)
    unfold vdraw slot
    simp only [Nat.add_sub_cancel_left]
    by_cases h : p.1 % span n / 2 * 16 + p.2 < n
    · rw [if_pos ⟨by omega, h, h2⟩, if_pos h]
      congr 1
      omega
    · rw [if_neg (fun hc => h hc.2.1), if_neg h]
  rw [e]
  exact (slots_perm hr h0 k).map _

theorem bv_of (hr : r.Of n) {b d : NBlock} (hn : b.cfg.nLits = n) (hbo : b.cfg.boost = true → ∀ i, r.flip i = false)
    (h : r.NeonBlock n b (regen r n b.vrng) d) : BV r n b d := by
  refine ⟨hn, hbo, h.cfg, h.nClasses, h.votes, h.fast, by rw [h.vrng]; exact regen_genR _, ?_⟩
  have hc := h.clauses
  generalize b.clauses = cs at hc
  generalize d.clauses = ds at hc
  induction cs generalizing ds with
  | nil =>
    cases ds with
    | nil => exact .nil
    | cons _ _ => simp at hc
  | cons c cs ih =>
    cases ds with
    | nil => simp at hc
    | cons d ds =>
      simp only [List.map_cons, List.cons.injEq] at hc
      exact .cons ((cv_iff hr c d).2 hc.1) (ih ds hc.2)

theorem same_of (hr : r.Of n) {b d : Option NBlock} (h : OV r n b d) : SameRecodedNeon r n b d := by
  cases b <;> cases d
  · exact trivial
  · exact h.elim
  · exact h.elim
  · rename_i b d
    refine ⟨?_, BV.votes h⟩
    have hc := BV.clauses h
    generalize b.clauses = cs at hc
    generalize d.clauses = ds at hc
    induction hc with
    | nil => rfl
    | cons h _ ih => simp only [List.map_cons, ih, (cv_iff hr _ _).1 h]

theorem run_bv (hr : r.Of n) (h0 : 0 < n) (smp : List Rat → Rat → Nat) {cs cs' : List (Mem × Option Nat)}
    (hc : List.Forall₂ (r.AvxCall n) cs cs') (hx : ∀ c ∈ cs, Binary (unpadExample n c.1)) (e d : Exec (Option NBlock)) (hf : d.fb = e.fb)
    (hb : List.Forall₂ (OV r n) e.blocks d.blocks) :
    (runCalls neonBackend smp cs' d).2 = (runCalls neonBackend smp cs e).2 ∧
    (runCalls neonBackend smp cs' d).1.fb = (runCalls neonBackend smp cs e).1.fb ∧
    List.Forall₂ (OV r n) (runCalls neonBackend smp cs e).1.blocks (runCalls neonBackend smp cs' d).1.blocks := by
  obtain ⟨zs, rfl, rfl, h3⟩ := pairs hc
  have h := OnePatch.run_sim (sim hr h0) smp zs e d hf hb fun _ _ c hc' =>
    lit_of hr (hx (c.1.1, c.2) (List.mem_map.2 ⟨c, hc', rfl⟩)) (h3 c hc')
  rw [run_on, run_on] at h
  exact h

/-! ### The start -/

theorem weights_congr (nc k : Nat) (g h : Rng) (hg : ∀ i, h.draw (h.pos + i) = g.draw (g.pos + i)) :
    (neonInitAllWeights nc k h).1 = (neonInitAllWeights nc k g).1 := by
  obtain ⟨-, a2, a3⟩ := Start.neonAllWeights_spec nc k g
  obtain ⟨-, b2, b3⟩ := Start.neonAllWeights_spec nc k h
  apply List.ext_getElem?
  intro j
  by_cases hj : j < k
  · obtain ⟨w, w1, w2, w3⟩ := a3 j hj
    obtain ⟨v, v1, v2, v3⟩ := b3 j hj
    rw [w1, v1]
    congr 1
    apply List.ext_getElem?
    intro i
    by_cases hi : i < nc
    · rw [w3 i hi, v3 i hi, hg]
    · rw [List.getElem?_eq_none (by omega), List.getElem?_eq_none (by omega)]
  · rw [List.getElem?_eq_none (by omega), List.getElem?_eq_none (by omega)]

theorem start (h0 : 0 < n) (hr : r.Of n) (nClauses nClasses : Nat) (cfg : VCfg) (hn : cfg.nLits = n)
    (fastOf rngOf : Nat → Rng) (vrngOf : Nat → VRng) (junk : Nat → Mem) (junkCnt : Nat → Nat) (seed : Nat) (b : NBlock)
    (h : neonInit nClauses nClasses cfg fastOf rngOf vrngOf junk junkCnt seed = some b) :
    ∃ rng, Reshuffled (rngOf seed) rng ∧ ∀ g, ∃ d,
      neonInit nClauses nClasses cfg fastOf (fun _ => rng) (fun _ => g) junk junkCnt seed = some d ∧ r.NeonBlock n b g d := by
  subst hn
  unfold neonInit at h
  by_cases hs : seed = 0
  · rw [if_pos hs] at h; cases h
  rw [if_neg hs] at h
  obtain rfl := Option.some.inj h
  generalize rngOf seed = f
  have hm := neonMem_div cfg.nLits
  refine ⟨restart r cfg.nLits (nClauses * (2 * cfg.nLits)) f, restart_perm hr h0 nClauses f, fun g => ⟨_, by rw [neonInit, if_neg hs], ?_⟩⟩
  obtain ⟨a1, a2, a3⟩ := Start.neonRows_spec cfg.nLits junk hm.2 nClauses f
  obtain ⟨b1, b2, b3⟩ := Start.neonRows_spec cfg.nLits junk hm.2 nClauses (restart r cfg.nLits (nClauses * (2 * cfg.nLits)) f)
  have hd : ∀ i, (neonInitRows cfg.nLits junk nClauses (restart r cfg.nLits (nClauses * (2 * cfg.nLits)) f)).2.draw
      ((neonInitRows cfg.nLits junk nClauses (restart r cfg.nLits (nClauses * (2 * cfg.nLits)) f)).2.pos + i) =
      (neonInitRows cfg.nLits junk nClauses f).2.draw ((neonInitRows cfg.nLits junk nClauses f).2.pos + i) := by
    intro i
    rw [a1, b1]
    show (restart r cfg.nLits (nClauses * (2 * cfg.nLits)) f).draw
      ((restart r cfg.nLits (nClauses * (2 * cfg.nLits)) f).pos + nClauses * (2 * cfg.nLits) + i) = f.draw (f.pos + nClauses * (2 * cfg.nLits) + i)
    rw [Nat.add_assoc, restart_draw, Nat.add_assoc]
    unfold place
    simp only
    rw [if_neg (by omega)]
  have hw := weights_congr nClasses nClauses _ _ hd
  obtain ⟨-, c2, -⟩ := Start.neonAllWeights_spec nClasses nClauses (neonInitRows cfg.nLits junk nClauses f).2
  refine ⟨rfl, rfl, rfl, rfl, rfl, ?_⟩
  · simp only [hw]
    generalize (neonInitAllWeights nClasses nClauses (neonInitRows cfg.nLits junk nClauses f).2).1 = ws at c2
    apply List.ext_getElem
    · simp [a2, b2]
    · intro i h1 h2
      simp only [List.length_map, List.length_mapIdx, List.length_zip] at h1
      simp only [List.getElem_mapIdx, List.getElem_zip, List.getElem_map]
      have hi : i < nClauses := by omega
      obtain ⟨p, p1, p2, -⟩ := a3 i hi
      obtain ⟨q, q1, q2, -⟩ := b3 i hi
      rw [List.getElem?_eq_getElem (by omega)] at p1 q1
      rw [Option.some.inj p1, Option.some.inj q1, ← cv_iff hr]
      refine ⟨fun j hj => ?_, rfl, rfl⟩
      obtain ⟨x1, x2⟩ := q2 j hj
      obtain ⟨y1, y2⟩ := p2 (col r j) (col_lt hr hj)
      have hpl : ∀ s, s < 2 → place r cfg.nLits (nClauses * (2 * cfg.nLits)) (i * (2 * cfg.nLits) + 2 * j + s) =
          i * (2 * cfg.nLits) + 2 * col r j + if r.flip (col r j) then 1 - s else s := by
        intro s hs'
        have hlt : i * (2 * cfg.nLits) + 2 * j + s < nClauses * (2 * cfg.nLits) :=
          calc i * (2 * cfg.nLits) + 2 * j + s < i * (2 * cfg.nLits) + 2 * cfg.nLits := by omega
            _ = (i + 1) * (2 * cfg.nLits) := by ring
            _ ≤ nClauses * (2 * cfg.nLits) := Nat.mul_le_mul_right _ hi
        have hmod : (i * (2 * cfg.nLits) + 2 * j + s) % (2 * cfg.nLits) = 2 * j + s := by
          rw [Nat.add_assoc, Nat.mul_comm, Nat.mul_add_mod, Nat.mod_eq_of_lt (by omega)]
        unfold place
        simp only [hmod, if_pos hlt, show (2 * j + s) / 2 = j by omega, show (2 * j + s) % 2 = s by omega]
        omega
      have e0 := hpl 0 (by omega)
      have e1 := hpl 1 (by omega)
      rw [restart_draw] at x1 x2
      rw [Nat.add_zero] at e0
      rw [e0] at x1
      rw [e1] at x2
      rw [Nat.add_comm j] at x2
      rw [Nat.add_comm (col r j)] at y2
      constructor
      · apply BitVec.eq_of_toInt_eq
        rw [x1]
        by_cases hf : r.flip (col r j) = true
        · simp only [hf, if_true]
          rw [y2]
        · simp only [hf]
          exact y1.symm
      · apply BitVec.eq_of_toInt_eq
        rw [x2]
        by_cases hf : r.flip (col r j) = true
        · simp only [hf, if_true, Nat.sub_self, Nat.add_zero]
          rw [y1]
        · simp only [hf]
          exact y2.symm

theorem recoded {n : Nat} (h0 : 0 < n) (r : Recoding) (hr : r.Of n) (e : Exec (Option NBlock)) (bs : List NBlock)
    (he : e.blocks = bs.map some) (hb : ∀ b ∈ bs, b.cfg.nLits = n) (hbo : ∀ b ∈ bs, b.cfg.boost = true → ∀ i, r.flip i = false) :
    ∃ gs : List VRng, List.Forall₂ (fun (b : NBlock) g => ReshuffledBytes 16 b.vrng g) bs gs ∧
      ∀ (smp : List Rat → Rat → Nat) (d : Exec (Option NBlock)) (ds : List NBlock) (calls calls' : List (Mem × Option Nat)),
        d.fb = e.fb → d.blocks = ds.map some →
        List.Forall₂ (fun (bg : NBlock × VRng) d => r.NeonBlock n bg.1 bg.2 d) (bs.zip gs) ds →
        List.Forall₂ (r.AvxCall n) calls calls' → (∀ c ∈ calls, Binary (unpadExample n c.1)) →
        (runCalls neonBackend smp calls' d).2 = (runCalls neonBackend smp calls e).2 ∧
        (runCalls neonBackend smp calls' d).1.fb = (runCalls neonBackend smp calls e).1.fb ∧
        List.Forall₂ (SameRecodedNeon r n) (runCalls neonBackend smp calls e).1.blocks (runCalls neonBackend smp calls' d).1.blocks := by
  refine ⟨bs.map fun b => regen r n b.vrng, ?_, ?_⟩
  · rw [List.forall₂_map_right_iff]
    exact List.forall₂_same.2 fun b _ => regen_perm hr h0 b.vrng
  · intro smp d ds calls calls' hf hd hds hc hx
    have hbv : List.Forall₂ (OV r n) e.blocks d.blocks := by
      rw [he, hd]
      clear he hd
      induction bs generalizing ds with
      | nil => cases hds; exact .nil
      | cons b bs ih =>
        simp only [List.map_cons, List.zip_cons_cons] at hds
        cases hds with
        | cons h hds =>
          exact .cons (bv_of hr (hb b (List.mem_cons_self ..)) (hbo b (List.mem_cons_self ..)) h)
            (ih (fun b h => hb b (List.mem_cons_of_mem _ h)) (fun b h => hbo b (List.mem_cons_of_mem _ h)) _ hds)
    obtain ⟨h1, h2, h3⟩ := run_bv hr h0 smp hc hx e d hf hbv
    exact ⟨h1, h2, h3.imp fun _ _ h => same_of hr h⟩

end GT.RecodeN

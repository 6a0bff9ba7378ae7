import Verif.Spec.Avx2
import Verif.Lemmas.Dense

/-! Helper lemmas about byte vectors and the AVX2 block. -/

namespace GT
open Spec

/-! ### Lanes -/

theorem slt_zero (b : Byte) : b.slt 0#8 = decide (b.toInt < 0) := by
  simp [BitVec.slt]

theorem maskOf_or_eq_zero (b : Bool) (x : Byte) : (maskOf b ||| x == 0#8) = (!b && x == 0#8) := by
  cases b
  · simp [maskOf]
  · revert x; decide

@[simp] theorem maskOf_msb (b : Bool) : (maskOf b).msb = b := by cases b <;> decide
@[simp] theorem maskOf_not (b : Bool) : ~~~ (maskOf b) = maskOf (!b) := by cases b <;> decide
@[simp] theorem maskOf_and (a b : Bool) : maskOf a &&& maskOf b = maskOf (a && b) := by
  cases a <;> cases b <;> decide
@[simp] theorem maskOf_ne (b : Bool) : (maskOf b != 0#8) = b := by cases b <;> decide
@[simp] theorem maskOf_eq_zero (b : Bool) : (maskOf b == 0#8) = !b := by cases b <;> decide
@[simp] theorem ones_and_maskOf (b : Bool) : 0xFF#8 &&& maskOf b = maskOf b := by cases b <;> decide

theorem anyBit_eq {L : Nat} (v : Vec L) : anyBit v = true ↔ ∃ l : Fin L, v l ≠ 0#8 := by
  simp [anyBit, List.any_eq_true]

theorem anyMask_eq {L : Nat} (v : Vec L) : anyMask v = true ↔ ∃ l : Fin L, (v l).msb = true := by
  simp [anyMask, List.any_eq_true]

/-- "Some included literal of the chunk is violated": `want` is the literal value (as a "is zero" test). -/
theorem anyBit_viol {L : Nat} (row : Vec L) (lit : Vec L) :
    anyBit (cmpeq (vor (cmpgt (set1 L 0#8) row) lit) (set1 L 0#8)) = true ↔
      ∃ l : Fin L, 0 ≤ (row l).toInt ∧ lit l = 0#8 := by
  rw [anyBit_eq]
  apply exists_congr
  intro l
  simp only [cmpeq, vor, cmpgt, set1, slt_zero, maskOf_or_eq_zero]
  have : ∀ b : Bool, maskOf b ≠ 0#8 ↔ b = true := by intro b; cases b <;> decide
  rw [this]
  simp

theorem neg_lit {L : Nat} (lit : Vec L) (l : Fin L) :
    cmpeq (set1 L 0#8) lit l = 0#8 ↔ lit l ≠ 0#8 := by
  simp only [cmpeq, set1]
  have : ∀ b : Bool, maskOf b = 0#8 ↔ b = false := by intro b; cases b <;> decide
  rw [this]
  simp only [beq_eq_false_iff_ne, ne_eq]
  exact not_congr eq_comm

theorem countP_finRange {L : Nat} (p : Nat → Bool) (off : Nat) :
    (List.finRange L).countP (fun l => p (off + l.val)) = (List.range' off L).countP p := by
  have : List.range' off L = (List.finRange L).map (fun l => off + l.val) := by
    apply List.ext_getElem
    · simp
    · intro i h1 h2
      simp
  rw [this, List.countP_map]
  rfl

/-- The number of included lanes of a chunk. -/
theorem popcount_active {L : Nat} (row : Mem) (off : Nat) :
    popcountMask (vnot (cmpgt (set1 L 0#8) (load L row off))) =
      (List.range' off L).countP (fun a => decide (0 ≤ (row a).toInt)) := by
  rw [← countP_finRange]
  unfold popcountMask
  apply List.countP_congr
  intro l _
  simp only [vnot, cmpgt, set1, slt_zero, maskOf_not, maskOf_msb, load]
  simp

theorem anyMask_active {L : Nat} (row : Mem) (off : Nat) :
    anyMask (vnot (cmpgt (set1 L 0#8) (load L row off))) = true ↔
      ∃ a, off ≤ a ∧ a < off + L ∧ 0 ≤ (row a).toInt := by
  rw [anyMask_eq]
  simp only [vnot, cmpgt, set1, slt_zero, maskOf_not, maskOf_msb, load]
  constructor
  · rintro ⟨l, hl⟩
    exact ⟨off + l, by omega, by omega, by simpa using hl⟩
  · rintro ⟨a, h1, h2, h3⟩
    refine ⟨⟨a - off, by omega⟩, ?_⟩
    simp only [show off + (a - off) = a by omega]
    simpa using h3

/-! ### The set/eval loops -/

/-- All included literals at addresses `lo ≤ a < hi` are satisfied. -/
def OkRange (mem : Nat) (row lits : Mem) (lo hi : Nat) : Prop :=
  ∀ a, lo ≤ a → a < hi → (0 ≤ (row a).toInt → lits a ≠ 0#8) ∧ (0 ≤ (row (mem + a)).toInt → lits a = 0#8)

/-- Number of included bytes at addresses `lo ≤ a < lo + len`. -/
def incCount (row : Mem) (lo len : Nat) : Nat :=
  (List.range' lo len).countP (fun a => decide (0 ≤ (row a).toInt))

theorem incCount_add (row : Mem) (lo a b : Nat) :
    incCount row lo (a + b) = incCount row lo a + incCount row (lo + a) b := by
  unfold incCount
  rw [← List.range'_append_1, List.countP_append]

theorem viol_pos (row lits : Mem) (i : Nat) :
    anyBit (cmpeq (vor (cmpgt (set1 avxL 0#8) (load avxL row (i * 32))) (load avxL lits (i * 32)))
      (set1 avxL 0#8)) = true ↔
      ∃ a, i * 32 ≤ a ∧ a < i * 32 + 32 ∧ 0 ≤ (row a).toInt ∧ lits a = 0#8 := by
  rw [anyBit_viol]
  constructor
  · rintro ⟨l, h1, h2⟩
    have := l.isLt
    exact ⟨i * 32 + l, by omega, by omega, h1, h2⟩
  · rintro ⟨a, h1, h2, h3, h4⟩
    refine ⟨⟨a - i * 32, by omega⟩, ?_, ?_⟩ <;>
      simp only [load, show i * 32 + (a - i * 32) = a by omega]
    · exact h3
    · exact h4

theorem viol_neg (mem : Nat) (row lits : Mem) (i : Nat) :
    anyBit (cmpeq (vor (cmpgt (set1 avxL 0#8) (load avxL row (mem + i * 32)))
      (cmpeq (set1 avxL 0#8) (load avxL lits (i * 32)))) (set1 avxL 0#8)) = true ↔
      ∃ a, i * 32 ≤ a ∧ a < i * 32 + 32 ∧ 0 ≤ (row (mem + a)).toInt ∧ lits a ≠ 0#8 := by
  rw [anyBit_viol]
  simp only [neg_lit]
  constructor
  · rintro ⟨l, h1, h2⟩
    have := l.isLt
    refine ⟨i * 32 + l, by omega, by omega, ?_, h2⟩
    simpa [load, Nat.add_assoc] using h1
  · rintro ⟨a, h1, h2, h3, h4⟩
    refine ⟨⟨a - i * 32, by omega⟩, ?_, ?_⟩
    · simp only [load, show mem + i * 32 + (a - i * 32) = mem + a by omega]; exact h3
    · simp only [load, show i * 32 + (a - i * 32) = a by omega]; exact h4

theorem okRange_split {mem : Nat} {row lits : Mem} {lo mid hi : Nat} (h1 : lo ≤ mid) (h2 : mid ≤ hi) :
    OkRange mem row lits lo hi ↔ OkRange mem row lits lo mid ∧ OkRange mem row lits mid hi := by
  unfold OkRange
  constructor
  · intro h
    exact ⟨fun a ha hb => h a ha (by omega), fun a ha hb => h a (by omega) hb⟩
  · rintro ⟨h, h'⟩ a ha hb
    by_cases hm : a < mid
    · exact h a ha hm
    · exact h' a (by omega) hb

theorem avxSetLoop_spec (bud : Bool) (mem : Nat) (row lits : Mem) (r : Nat) :
    ∀ i cnt, ((avxSetLoop bud mem row lits i r cnt).1 = true ↔
        OkRange mem row lits (i * 32) ((i + r) * 32)) ∧
      (bud = true → (avxSetLoop bud mem row lits i r cnt).1 = true →
        (avxSetLoop bud mem row lits i r cnt).2 =
          cnt + incCount row (i * 32) (r * 32) + incCount row (mem + i * 32) (r * 32)) := by
  induction r with
  | zero =>
    intro i cnt
    simp only [avxSetLoop, Nat.add_zero, Nat.zero_mul, incCount]
    refine ⟨?_, by simp⟩
    simp only [true_iff]
    intro a h1 h2; omega
  | succ r ih =>
    intro i cnt
    rw [avxSetLoop]
    dsimp only
    have hsp := @okRange_split mem row lits (i * 32) ((i + 1) * 32) ((i + (r + 1)) * 32)
      (by omega) (by omega)
    rw [hsp]
    have hv1 := viol_pos row lits i
    have hv2 := viol_neg mem row lits i
    by_cases h1 : anyBit (cmpeq (vor (cmpgt (set1 avxL 0#8) (load avxL row (i * 32)))
        (load avxL lits (i * 32))) (set1 avxL 0#8)) = true
    · simp only [h1, if_true]
      obtain ⟨a, ha1, ha2, ha3, ha4⟩ := hv1.mp h1
      refine ⟨?_, by simp⟩
      simp only [Bool.false_eq_true, false_iff]
      intro h
      exact (h.1 a ha1 (by omega)).1 ha3 ha4
    · rw [if_neg h1]
      by_cases h2 : anyBit (cmpeq (vor (cmpgt (set1 avxL 0#8) (load avxL row (mem + i * 32)))
          (cmpeq (set1 avxL 0#8) (load avxL lits (i * 32)))) (set1 avxL 0#8)) = true
      · rw [if_pos h2]
        obtain ⟨a, ha1, ha2, ha3, ha4⟩ := hv2.mp h2
        refine ⟨?_, by simp⟩
        simp only [Bool.false_eq_true, false_iff]
        intro h
        exact ha4 ((h.1 a ha1 (by omega)).2 ha3)
      · rw [if_neg h2]
        refine ⟨?_, ?_⟩
        · rw [(ih (i + 1) _).1]
          rw [show i + 1 + r = i + (r + 1) by omega]
          constructor
          · intro h
            refine ⟨?_, h⟩
            intro a ha hb
            constructor
            · intro h3 h4; exact h1 (hv1.mpr ⟨a, ha, by omega, h3, h4⟩)
            · intro h3
              apply Classical.byContradiction
              intro h4
              exact h2 (hv2.mpr ⟨a, ha, by omega, h3, h4⟩)
          · exact fun h => h.2
        · intro hb h
          rw [(ih (i + 1) _).2 hb h]
          subst hb
          simp only [if_true, popcount_active]
          rw [show (r + 1) * 32 = 32 + r * 32 by omega, incCount_add, incCount_add,
            show (i + 1) * 32 = i * 32 + 32 by omega, show mem + (i * 32 + 32) = mem + i * 32 + 32 by omega]
          unfold incCount
          omega

theorem avxEvalLoop_spec (mem : Nat) (row lits : Mem) (r : Nat) :
    ∀ i act, ((avxEvalLoop mem row lits i r act).1 = true ↔
        OkRange mem row lits (i * 32) ((i + r) * 32)) ∧
      ((avxEvalLoop mem row lits i r act).1 = true →
        ((avxEvalLoop mem row lits i r act).2 = true ↔ act = true ∨
          ∃ a, i * 32 ≤ a ∧ a < (i + r) * 32 ∧ (0 ≤ (row a).toInt ∨ 0 ≤ (row (mem + a)).toInt))) := by
  induction r with
  | zero =>
    intro i act
    simp only [avxEvalLoop, Nat.add_zero]
    refine ⟨?_, ?_⟩
    · simp only [true_iff]
      intro a h1 h2; omega
    · intro _
      constructor
      · exact Or.inl
      · rintro (h | ⟨a, h1, h2, _⟩)
        · exact h
        · omega
  | succ r ih =>
    intro i act
    rw [avxEvalLoop]
    dsimp only
    have hsp := @okRange_split mem row lits (i * 32) ((i + 1) * 32) ((i + (r + 1)) * 32)
      (by omega) (by omega)
    rw [hsp]
    have hv1 := viol_pos row lits i
    have hv2 := viol_neg mem row lits i
    by_cases h1 : anyBit (cmpeq (vor (cmpgt (set1 avxL 0#8) (load avxL row (i * 32)))
        (load avxL lits (i * 32))) (set1 avxL 0#8)) = true
    · simp only [h1, if_true]
      obtain ⟨a, ha1, ha2, ha3, ha4⟩ := hv1.mp h1
      refine ⟨?_, by simp⟩
      simp only [Bool.false_eq_true, false_iff]
      intro h
      exact (h.1 a ha1 (by omega)).1 ha3 ha4
    · rw [if_neg h1]
      by_cases h2 : anyBit (cmpeq (vor (cmpgt (set1 avxL 0#8) (load avxL row (mem + i * 32)))
          (cmpeq (set1 avxL 0#8) (load avxL lits (i * 32)))) (set1 avxL 0#8)) = true
      · rw [if_pos h2]
        obtain ⟨a, ha1, ha2, ha3, ha4⟩ := hv2.mp h2
        refine ⟨?_, by simp⟩
        simp only [Bool.false_eq_true, false_iff]
        intro h
        exact ha4 ((h.1 a ha1 (by omega)).2 ha3)
      · rw [if_neg h2]
        refine ⟨?_, ?_⟩
        · rw [(ih (i + 1) _).1]
          rw [show i + 1 + r = i + (r + 1) by omega]
          constructor
          · intro h
            refine ⟨?_, h⟩
            intro a ha hb
            constructor
            · intro h3 h4; exact h1 (hv1.mpr ⟨a, ha, by omega, h3, h4⟩)
            · intro h3
              apply Classical.byContradiction
              intro h4
              exact h2 (hv2.mpr ⟨a, ha, by omega, h3, h4⟩)
          · exact fun h => h.2
        · intro h
          rw [(ih (i + 1) _).2 h]
          simp only [Bool.or_eq_true, anyMask_active]
          constructor
          · rintro ((((h | ⟨a, h1, h2, h3⟩) | ⟨a, h1, h2, h3⟩)) | ⟨a, h1, h2, h3⟩)
            · exact Or.inl h
            · exact Or.inr ⟨a, by omega, by omega, Or.inl h3⟩
            · exact Or.inr ⟨a - mem, by omega, by omega, Or.inr (by
                rw [show mem + (a - mem) = a by omega]; exact h3)⟩
            · exact Or.inr ⟨a, by omega, by omega, h3⟩
          · rintro (h | ⟨a, h1, h2, h3⟩)
            · exact Or.inl (Or.inl (Or.inl h))
            · by_cases hm : a < (i + 1) * 32
              · rcases h3 with h3 | h3
                · exact Or.inl (Or.inl (Or.inr ⟨a, h1, by omega, h3⟩))
                · exact Or.inl (Or.inr ⟨mem + a, by omega, by omega, h3⟩)
              · exact Or.inr ⟨a, by omega, by omega, h3⟩

/-! ### The masked last chunk -/

theorem avxMem_facts {n : Nat} (hn : 0 < n) :
    (avxMem n / 32 - 1) * 32 < n ∧ n ≤ avxMem n ∧ (avxMem n / 32 - 1) * 32 + 32 = avxMem n := by
  unfold avxMem
  split <;> omega

theorem avxMask_eq {n : Nat} (hn : 0 < n) (l : Fin 32) :
    avxMask n l = maskOf (decide ((avxMem n / 32 - 1) * 32 + l.val < n)) := by
  have := l.isLt
  unfold avxMask avxMem
  by_cases h : n % 32 = 0
  · simp only [h, if_true]
    rw [decide_eq_true (by omega)]; rfl
  · simp only [h, if_false]
    by_cases h2 : n % 32 ≤ l.val
    · rw [if_pos h2, decide_eq_false (by omega)]; rfl
    · rw [if_neg h2, decide_eq_true (by omega)]; rfl

theorem active_lane (row : Mem) (off n base : Nat) (mask : Vec 32)
    (hm : ∀ l : Fin 32, mask l = maskOf (decide (base + l.val < n))) (l : Fin 32) :
    vand (vnot (cmpgt (set1 32 0#8) (load 32 row off))) mask l =
      maskOf (decide (0 ≤ (row (off + l)).toInt ∧ base + l < n)) := by
  simp only [vand, vnot, cmpgt, set1, slt_zero, maskOf_not, hm, maskOf_and, load]
  congr 1
  rw [Bool.eq_iff_iff]
  simp

theorem anyBit_masked {L : Nat} (act lit : Vec L) (p : Fin L → Prop) [DecidablePred p]
    (ha : ∀ l, act l = maskOf (decide (p l))) :
    anyBit (cmpeq (vor (vnot act) lit) (set1 L 0#8)) = true ↔ ∃ l : Fin L, p l ∧ lit l = 0#8 := by
  rw [anyBit_eq]
  apply exists_congr
  intro l
  simp only [cmpeq, vor, vnot, set1, ha, maskOf_not, maskOf_or_eq_zero]
  have : ∀ b : Bool, maskOf b ≠ 0#8 ↔ b = true := by intro b; cases b <;> decide
  rw [this]
  simp

theorem anyBit_masked' {L : Nat} (row lit mask : Vec L) (p : Fin L → Prop) [DecidablePred p]
    (ha : ∀ l, mask l = maskOf (decide (p l))) :
    anyBit (vand (cmpeq (vor (cmpgt (set1 L 0#8) row) lit) (set1 L 0#8)) mask) = true ↔
      ∃ l : Fin L, (0 ≤ (row l).toInt ∧ p l) ∧ lit l = 0#8 := by
  rw [anyBit_eq]
  apply exists_congr
  intro l
  simp only [vand, cmpeq, vor, cmpgt, set1, ha, slt_zero, maskOf_or_eq_zero, maskOf_and]
  have : ∀ b : Bool, maskOf b ≠ 0#8 ↔ b = true := by intro b; cases b <;> decide
  rw [this]
  simp
  grind

theorem anyMask_lane {L : Nat} (v : Vec L) (p : Fin L → Prop) [DecidablePred p]
    (ha : ∀ l, v l = maskOf (decide (p l))) : anyMask v = true ↔ ∃ l, p l := by
  rw [anyMask_eq]
  simp [ha]

theorem countP_range'_split (p : Nat → Bool) (off k L : Nat) (hk : k ≤ L)
    (h : ∀ a, off + k ≤ a → p a = false) :
    (List.range' off L).countP p = (List.range' off k).countP p := by
  obtain ⟨m, rfl⟩ := Nat.exists_eq_add_of_le hk
  rw [← List.range'_append_1, List.countP_append]
  have : (List.range' (off + k) m).countP p = 0 := by
    rw [List.countP_eq_zero]
    intro a ha
    rw [List.mem_range'_1] at ha
    simp [h a ha.1]
  omega

/-- The count contributed by the masked last chunk. -/
theorem popcount_masked (row : Mem) (off n base : Nat) (hb : base < n) (hn : n ≤ base + 32)
    (mask : Vec 32) (hm : ∀ l : Fin 32, mask l = maskOf (decide (base + l.val < n))) :
    popcountMask (vand (vnot (cmpgt (set1 32 0#8) (load 32 row off))) mask) =
      incCount row off (n - base) := by
  unfold popcountMask
  simp only [active_lane row off n base mask hm, maskOf_msb]
  have e := countP_finRange (L := 32)
    (fun a => decide (0 ≤ (row a).toInt ∧ base + (a - off) < n)) off
  have : (List.finRange 32).countP
      (fun l : Fin 32 => decide (0 ≤ (row (off + l)).toInt ∧ base + l.val < n)) =
      (List.finRange 32).countP
        (fun l : Fin 32 => decide (0 ≤ (row (off + l.val)).toInt ∧ base + (off + l.val - off) < n)) := by
    apply List.countP_congr
    intro l _
    simp
  rw [this, e, countP_range'_split _ off (n - base) 32 (by omega) (by
    intro a ha; simp; omega)]
  unfold incCount
  apply List.countP_congr
  intro a ha
  rw [List.mem_range'_1] at ha
  simp
  omega

/-- Training output of one AVX2 clause. -/
theorem avxSetClause_spec (cfg : VCfg) (lits : Mem) (c : VClause) (hn : 0 < cfg.nLits) :
    ((avxSetClause cfg lits c).out = 0 ∨ (avxSetClause cfg lits c).out = 1) ∧
    ((avxSetClause cfg lits c).out = 1 ↔ OkRange (avxMem cfg.nLits) c.row lits 0 cfg.nLits) ∧
    (cfg.budget.isSome = true → (avxSetClause cfg lits c).out = 1 →
      (avxSetClause cfg lits c).cnt =
        incCount c.row 0 cfg.nLits + incCount c.row (avxMem cfg.nLits) cfg.nLits) ∧
    (avxSetClause cfg lits c).row = c.row ∧ (avxSetClause cfg lits c).w = c.w := by
  obtain ⟨f1, f2, f3⟩ := avxMem_facts hn
  have hmask := fun l => avxMask_eq hn l
  have hloop := avxSetLoop_spec cfg.budget.isSome (avxMem cfg.nLits) c.row lits
    (avxMem cfg.nLits / 32 - 1) 0 0
  unfold avxSetClause
  dsimp only
  generalize hk : avxMem cfg.nLits / 32 - 1 = k at *
  generalize hmem : avxMem cfg.nLits = mem at *
  generalize hr : avxSetLoop cfg.budget.isSome mem c.row lits 0 k 0 = r at *
  simp only [Nat.zero_mul, Nat.zero_add, Nat.add_zero] at hloop
  rw [okRange_split (Nat.zero_le (k * 32)) (Nat.le_of_lt f1)]
  cases hr1 : r.1 with
  | false =>
    simp only [if_true]
    have hnot : ¬ OkRange mem c.row lits 0 (k * 32) := by
      intro h; rw [hloop.1.mpr h] at hr1; exact absurd hr1 (by simp)
    refine ⟨by simp, ?_, by simp⟩
    simp only [Nat.zero_ne_one, false_iff]
    exact fun h => hnot h.1
  | true =>
    simp only [Bool.true_eq_false, if_false]
    have hok := hloop.1.mp hr1
    have a1 := active_lane c.row (k * 32) cfg.nLits (k * 32) _ hmask
    have a2 := active_lane c.row (mem + k * 32) cfg.nLits (k * 32) _ hmask
    have v1 := anyBit_masked _ (load 32 lits (k * 32)) _ a1
    have v2 := anyBit_masked _ (cmpeq (set1 32 0#8) (load 32 lits (k * 32))) _ a2
    simp only [neg_lit] at v2
    by_cases h1 : anyBit (cmpeq (vor (vnot (vand (vnot (cmpgt (set1 32 0#8)
        (load 32 c.row (k * 32)))) (avxMask cfg.nLits))) (load 32 lits (k * 32))) (set1 32 0#8)) = true
    · simp only [h1, if_true]
      obtain ⟨l, ⟨h3, h4⟩, h5⟩ := v1.mp h1
      refine ⟨by simp, ?_, by simp⟩
      simp only [Nat.zero_ne_one, false_iff]
      intro h
      exact (h.2 (k * 32 + l) (by omega) h4).1 h3 h5
    · rw [if_neg h1]
      dsimp only
      by_cases h2 : anyBit (cmpeq (vor (vnot (vand (vnot (cmpgt (set1 32 0#8)
          (load 32 c.row (mem + k * 32)))) (avxMask cfg.nLits)))
          (cmpeq (set1 32 0#8) (load 32 lits (k * 32)))) (set1 32 0#8)) = true
      · simp only [h2, if_true]
        obtain ⟨l, ⟨h3, h4⟩, h5⟩ := v2.mp h2
        refine ⟨by simp, ?_, by simp⟩
        simp only [Nat.zero_ne_one, false_iff]
        intro h
        exact h5 ((h.2 (k * 32 + l) (by omega) h4).2 (by rw [← Nat.add_assoc]; exact h3))
      · simp only [h2]
        refine ⟨by simp, ?_, ?_, by simp⟩
        · simp only [Bool.false_eq_true, if_false, true_iff]
          refine ⟨hok, ?_⟩
          intro a ha hb
          have hl : k * 32 + (a - k * 32) = a := by omega
          constructor
          · intro h3 h4
            apply h1
            refine v1.mpr ⟨⟨a - k * 32, by omega⟩, ⟨?_, ?_⟩, ?_⟩
            · simp only [hl]; exact h3
            · simp only [hl]; exact hb
            · simp only [load, hl]; exact h4
          · intro h3
            apply Classical.byContradiction
            intro h4
            apply h2
            refine v2.mpr ⟨⟨a - k * 32, by omega⟩, ⟨?_, ?_⟩, ?_⟩
            · simp only [Nat.add_assoc, hl]; exact h3
            · simp only [hl]; exact hb
            · simp only [load, hl]; exact h4
        · intro hb _
          have := hloop.2 hb hr1
          simp only [hb, if_true]
          rw [popcount_masked c.row (k * 32) cfg.nLits (k * 32) f1 (by omega) _ hmask,
            popcount_masked c.row (mem + k * 32) cfg.nLits (k * 32) f1 (by omega) _ hmask, this]
          have e1 := incCount_add c.row 0 (k * 32) (cfg.nLits - k * 32)
          have e2 := incCount_add c.row mem (k * 32) (cfg.nLits - k * 32)
          rw [show k * 32 + (cfg.nLits - k * 32) = cfg.nLits by omega] at e1 e2
          rw [Nat.zero_add] at e1
          omega

/-- Evaluation output of one AVX2 clause. -/
theorem avxEvalClause_spec (cfg : VCfg) (lits : Mem) (c : VClause) (hn : 0 < cfg.nLits) :
    ((avxEvalClause cfg lits c).out = 0 ∨ (avxEvalClause cfg lits c).out = 1) ∧
    ((avxEvalClause cfg lits c).out = 1 ↔ OkRange (avxMem cfg.nLits) c.row lits 0 cfg.nLits ∧
      ∃ a, a < cfg.nLits ∧ (0 ≤ (c.row a).toInt ∨ 0 ≤ (c.row (avxMem cfg.nLits + a)).toInt)) ∧
    (avxEvalClause cfg lits c).row = c.row ∧ (avxEvalClause cfg lits c).w = c.w ∧
    (avxEvalClause cfg lits c).cnt = c.cnt := by
  obtain ⟨f1, f2, f3⟩ := avxMem_facts hn
  have hmask := fun l => avxMask_eq hn l
  have hloop := avxEvalLoop_spec (avxMem cfg.nLits) c.row lits
    (avxMem cfg.nLits / 32 - 1) 0 false
  unfold avxEvalClause
  dsimp only
  generalize hk : avxMem cfg.nLits / 32 - 1 = k at *
  generalize hmem : avxMem cfg.nLits = mem at *
  generalize hr : avxEvalLoop mem c.row lits 0 k false = r at *
  simp only [Nat.zero_mul, Nat.zero_add] at hloop
  rw [okRange_split (Nat.zero_le (k * 32)) (Nat.le_of_lt f1)]
  cases hr1 : r.1 with
  | false =>
    simp only [if_true]
    have hnot : ¬ OkRange mem c.row lits 0 (k * 32) := by
      intro h; rw [hloop.1.mpr h] at hr1; exact absurd hr1 (by simp)
    refine ⟨by simp, ?_, by simp⟩
    simp only [Nat.zero_ne_one, false_iff]
    exact fun h => hnot h.1.1
  | true =>
    simp only [Bool.true_eq_false, if_false]
    have hok := hloop.1.mp hr1
    have hact := hloop.2 hr1
    have a1 := active_lane c.row (k * 32) cfg.nLits (k * 32) _ hmask
    have a2 := active_lane c.row (mem + k * 32) cfg.nLits (k * 32) _ hmask
    have m1 := anyMask_lane _ _ a1
    have m2 := anyMask_lane _ _ a2
    have v1 := anyBit_masked' (load 32 c.row (k * 32)) (load 32 lits (k * 32)) _ _ hmask
    have v2 := anyBit_masked' (load 32 c.row (mem + k * 32))
      (cmpeq (set1 32 0#8) (load 32 lits (k * 32))) _ _ hmask
    simp only [neg_lit] at v2
    by_cases h1 : anyBit (vand (cmpeq (vor (cmpgt (set1 32 0#8)
        (load 32 c.row (k * 32))) (load 32 lits (k * 32))) (set1 32 0#8)) (avxMask cfg.nLits)) = true
    · simp only [h1, if_true]
      obtain ⟨l, ⟨h3, h4⟩, h5⟩ := v1.mp h1
      refine ⟨by simp, ?_, by simp⟩
      simp only [Nat.zero_ne_one, false_iff]
      intro h
      exact (h.1.2 (k * 32 + l) (by omega) h4).1 h3 h5
    · rw [if_neg h1]
      by_cases h2 : anyBit (vand (cmpeq (vor (cmpgt (set1 32 0#8)
          (load 32 c.row (mem + k * 32))) (cmpeq (set1 32 0#8) (load 32 lits (k * 32))))
          (set1 32 0#8)) (avxMask cfg.nLits)) = true
      · simp only [h2, if_true]
        obtain ⟨l, ⟨h3, h4⟩, h5⟩ := v2.mp h2
        refine ⟨by simp, ?_, by simp⟩
        simp only [Nat.zero_ne_one, false_iff]
        intro h
        simp only [load, Nat.add_assoc] at h3 h5
        exact h5 ((h.1.2 (k * 32 + l) (by omega) h4).2 h3)
      · rw [if_neg h2]
        have hall : OkRange mem c.row lits (k * 32) cfg.nLits := by
          intro a ha hb
          have hl : k * 32 + (a - k * 32) = a := by omega
          constructor
          · intro h3 h4
            apply h1
            refine v1.mpr ⟨⟨a - k * 32, by omega⟩, ⟨?_, ?_⟩, ?_⟩
            · simp only [load, hl]; exact h3
            · simp only [hl]; exact hb
            · simp only [load, hl]; exact h4
          · intro h3
            apply Classical.byContradiction
            intro h4
            apply h2
            refine v2.mpr ⟨⟨a - k * 32, by omega⟩, ⟨?_, ?_⟩, ?_⟩
            · simp only [load, Nat.add_assoc, hl]; exact h3
            · simp only [hl]; exact hb
            · simp only [load, hl]; exact h4
        refine ⟨by split <;> simp, ?_, rfl, rfl, rfl⟩
        have hcond : (r.2 || anyMask (vand (vnot (cmpgt (set1 32 0#8) (load 32 c.row (k * 32))))
            (avxMask cfg.nLits)) || anyMask (vand (vnot (cmpgt (set1 32 0#8)
              (load 32 c.row (mem + k * 32)))) (avxMask cfg.nLits))) = true ↔
            ∃ a, a < cfg.nLits ∧ (0 ≤ (c.row a).toInt ∨ 0 ≤ (c.row (mem + a)).toInt) := by
          rw [Bool.or_eq_true, Bool.or_eq_true, hact, m1, m2]
          constructor
          · rintro ((h | ⟨l, h3, h4⟩) | ⟨l, h3, h4⟩)
            · rcases h with h | ⟨a, _, h3, h4⟩
              · exact absurd h (by simp)
              · exact ⟨a, by omega, h4⟩
            · exact ⟨_, h4, Or.inl h3⟩
            · exact ⟨_, h4, Or.inr (by rw [← Nat.add_assoc]; exact h3)⟩
          · rintro ⟨a, ha, h⟩
            by_cases hlt : a < k * 32
            · exact Or.inl (Or.inl (Or.inr ⟨a, by omega, hlt, h⟩))
            · have hl : k * 32 + (a - k * 32) = a := by omega
              rcases h with h | h
              · refine Or.inl (Or.inr ⟨⟨a - k * 32, by omega⟩, ?_, ?_⟩)
                · simp only [hl]; exact h
                · simp only [hl]; exact ha
              · refine Or.inr ⟨⟨a - k * 32, by omega⟩, ?_, ?_⟩
                · simp only [Nat.add_assoc, hl]; exact h
                · simp only [hl]; exact ha
        cases hb : (r.2 || anyMask (vand (vnot (cmpgt (set1 32 0#8) (load 32 c.row (k * 32))))
            (avxMask cfg.nLits)) || anyMask (vand (vnot (cmpgt (set1 32 0#8)
              (load 32 c.row (mem + k * 32)))) (avxMask cfg.nLits))) with
        | false =>
          simp only [if_true, Nat.zero_ne_one, false_iff]
          intro h
          rw [hcond.mpr h.2] at hb
          exact absurd hb (by simp)
        | true =>
          simp only [Bool.true_eq_false, if_false, true_iff]
          exact ⟨⟨hok, hall⟩, hcond.mp hb⟩

/-! ### Reading the padded rows -/

theorem included_map_range (n : Nat) (f : Nat → Int) (i : Nat) :
    Included ((List.range n).map f) i ↔ i < n ∧ 0 ≤ f i := by
  unfold Included
  constructor
  · rintro ⟨v, h, hv⟩
    by_cases hi : i < n
    · simp [hi] at h; exact ⟨hi, by omega⟩
    · simp [Nat.le_of_not_lt hi] at h
  · rintro ⟨h, hv⟩
    exact ⟨f i, by simp [h], hv⟩

theorem incCount_eq_numIncluded (row : Mem) (off n : Nat) :
    incCount row off n = numIncluded ((List.range n).map fun i => (row (off + i)).toInt) := by
  unfold incCount numIncluded
  rw [← List.countP_eq_length_filter, List.countP_map, List.range'_eq_map_range, List.countP_map]
  apply List.countP_congr
  intro a _
  simp

theorem unpadExample_get (n : Nat) (lits : Mem) (i : Nat) (hi : i < n) :
    (unpadExample n lits)[i]? = some (lits i).toNat := by simp [unpadExample, hi]

theorem binary_unpad {n : Nat} {lits : Mem} (h : Binary (unpadExample n lits)) {i : Nat}
    (hi : i < n) : lits i = 0#8 ∨ lits i = 1#8 := by
  have := h _ (List.mem_of_getElem? (unpadExample_get n lits i hi))
  rcases this with h | h
  · exact Or.inl (BitVec.eq_of_toNat_eq (by simpa using h))
  · exact Or.inr (BitVec.eq_of_toNat_eq (by simpa using h))

theorem okRange_iff_satisfied {n : Nat} {lits : Mem} (c : VClause)
    (h : Binary (unpadExample n lits)) :
    OkRange (avxMem n) c.row lits 0 n ↔
      Satisfied (unpad n c).pos (unpad n c).neg (unpadExample n lits) := by
  unfold OkRange Satisfied unpad
  simp only [included_map_range]
  constructor
  · intro H
    refine ⟨fun i ⟨hi, h0⟩ => ?_, fun i ⟨hi, h0⟩ => ?_⟩
    · rw [unpadExample_get n lits i hi]
      rcases binary_unpad h hi with e | e
      · exact absurd e ((H i (by omega) hi).1 h0)
      · rw [e]; rfl
    · rw [unpadExample_get n lits i hi, (H i (by omega) hi).2 h0]; rfl
  · rintro ⟨H1, H2⟩ a _ ha
    refine ⟨fun h0 e => ?_, fun h0 => ?_⟩
    · have := H1 a ⟨ha, h0⟩
      rw [unpadExample_get n lits a ha, e] at this
      simp at this
    · have := H2 a ⟨ha, h0⟩
      rw [unpadExample_get n lits a ha] at this
      exact BitVec.eq_of_toNat_eq (by simpa using this)

theorem unpad_shaped (n : Nat) (c : VClause) (lits : Mem) :
    Shaped (unpadExample n lits).length (unpad n c) := by
  simp [Shaped, unpad, unpadExample]

theorem nonempty_unpad (n : Nat) (c : VClause) :
    (¬ EmptyClause (unpad n c).pos (unpad n c).neg) ↔
      ∃ a, a < n ∧ (0 ≤ (c.row a).toInt ∨ 0 ≤ (c.row (avxMem n + a)).toInt) := by
  unfold EmptyClause unpad
  simp only [included_map_range]
  constructor
  · intro h
    apply Classical.byContradiction
    intro h2
    apply h
    exact ⟨fun i hi => h2 ⟨i, hi.1, Or.inl hi.2⟩, fun i hi => h2 ⟨i, hi.1, Or.inr hi.2⟩⟩
  · rintro ⟨a, ha, h | h⟩ ⟨h1, h2⟩
    · exact h1 a ⟨ha, h⟩
    · exact h2 a ⟨ha, h⟩

/-! ### Feedback, lane by lane -/

/-- Effect of Type Ia feedback on one byte: `up` is "the literal is true in the example". -/
def t1aLane (boost : Bool) (cmp : Byte) (up : Bool) (rnd v : Byte) : Byte :=
  if up then (if boost || !(rnd.slt cmp) then satAdd v 1#8 else v)
  else (if rnd.slt cmp then satAdd v 0xFF#8 else v)

/-- Effect of Type Ib feedback on one byte. -/
def t1bLane (cmp : Byte) (rnd v : Byte) : Byte := if rnd.slt cmp then satAdd v 0xFF#8 else v

/-- Effect of Type II feedback on one byte: `contra` is "the example contradicts the literal". -/
def t2Lane (contra : Bool) (v : Byte) : Byte := if contra && v.slt 0#8 then satAdd v 1#8 else v

theorem satAdd_zero (v : Byte) : satAdd v 0#8 = v := by revert v; decide +kernel

/-- A memory update of the two halves of one chunk. -/
def chunkUpd (mem i : Nat) (P N : Nat → Byte → Byte) (row : Mem) : Mem := fun a =>
  if i * 32 ≤ a ∧ a < i * 32 + 32 then P a (row a)
  else if mem + i * 32 ≤ a ∧ a < mem + i * 32 + 32 then N (a - mem) (row a) else row a

theorem store2_eq (mem i : Nat) (hi : i * 32 + 32 ≤ mem) (row : Mem) (P N : Nat → Byte → Byte)
    (v1 v2 : Vec 32) (h1 : ∀ l : Fin 32, v1 l = P (i * 32 + l) (row (i * 32 + l)))
    (h2 : ∀ l : Fin 32, v2 l = N (i * 32 + l) (row (mem + (i * 32 + l)))) :
    store (store row (i * 32) v1) (mem + i * 32) v2 = chunkUpd mem i P N row := by
  funext a
  unfold store chunkUpd
  by_cases hA : mem + i * 32 ≤ a ∧ a - (mem + i * 32) < 32
  · rw [dif_pos hA, if_neg (by omega), if_pos (by omega), h2]
    simp only
    rw [show mem + (i * 32 + (a - (mem + i * 32))) = a by omega,
      show i * 32 + (a - (mem + i * 32)) = a - mem by omega]
  · rw [dif_neg hA]
    by_cases hB : i * 32 ≤ a ∧ a - i * 32 < 32
    · rw [dif_pos hB, if_pos (by omega), h1]
      simp only
      rw [show i * 32 + (a - i * 32) = a by omega]
    · rw [dif_neg hB, if_neg (by omega), if_neg (by omega)]

/-- Reading the negated half is not affected by the store to the positive half. -/
theorem load_store_other (mem i : Nat) (hi : i * 32 + 32 ≤ mem) (row : Mem) (v : Vec 32) :
    load 32 (store row (i * 32) v) (mem + i * 32) = load 32 row (mem + i * 32) := by
  funext l
  have := l.isLt
  simp only [load, store]
  rw [dif_neg (by omega)]

theorem t1a_lane_eq (boost up : Bool) (cmp rnd v : Byte) :
    satAdd v ((0xFF#8 &&& maskOf (!up && rnd.slt cmp)) |||
      (if boost then maskOf up &&& 1#8 else 1#8 &&& maskOf (up && !rnd.slt cmp))) =
      t1aLane boost cmp up rnd v := by
  unfold t1aLane
  cases up <;> cases boost <;> cases rnd.slt cmp <;> simp [maskOf, satAdd_zero]

theorem avxT1aChunk_eq (cfg : VCfg) (mem : Nat) (lits : Mem) (i : Nat) (row : Mem) (g : VRng)
    (hi : i * 32 + 32 ≤ mem) :
    avxT1aChunk cfg mem lits i row g =
      (chunkUpd mem i
        (fun a v => t1aLane cfg.boost cfg.cmpS (lits a == 1#8) (g.draw g.pos (a - i * 32)) v)
        (fun a v => t1aLane cfg.boost cfg.cmpS (!(lits a == 1#8)) (g.draw (g.pos + 1) (a - i * 32)) v)
        row, { g with pos := g.pos + 2 }) := by
  unfold avxT1aChunk
  dsimp only
  refine Prod.ext ?_ (by simp [VRng.next])
  rw [load_store_other mem i hi]
  dsimp only
  apply store2_eq mem i hi
  · intro l
    rw [← t1a_lane_eq]
    simp only [vadds, load, VRng.next, Nat.add_sub_cancel_left]
    congr 1
    cases cfg.boost <;> simp [vor, vand, vnot, cmpgt, cmpeq, set1, load]
  · intro l
    rw [← t1a_lane_eq]
    simp only [vadds, load, VRng.next, Nat.add_sub_cancel_left]
    rw [Nat.add_assoc]
    congr 1
    cases cfg.boost <;> simp [vor, vand, vnot, cmpgt, cmpeq, set1, load]

theorem avxT1bChunk_eq (cfg : VCfg) (mem : Nat) (i : Nat) (row : Mem) (g : VRng)
    (hi : i * 32 + 32 ≤ mem) :
    avxT1bChunk cfg mem i row g =
      (chunkUpd mem i (fun a v => t1bLane cfg.cmpS (g.draw g.pos (a - i * 32)) v)
        (fun a v => t1bLane cfg.cmpS (g.draw (g.pos + 1) (a - i * 32)) v) row,
        { g with pos := g.pos + 2 }) := by
  unfold avxT1bChunk
  dsimp only
  refine Prod.ext ?_ (by simp [VRng.next])
  rw [load_store_other mem i hi]
  have hl : ∀ rnd v : Byte, satAdd v (0xFF#8 &&& maskOf (rnd.slt cfg.cmpS)) = t1bLane cfg.cmpS rnd v := by
    intro rnd v
    unfold t1bLane
    cases rnd.slt cfg.cmpS <;> simp [maskOf, satAdd_zero]
  dsimp only
  apply store2_eq mem i hi
  · intro l
    rw [← hl]
    simp [vadds, load, VRng.next, vand, cmpgt, set1]
  · intro l
    rw [← hl]
    simp [vadds, load, VRng.next, vand, cmpgt, set1, Nat.add_assoc]

theorem avxT2Chunk_eq (mem : Nat) (lits : Mem) (i : Nat) (row : Mem) (hi : i * 32 + 32 ≤ mem) :
    avxT2Chunk mem lits i row =
      chunkUpd mem i (fun a v => t2Lane (lits a == 0#8) v) (fun a v => t2Lane (!(lits a == 0#8)) v)
        row := by
  unfold avxT2Chunk
  dsimp only
  rw [load_store_other mem i hi]
  have hl : ∀ (b : Bool) (v : Byte), satAdd v (maskOf (b && v.slt 0#8) &&& 1#8) = t2Lane b v := by
    intro b v
    unfold t2Lane
    cases b <;> cases v.slt 0#8 <;> simp [maskOf, satAdd_zero]
  apply store2_eq mem i hi
  · intro l
    rw [← hl]
    simp [vadds, load, vand, cmpgt, cmpeq, set1]
  · intro l
    rw [← hl]
    simp [vadds, load, vand, vnot, cmpgt, cmpeq, set1, Nat.add_assoc]

/-- The loop over the chunks updates each byte of the two halves once. `d` is the number of vector draws
per chunk. -/
theorem chunkLoop_eq (mem d : Nat) (f : Nat → Mem → VRng → Mem × VRng) (D : Nat → Nat → Byte)
    (P N : Nat → Nat → Byte → Byte)
    (hf : ∀ i row p, i * 32 + 32 ≤ mem →
      f i row ⟨D, p⟩ = (chunkUpd mem i (P p) (N p) row, ⟨D, p + d⟩)) (r : Nat) :
    ∀ i row p, (i + r) * 32 ≤ mem →
      chunkLoop f i r row ⟨D, p⟩ =
        (fun a =>
          if i * 32 ≤ a ∧ a < (i + r) * 32 then P (p + d * (a / 32 - i)) a (row a)
          else if mem + i * 32 ≤ a ∧ a < mem + (i + r) * 32 then
            N (p + d * ((a - mem) / 32 - i)) (a - mem) (row a)
          else row a, ⟨D, p + d * r⟩) := by
  induction r with
  | zero =>
    intro i row p h
    simp only [chunkLoop, Nat.add_zero, Nat.mul_zero]
    congr 1
    funext a
    rw [if_neg (by omega), if_neg (by omega)]
  | succ r ih =>
    intro i row p h
    rw [chunkLoop, hf i row p (by omega)]
    dsimp only
    rw [ih (i + 1) _ _ (by omega)]
    refine Prod.ext ?_ (by simp [Nat.mul_add]; omega)
    funext a
    dsimp only
    unfold chunkUpd
    by_cases h1 : i * 32 ≤ a ∧ a < i * 32 + 32
    · rw [if_neg (by omega), if_neg (by omega), if_pos h1, if_pos (by omega),
        show a / 32 - i = 0 by omega, Nat.mul_zero, Nat.add_zero]
    · by_cases h2 : mem + i * 32 ≤ a ∧ a < mem + i * 32 + 32
      · rw [if_neg (by omega), if_neg (by omega), if_neg h1, if_pos h2, if_neg (by omega),
          if_pos (by omega), show (a - mem) / 32 - i = 0 by omega, Nat.mul_zero, Nat.add_zero]
      · rw [if_neg h1, if_neg h2]
        by_cases h3 : (i + 1) * 32 ≤ a ∧ a < (i + 1 + r) * 32
        · rw [if_pos h3, if_pos (by omega), show a / 32 - i = (a / 32 - (i + 1)) + 1 by omega,
            Nat.mul_add, Nat.mul_one, Nat.add_right_comm, Nat.add_assoc]
        · rw [if_neg h3]
          by_cases h4 : mem + (i + 1) * 32 ≤ a ∧ a < mem + (i + 1 + r) * 32
          · rw [if_pos h4, if_neg (by omega), if_pos (by omega),
              show (a - mem) / 32 - i = ((a - mem) / 32 - (i + 1)) + 1 by omega,
              Nat.mul_add, Nat.mul_one, Nat.add_right_comm, Nat.add_assoc]
          · rw [if_neg h4, if_neg (by omega), if_neg (by omega)]

theorem avxMem_div (n : Nat) : avxMem n / 32 * 32 = avxMem n ∧ n ≤ avxMem n := by
  unfold avxMem; split <;> omega

/-- Type Ia feedback on a padded row. -/
theorem avxT1a_eq (cfg : VCfg) (row lits : Mem) (g : VRng) :
    avxT1a cfg row lits g =
      (fun a =>
        if a < avxMem cfg.nLits then
          t1aLane cfg.boost cfg.cmpS (lits a == 1#8) (g.draw (g.pos + 2 * (a / 32)) (a % 32)) (row a)
        else if a < 2 * avxMem cfg.nLits then
          t1aLane cfg.boost cfg.cmpS (!(lits (a - avxMem cfg.nLits) == 1#8))
            (g.draw (g.pos + 2 * ((a - avxMem cfg.nLits) / 32) + 1) ((a - avxMem cfg.nLits) % 32)) (row a)
        else row a, { g with pos := g.pos + 2 * (avxMem cfg.nLits / 32) }) := by
  obtain ⟨D, p⟩ := g
  have h := chunkLoop_eq (avxMem cfg.nLits) 2 (avxT1aChunk cfg (avxMem cfg.nLits) lits) D
    (fun p a v => t1aLane cfg.boost cfg.cmpS (lits a == 1#8) (D p (a % 32)) v)
    (fun p a v => t1aLane cfg.boost cfg.cmpS (!(lits a == 1#8)) (D (p + 1) (a % 32)) v)
    (by
      intro i row p hi
      rw [avxT1aChunk_eq _ _ _ _ _ _ hi]
      refine Prod.ext ?_ rfl
      funext a
      unfold chunkUpd
      by_cases h1 : i * 32 ≤ a ∧ a < i * 32 + 32
      · simp only [h1, and_self, if_true, show a - i * 32 = a % 32 by omega]
      · simp only [h1, if_false]
        by_cases h2 : avxMem cfg.nLits + i * 32 ≤ a ∧ a < avxMem cfg.nLits + i * 32 + 32
        · simp only [h2, and_self, if_true,
            show a - avxMem cfg.nLits - i * 32 = (a - avxMem cfg.nLits) % 32 by omega]
        · simp only [h2, if_false])
    (avxMem cfg.nLits / 32) 0 row p (by have := avxMem_div cfg.nLits; omega)
  have hm := (avxMem_div cfg.nLits).1
  unfold avxT1a
  rw [h]
  refine Prod.ext ?_ rfl
  funext a
  simp only [Nat.zero_add, Nat.zero_mul, Nat.zero_le, true_and, Nat.sub_zero, hm, Nat.add_zero]
  by_cases h1 : a < avxMem cfg.nLits
  · simp [h1]
  · rw [if_neg h1, if_neg h1]
    by_cases h2 : a < 2 * avxMem cfg.nLits
    · rw [if_pos (by omega), if_pos h2]
    · rw [if_neg (by omega), if_neg h2]

/-- Type Ib feedback on a padded row. -/
theorem avxT1b_eq (cfg : VCfg) (row : Mem) (g : VRng) :
    avxT1b cfg row g =
      (fun a =>
        if a < avxMem cfg.nLits then
          t1bLane cfg.cmpS (g.draw (g.pos + 2 * (a / 32)) (a % 32)) (row a)
        else if a < 2 * avxMem cfg.nLits then
          t1bLane cfg.cmpS
            (g.draw (g.pos + 2 * ((a - avxMem cfg.nLits) / 32) + 1) ((a - avxMem cfg.nLits) % 32)) (row a)
        else row a, { g with pos := g.pos + 2 * (avxMem cfg.nLits / 32) }) := by
  obtain ⟨D, p⟩ := g
  have h := chunkLoop_eq (avxMem cfg.nLits) 2 (avxT1bChunk cfg (avxMem cfg.nLits)) D
    (fun p a v => t1bLane cfg.cmpS (D p (a % 32)) v)
    (fun p a v => t1bLane cfg.cmpS (D (p + 1) (a % 32)) v)
    (by
      intro i row p hi
      rw [avxT1bChunk_eq _ _ _ _ _ hi]
      refine Prod.ext ?_ rfl
      funext a
      unfold chunkUpd
      by_cases h1 : i * 32 ≤ a ∧ a < i * 32 + 32
      · simp only [h1, and_self, if_true, show a - i * 32 = a % 32 by omega]
      · simp only [h1, if_false]
        by_cases h2 : avxMem cfg.nLits + i * 32 ≤ a ∧ a < avxMem cfg.nLits + i * 32 + 32
        · simp only [h2, and_self, if_true,
            show a - avxMem cfg.nLits - i * 32 = (a - avxMem cfg.nLits) % 32 by omega]
        · simp only [h2, if_false])
    (avxMem cfg.nLits / 32) 0 row p (by have := avxMem_div cfg.nLits; omega)
  have hm := (avxMem_div cfg.nLits).1
  unfold avxT1b
  rw [h]
  refine Prod.ext ?_ rfl
  funext a
  simp only [Nat.zero_add, Nat.zero_mul, Nat.zero_le, true_and, Nat.sub_zero, hm, Nat.add_zero]
  by_cases h1 : a < avxMem cfg.nLits
  · simp [h1]
  · rw [if_neg h1, if_neg h1]
    by_cases h2 : a < 2 * avxMem cfg.nLits
    · rw [if_pos (by omega), if_pos h2]
    · rw [if_neg (by omega), if_neg h2]

/-- Type II feedback on a padded row. -/
theorem avxT2_eq (cfg : VCfg) (row lits : Mem) (g : VRng) :
    avxT2 cfg row lits g =
      (fun a =>
        if a < avxMem cfg.nLits then t2Lane (lits a == 0#8) (row a)
        else if a < 2 * avxMem cfg.nLits then
          t2Lane (!(lits (a - avxMem cfg.nLits) == 0#8)) (row a)
        else row a, g) := by
  obtain ⟨D, p⟩ := g
  have h := chunkLoop_eq (avxMem cfg.nLits) 0
    (fun i row g => (avxT2Chunk (avxMem cfg.nLits) lits i row, g)) D
    (fun _ a v => t2Lane (lits a == 0#8) v)
    (fun _ a v => t2Lane (!(lits a == 0#8)) v)
    (by
      intro i row p hi
      rw [avxT2Chunk_eq _ _ _ _ hi]
      rfl)
    (avxMem cfg.nLits / 32) 0 row p (by have := avxMem_div cfg.nLits; omega)
  have hm := (avxMem_div cfg.nLits).1
  unfold avxT2
  rw [h]
  refine Prod.ext ?_ (by simp)
  funext a
  simp only [Nat.zero_add, Nat.zero_mul, Nat.zero_le, true_and, Nat.add_zero, hm]
  by_cases h1 : a < avxMem cfg.nLits
  · simp [h1]
  · rw [if_neg h1, if_neg h1]
    by_cases h2 : a < 2 * avxMem cfg.nLits
    · rw [if_pos (by omega), if_pos h2]
    · rw [if_neg (by omega), if_neg h2]

/-! Values of the lanes as signed numbers. -/

theorem satAdd_one_toInt (v : Byte) : (satAdd v 1#8).toInt = min 127 (v.toInt + 1) := by
  revert v; decide +kernel

theorem satAdd_minus_toInt (v : Byte) : (satAdd v 0xFF#8).toInt = max (-128) (v.toInt - 1) := by
  revert v; decide +kernel

theorem t2Lane_toInt (b : Bool) (v : Byte) :
    (t2Lane b v).toInt = if b = true ∧ v.toInt < 0 then wrap8 (v.toInt + 1) else v.toInt := by
  revert b v; decide +kernel

theorem byte_range (v : Byte) : -128 ≤ v.toInt ∧ v.toInt ≤ 127 := by
  revert v; decide +kernel

/-! ### Padding does not matter -/

theorem visible_eq_iff (n : Nat) (c d : VClause) :
    visible n c = visible n d ↔
      (∀ i, i < n → c.row i = d.row i ∧ c.row (avxMem n + i) = d.row (avxMem n + i)) ∧
        c.w = d.w ∧ c.out = d.out := by
  unfold visible unpad
  simp only [Clause.mk.injEq, List.map_inj_left, List.mem_range, BitVec.toInt_inj, and_true]
  constructor
  · rintro ⟨h1, h2, h3, h4⟩
    exact ⟨fun i hi => ⟨h1 i hi, h2 i hi⟩, h3, h4⟩
  · rintro ⟨h1, h3, h4⟩
    exact ⟨fun i hi => (h1 i hi).1, fun i hi => (h1 i hi).2, h3, h4⟩

theorem okRange_congr {mem n : Nat} {row row' lits lits' : Mem}
    (hr : ∀ i, i < n → row i = row' i ∧ row (mem + i) = row' (mem + i))
    (hl : ∀ i, i < n → lits i = lits' i) :
    OkRange mem row lits 0 n ↔ OkRange mem row' lits' 0 n := by
  unfold OkRange
  apply forall_congr'; intro a
  apply imp_congr_right; intro _
  apply imp_congr_right; intro ha
  rw [(hr a ha).1, (hr a ha).2, hl a ha]

theorem incCount_congr {row row' : Mem} {lo n : Nat} (h : ∀ i, i < n → row (lo + i) = row' (lo + i)) :
    incCount row lo n = incCount row' lo n := by
  unfold incCount
  apply List.countP_congr
  intro a ha
  rw [List.mem_range'_1] at ha
  have := h (a - lo) (by omega)
  rw [show lo + (a - lo) = a by omega] at this
  rw [this]

/-- The counters agree as far as they matter for the next update. -/
def CntOk (cfg : VCfg) (c d : VClause) : Prop := cfg.budget.isSome = true → c.out = 1 → c.cnt = d.cnt

theorem avxSet_visible {cfg : VCfg} (hn : 0 < cfg.nLits) {lits lits' : Mem}
    (hl : ∀ i, i < cfg.nLits → lits i = lits' i) {c d : VClause}
    (h : visible cfg.nLits c = visible cfg.nLits d) :
    visible cfg.nLits (avxSetClause cfg lits c) = visible cfg.nLits (avxSetClause cfg lits' d) ∧
      CntOk cfg (avxSetClause cfg lits c) (avxSetClause cfg lits' d) := by
  rw [visible_eq_iff] at h ⊢
  obtain ⟨hr, hw, _⟩ := h
  have h1 := avxSetClause_spec cfg lits c hn
  have h2 := avxSetClause_spec cfg lits' d hn
  have ho : (avxSetClause cfg lits c).out = (avxSetClause cfg lits' d).out := by
    have : (avxSetClause cfg lits c).out = 1 ↔ (avxSetClause cfg lits' d).out = 1 := by
      rw [h1.2.1, h2.2.1, okRange_congr hr hl]
    rcases h1.1 with a | a <;> rcases h2.1 with b | b <;> omega
  refine ⟨⟨?_, ?_, ho⟩, ?_⟩
  · rw [h1.2.2.2.1, h2.2.2.2.1]; exact hr
  · rw [h1.2.2.2.2, h2.2.2.2.2]; exact hw
  · intro hb ho1
    rw [h1.2.2.1 hb ho1, h2.2.2.1 hb (by rw [← ho]; exact ho1),
      incCount_congr (lo := 0) (fun i hi => by simpa using (hr i hi).1),
      incCount_congr (fun i hi => (hr i hi).2)]

theorem avxEval_visible {cfg : VCfg} (hn : 0 < cfg.nLits) {lits lits' : Mem}
    (hl : ∀ i, i < cfg.nLits → lits i = lits' i) {c d : VClause}
    (h : visible cfg.nLits c = visible cfg.nLits d) :
    visible cfg.nLits (avxEvalClause cfg lits c) = visible cfg.nLits (avxEvalClause cfg lits' d) := by
  rw [visible_eq_iff] at h ⊢
  obtain ⟨hr, hw, _⟩ := h
  have h1 := avxEvalClause_spec cfg lits c hn
  have h2 := avxEvalClause_spec cfg lits' d hn
  refine ⟨?_, ?_, ?_⟩
  · rw [h1.2.2.1, h2.2.2.1]; exact hr
  · rw [h1.2.2.2.1, h2.2.2.2.1]; exact hw
  · have : (avxEvalClause cfg lits c).out = 1 ↔ (avxEvalClause cfg lits' d).out = 1 := by
      rw [h1.2.1, h2.2.1, okRange_congr hr hl]
      apply and_congr_right; intro _
      constructor
      · rintro ⟨a, ha, h⟩; rw [(hr a ha).1, (hr a ha).2] at h; exact ⟨a, ha, h⟩
      · rintro ⟨a, ha, h⟩; rw [← (hr a ha).1, ← (hr a ha).2] at h; exact ⟨a, ha, h⟩
    rcases h1.1 with a | a <;> rcases h2.1 with b | b <;> omega

theorem avxT_rows_congr {cfg : VCfg} {row row' lits lits' : Mem} (g : VRng)
    (hr : ∀ i, i < cfg.nLits → row i = row' i ∧
      row (avxMem cfg.nLits + i) = row' (avxMem cfg.nLits + i))
    (hl : ∀ i, i < cfg.nLits → lits i = lits' i) :
    ((∀ i, i < cfg.nLits → (avxT1a cfg row lits g).1 i = (avxT1a cfg row' lits' g).1 i ∧
        (avxT1a cfg row lits g).1 (avxMem cfg.nLits + i) =
          (avxT1a cfg row' lits' g).1 (avxMem cfg.nLits + i)) ∧
      (avxT1a cfg row lits g).2 = (avxT1a cfg row' lits' g).2) ∧
    ((∀ i, i < cfg.nLits → (avxT1b cfg row g).1 i = (avxT1b cfg row' g).1 i ∧
        (avxT1b cfg row g).1 (avxMem cfg.nLits + i) =
          (avxT1b cfg row' g).1 (avxMem cfg.nLits + i)) ∧
      (avxT1b cfg row g).2 = (avxT1b cfg row' g).2) ∧
    ((∀ i, i < cfg.nLits → (avxT2 cfg row lits g).1 i = (avxT2 cfg row' lits' g).1 i ∧
        (avxT2 cfg row lits g).1 (avxMem cfg.nLits + i) =
          (avxT2 cfg row' lits' g).1 (avxMem cfg.nLits + i)) ∧
      (avxT2 cfg row lits g).2 = (avxT2 cfg row' lits' g).2) := by
  have hm := (avxMem_div cfg.nLits).2
  have key : ∀ i, i < cfg.nLits → i < avxMem cfg.nLits ∧ ¬ (avxMem cfg.nLits + i < avxMem cfg.nLits) ∧
      avxMem cfg.nLits + i < 2 * avxMem cfg.nLits ∧ avxMem cfg.nLits + i - avxMem cfg.nLits = i := by
    intro i hi; omega
  simp only [avxT1a_eq, avxT1b_eq, avxT2_eq, and_true]
  refine ⟨?_, ?_, ?_⟩ <;> intro i hi <;> obtain ⟨k1, k2, k3, k4⟩ := key i hi <;>
    simp only [k1, k2, k3, k4, if_true, if_false, (hr i hi).1, (hr i hi).2, hl i hi, and_self]

theorem avxClauseUpdate_visible {cfg : VCfg} {lits lits' : Mem}
    (hl : ∀ i, i < cfg.nLits → lits i = lits' i) (j : Nat) (t : Int) {c d : VClause} (g : VRng)
    (h : visible cfg.nLits c = visible cfg.nLits d) :
    visible cfg.nLits (avxClauseUpdate cfg lits j t c g).1 =
      visible cfg.nLits (avxClauseUpdate cfg lits' j t d g).1 ∧
    (avxClauseUpdate cfg lits j t c g).2 = (avxClauseUpdate cfg lits' j t d g).2 ∧
    (avxClauseUpdate cfg lits j t c g).1.out = c.out := by
  rw [visible_eq_iff] at h
  obtain ⟨hr, hw, ho⟩ := h
  obtain ⟨ha, hb, hc⟩ := avxT_rows_congr g hr hl
  unfold avxClauseUpdate
  dsimp only
  rw [hw, ho]
  generalize (if d.w.getD j 0 ≥ 0 then (1 : Int) else -1) = sign
  by_cases hs : t * sign > 0
  · simp only [hs, if_true]
    by_cases h1 : d.out = 1
    · simp only [h1, if_true]
      exact ⟨(visible_eq_iff _ _ _).mpr ⟨ha.1, rfl, rfl⟩, ha.2, trivial⟩
    · simp only [h1, if_false]
      exact ⟨(visible_eq_iff _ _ _).mpr ⟨hb.1, rfl, rfl⟩, hb.2, trivial⟩
  · simp only [hs, if_false]
    by_cases h1 : t * sign < 0 ∧ d.out = 1
    · simp only [h1, and_self, if_true]
      exact ⟨(visible_eq_iff _ _ _).mpr ⟨hc.1, rfl, rfl⟩, hc.2, trivial⟩
    · simp only [h1, if_false]
      exact ⟨(visible_eq_iff _ _ _).mpr ⟨hr, hw, ho⟩, trivial, ho⟩

theorem avxTrainClause_visible {cfg : VCfg} {lits lits' : Mem}
    (hl : ∀ i, i < cfg.nLits → lits i = lits' i) (fb : Feedback) {c d : VClause} (f : Rng) (g : VRng)
    (h : visible cfg.nLits c = visible cfg.nLits d) (hc : CntOk cfg c d)
    (ho : c.out = 0 ∨ c.out = 1) :
    visible cfg.nLits (avxTrainClause cfg lits fb c f g).1 =
      visible cfg.nLits (avxTrainClause cfg lits' fb d f g).1 ∧
    (avxTrainClause cfg lits fb c f g).2 = (avxTrainClause cfg lits' fb d f g).2 := by
  have hgate : visible cfg.nLits (avxBudgetGate cfg c) = visible cfg.nLits (avxBudgetGate cfg d) := by
    have h' := (visible_eq_iff _ _ _).mp h
    unfold avxBudgetGate
    cases hb : cfg.budget with
    | none => exact h
    | some b =>
      dsimp only
      rcases ho with ho | ho
      · have ho' : d.out = 0 := by rw [← h'.2.2]; exact ho
        rw [visible_eq_iff]
        split <;> split <;> simp [h'.2.1, ho, ho'] <;> exact h'.1
      · have := hc (by simp [hb]) ho
        rw [this]
        split
        · exact (visible_eq_iff _ _ _).mpr ⟨h'.1, h'.2.1, rfl⟩
        · exact h
  unfold avxTrainClause
  dsimp only
  by_cases h1 : f.next.1 < fb.posProb
  · simp only [h1, if_true]
    have s1 := avxClauseUpdate_visible hl fb.posClass 1 g hgate
    by_cases h2 : f.next.2.next.1 < fb.negProb
    · simp only [h2, if_true]
      rw [← s1.2.1]
      have s2 := avxClauseUpdate_visible hl fb.negClass (-1)
        (avxClauseUpdate cfg lits fb.posClass 1 (avxBudgetGate cfg c) g).2 s1.1
      exact ⟨s2.1, by rw [s2.2.1]⟩
    · simp only [h2, if_false]
      exact ⟨s1.1, by rw [s1.2.1]⟩
  · simp only [h1, if_false]
    by_cases h2 : f.next.2.next.1 < fb.negProb
    · simp only [h2, if_true]
      have s2 := avxClauseUpdate_visible hl fb.negClass (-1) g hgate
      exact ⟨s2.1, by rw [s2.2.1]⟩
    · simp only [h2, if_false]
      exact ⟨hgate, trivial⟩

/-- Set the outputs, then update, on two lists of clauses that look the same. -/
theorem avxTrain_visible {cfg : VCfg} (hn : 0 < cfg.nLits) {lits lits' : Mem}
    (hl : ∀ i, i < cfg.nLits → lits i = lits' i) (fb : Feedback) (cs ds : List VClause)
    (f : Rng) (g : VRng) (h : cs.map (visible cfg.nLits) = ds.map (visible cfg.nLits)) :
    (avxTrainClauses cfg lits fb (cs.map (avxSetClause cfg lits)) f g).1.map (visible cfg.nLits) =
      (avxTrainClauses cfg lits' fb (ds.map (avxSetClause cfg lits')) f g).1.map (visible cfg.nLits) ∧
    (avxTrainClauses cfg lits fb (cs.map (avxSetClause cfg lits)) f g).2 =
      (avxTrainClauses cfg lits' fb (ds.map (avxSetClause cfg lits')) f g).2 := by
  induction cs generalizing ds f g with
  | nil =>
    cases ds with
    | nil => simp [avxTrainClauses]
    | cons d ds => simp at h
  | cons c cs ih =>
    cases ds with
    | nil => simp at h
    | cons d ds =>
      simp only [List.map_cons, List.cons.injEq] at h
      obtain ⟨hv, hc⟩ := avxSet_visible hn hl h.1
      obtain ⟨e1, e2⟩ := avxTrainClause_visible hl fb f g hv hc (avxSetClause_spec cfg lits c hn).1
      obtain ⟨i1, i2⟩ := ih ds (avxTrainClause cfg lits fb (avxSetClause cfg lits c) f g).2.1
        (avxTrainClause cfg lits fb (avxSetClause cfg lits c) f g).2.2 h.2
      simp only [List.map_cons, avxTrainClauses]
      rw [e1, i1, ← e2, i2]
      exact ⟨rfl, rfl⟩

theorem avxCountVotes_congr (n m : Nat) (cs ds : List VClause)
    (h : cs.map (visible m) = ds.map (visible m)) : avxCountVotes n cs = avxCountVotes n ds := by
  unfold avxCountVotes
  generalize List.replicate n (0 : Int) = v
  induction cs generalizing ds v with
  | nil =>
    cases ds with
    | nil => rfl
    | cons d ds => simp at h
  | cons c cs ih =>
    cases ds with
    | nil => simp at h
    | cons d ds =>
      simp only [List.map_cons, List.cons.injEq] at h
      have := (visible_eq_iff _ _ _).mp h.1
      simp only [List.foldl_cons]
      rw [this.2.1, this.2.2]
      exact ih ds h.2 _

theorem map_set_visible {cfg : VCfg} {lits lits' : Mem} (f : VCfg → Mem → VClause → VClause)
    (hf : ∀ c d, visible cfg.nLits c = visible cfg.nLits d →
      visible cfg.nLits (f cfg lits c) = visible cfg.nLits (f cfg lits' d)) (cs ds : List VClause)
    (h : cs.map (visible cfg.nLits) = ds.map (visible cfg.nLits)) :
    (cs.map (f cfg lits)).map (visible cfg.nLits) = (ds.map (f cfg lits')).map (visible cfg.nLits) := by
  induction cs generalizing ds with
  | nil =>
    cases ds with
    | nil => rfl
    | cons d ds => simp at h
  | cons c cs ih =>
    cases ds with
    | nil => simp at h
    | cons d ds =>
      simp only [List.map_cons, List.cons.injEq] at h ⊢
      exact ⟨hf _ _ h.1, ih ds h.2⟩

/-! ### Weights and update cases -/

theorem avxClauseUpdate_w (cfg : VCfg) (lits : Mem) (j : Nat) (t : Int) (c : VClause) (g : VRng)
    (ht : t = 1 ∨ t = -1) :
    (avxClauseUpdate cfg lits j t c g).1.w = (if c.out = 1 then bump j t c.w else c.w) ∧
    (avxClauseUpdate cfg lits j t c g).1.out = c.out := by
  unfold avxClauseUpdate bump
  dsimp only
  generalize c.w.getD j 0 = v
  by_cases hw : v ≥ 0 <;> rcases ht with rfl | rfl <;> by_cases ho : c.out = 1 <;>
    simp [hw, ho, Int.sub_eq_add_neg]

theorem avxBudgetGate_facts (cfg : VCfg) (c : VClause) :
    ((avxBudgetGate cfg c).out = 1 ↔ c.out = 1 ∧ ∀ b, cfg.budget = some b → c.cnt ≤ b) ∧
    (avxBudgetGate cfg c).w = c.w ∧ (avxBudgetGate cfg c).row = c.row := by
  unfold avxBudgetGate
  cases h : cfg.budget with
  | none => simp
  | some b => dsimp only; split <;> simp <;> omega

theorem avxTrainClause_w (cfg : VCfg) (lits : Mem) (fb : Feedback) (c : VClause) (f : Rng) (g : VRng) :
    (avxTrainClause cfg lits fb c f g).1.w =
      (let w1 := if (avxBudgetGate cfg c).out = 1 ∧ f.draw f.pos < fb.posProb
                 then bump fb.posClass 1 c.w else c.w
       if (avxBudgetGate cfg c).out = 1 ∧ f.draw (f.pos + 1) < fb.negProb
       then bump fb.negClass (-1) w1 else w1) := by
  simp only [avxTrainClause, Rng.next]
  have h1' := fun j (t : Int) ht c g => avxClauseUpdate_w cfg lits j t c g ht
  have hw := (avxBudgetGate_facts cfg c).2.1
  by_cases h1 : f.draw f.pos < fb.posProb <;> by_cases h2 : f.draw (f.pos + 1) < fb.negProb <;>
    by_cases h3 : (avxBudgetGate cfg c).out = 1 <;>
    simp [h1, h2, h3, h1' _ 1 (Or.inl rfl), h1' _ (-1) (Or.inr rfl), hw]

theorem avxTrainClauses_get (cfg : VCfg) (lits : Mem) (fb : Feedback) (cs : List VClause) (f : Rng)
    (g : VRng) (i : Nat) (c : VClause) (h : cs[i]? = some c) :
    ∃ g', (avxTrainClauses cfg lits fb cs f g).1[i]? =
      some (avxTrainClause cfg lits fb c { f with pos := f.pos + 2 * i } g').1 := by
  induction cs generalizing f g i with
  | nil => simp at h
  | cons d cs ih =>
    rw [avxTrainClauses]
    cases i with
    | zero => simp at h; subst h; exact ⟨g, by simp⟩
    | succ i =>
      simp at h
      obtain ⟨g', e⟩ := ih (avxTrainClause cfg lits fb d f g).2.1
        (avxTrainClause cfg lits fb d f g).2.2 i h
      refine ⟨g', ?_⟩
      have hf : (avxTrainClause cfg lits fb d f g).2.1 = { f with pos := f.pos + 2 } := by
        simp [avxTrainClause, Rng.next]
      rw [hf] at e
      simp only [List.getElem?_cons_succ, hf, e]
      rw [show f.pos + 2 + 2 * i = f.pos + 2 * (i + 1) by omega]

theorem avxTrainClauses_length (cfg : VCfg) (lits : Mem) (fb : Feedback) (cs : List VClause) (f : Rng)
    (g : VRng) : (avxTrainClauses cfg lits fb cs f g).1.length = cs.length := by
  induction cs generalizing f g with
  | nil => simp [avxTrainClauses]
  | cons d cs ih => simp [avxTrainClauses, ih]

/-- Values after Type Ia feedback as signed numbers. -/
theorem t1aLane_toInt (boost : Bool) (cmp : Byte) (up : Bool) (rnd v : Byte) :
    (t1aLane boost cmp up rnd v).toInt =
      if up = true then (if boost = true ∨ ¬ rnd.toInt < cmp.toInt then min 127 (v.toInt + 1) else v.toInt)
      else (if rnd.toInt < cmp.toInt then max (-128) (v.toInt - 1) else v.toInt) := by
  unfold t1aLane
  have : rnd.slt cmp = decide (rnd.toInt < cmp.toInt) := rfl
  rw [this]
  cases up <;> cases boost <;> by_cases h : rnd.toInt < cmp.toInt <;>
    simp [h, satAdd_one_toInt, satAdd_minus_toInt]

theorem t1bLane_toInt (cmp rnd v : Byte) :
    (t1bLane cmp rnd v).toInt =
      if rnd.toInt < cmp.toInt then max (-128) (v.toInt - 1) else v.toInt := by
  unfold t1bLane
  have : rnd.slt cmp = decide (rnd.toInt < cmp.toInt) := rfl
  rw [this]
  by_cases h : rnd.toInt < cmp.toInt <;> simp [h, satAdd_minus_toInt]

/-- A clause that does not fire receives Type Ib feedback or nothing. -/
theorem avxClauseUpdate_silent (cfg : VCfg) (lits : Mem) (j : Nat) (t : Int) (c : VClause) (g : VRng)
    (ho : c.out ≠ 1) :
    (avxClauseUpdate cfg lits j t c g).1 = c ∨
      (avxClauseUpdate cfg lits j t c g).1 = { c with row := (avxT1b cfg c.row g).1 } := by
  unfold avxClauseUpdate
  dsimp only
  generalize (if c.w.getD j 0 ≥ 0 then (1 : Int) else -1) = sign
  by_cases hs : t * sign > 0
  · simp [hs, ho]
  · simp [hs, ho]

theorem avxT1b_row_le (cfg : VCfg) (row : Mem) (g : VRng) (a : Nat) :
    ((avxT1b cfg row g).1 a).toInt ≤ (row a).toInt := by
  have hb := byte_range (row a)
  rw [avxT1b_eq]
  dsimp only
  split
  · rw [t1bLane_toInt]; split <;> omega
  · split
    · rw [t1bLane_toInt]; split <;> omega
    · omega

theorem avxTrainClause_silent (cfg : VCfg) (lits : Mem) (fb : Feedback) (c : VClause) (f : Rng)
    (g : VRng) (ho : (avxBudgetGate cfg c).out ≠ 1) :
    (avxTrainClause cfg lits fb c f g).1.w = c.w ∧
    ∀ a, ((avxTrainClause cfg lits fb c f g).1.row a).toInt ≤ (c.row a).toInt := by
  refine ⟨by rw [avxTrainClause_w]; simp [ho], ?_⟩
  intro a
  have hrow := (avxBudgetGate_facts cfg c).2.2
  have key : ∀ (j : Nat) (t : Int) (d : VClause) (g : VRng), d.out ≠ 1 →
      ((avxClauseUpdate cfg lits j t d g).1.row a).toInt ≤ (d.row a).toInt := by
    intro j t d g hd
    rcases avxClauseUpdate_silent cfg lits j t d g hd with e | e <;> rw [e]
    · exact Int.le_refl _
    · exact avxT1b_row_le cfg d.row g a
  rw [← hrow]
  unfold avxTrainClause
  dsimp only
  by_cases h1 : f.next.1 < fb.posProb <;> by_cases h2 : f.next.2.next.1 < fb.negProb <;>
    simp only [h1, h2, if_true, if_false]
  · exact Int.le_trans (key _ _ _ _ (by rw [(avxClauseUpdate_w cfg lits _ _ _ _ (Or.inl rfl)).2]; exact ho))
      (key _ _ _ _ ho)
  · exact key _ _ _ _ ho
  · exact key _ _ _ _ ho
  · exact Int.le_refl _

end GT

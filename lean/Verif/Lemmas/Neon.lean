import Verif.Spec.Neon
import Verif.Lemmas.Avx2

/-! Helper lemmas about the NEON block: the 16-lane counterparts of those in Lemmas/Avx2. -/

namespace GT.Neon
open Spec

theorem movemask_lane {L : Nat} (v : Vec L) (p : Fin L → Prop) [DecidablePred p]
    (ha : ∀ l, v l = maskOf (decide (p l))) : movemaskNZ v = true ↔ ∃ l, p l := by
  unfold movemaskNZ
  rw [List.any_eq_true]
  constructor
  · rintro ⟨l, _, h⟩
    refine ⟨l, ?_⟩
    rw [ha] at h
    by_cases hp : p l
    · exact hp
    · rw [decide_eq_false hp] at h
      exfalso
      revert h
      split <;> decide
  · rintro ⟨l, h⟩
    refine ⟨l, List.mem_finRange l, ?_⟩
    rw [ha, decide_eq_true h]
    split <;> decide

theorem movemask_active {L : Nat} (row : Mem) (off : Nat) :
    movemaskNZ (vnot (cmpgt (set1 L 0#8) (load L row off))) = true ↔
      ∃ a, off ≤ a ∧ a < off + L ∧ 0 ≤ (row a).toInt := by
  rw [movemask_lane _ (fun l : Fin L => 0 ≤ (row (off + l)).toInt) (fun l => by
    simp only [vnot, cmpgt, set1, slt_zero, maskOf_not, load]
    congr 1
    rw [Bool.eq_iff_iff]
    simp)]
  constructor
  · rintro ⟨l, hl⟩
    exact ⟨off + l, by omega, by omega, hl⟩
  · rintro ⟨a, h1, h2, h3⟩
    refine ⟨⟨a - off, by omega⟩, ?_⟩
    simp only [show off + (a - off) = a by omega]
    exact h3

theorem viol_pos (row lits : Mem) (i : Nat) :
    anyBit (cmpeq (vor (cmpgt (set1 neonL 0#8) (load neonL row (i * 16))) (load neonL lits (i * 16)))
      (set1 neonL 0#8)) = true ↔
      ∃ a, i * 16 ≤ a ∧ a < i * 16 + 16 ∧ 0 ≤ (row a).toInt ∧ lits a = 0#8 := by
  rw [anyBit_viol]
  constructor
  · rintro ⟨l, h1, h2⟩
    have := l.isLt
    exact ⟨i * 16 + l, by omega, by omega, h1, h2⟩
  · rintro ⟨a, h1, h2, h3, h4⟩
    refine ⟨⟨a - i * 16, by omega⟩, ?_, ?_⟩ <;>
      simp only [load, show i * 16 + (a - i * 16) = a by omega]
    · exact h3
    · exact h4

theorem viol_neg (mem : Nat) (row lits : Mem) (i : Nat) :
    anyBit (cmpeq (vor (cmpgt (set1 neonL 0#8) (load neonL row (mem + i * 16)))
      (cmpeq (set1 neonL 0#8) (load neonL lits (i * 16)))) (set1 neonL 0#8)) = true ↔
      ∃ a, i * 16 ≤ a ∧ a < i * 16 + 16 ∧ 0 ≤ (row (mem + a)).toInt ∧ lits a ≠ 0#8 := by
  rw [anyBit_viol]
  simp only [neg_lit]
  constructor
  · rintro ⟨l, h1, h2⟩
    have := l.isLt
    refine ⟨i * 16 + l, by omega, by omega, ?_, h2⟩
    simpa [load, Nat.add_assoc] using h1
  · rintro ⟨a, h1, h2, h3, h4⟩
    refine ⟨⟨a - i * 16, by omega⟩, ?_, ?_⟩
    · simp only [load, show mem + i * 16 + (a - i * 16) = mem + a by omega]; exact h3
    · simp only [load, show i * 16 + (a - i * 16) = a by omega]; exact h4

theorem neonSetLoop_spec (bud : Bool) (mem : Nat) (row lits : Mem) (r : Nat) :
    ∀ i cnt, ((neonSetLoop bud mem row lits i r cnt).1 = true ↔
        OkRange mem row lits (i * 16) ((i + r) * 16)) ∧
      (bud = true → (neonSetLoop bud mem row lits i r cnt).1 = true →
        (neonSetLoop bud mem row lits i r cnt).2 =
          cnt + incCount row (i * 16) (r * 16) + incCount row (mem + i * 16) (r * 16)) := by
  induction r with
  | zero =>
    intro i cnt
    simp only [neonSetLoop, Nat.add_zero, Nat.zero_mul, incCount]
    refine ⟨?_, by simp⟩
    simp only [true_iff]
    intro a h1 h2; omega
  | succ r ih =>
    intro i cnt
    rw [neonSetLoop]
    dsimp only
    have hsp := @okRange_split mem row lits (i * 16) ((i + 1) * 16) ((i + (r + 1)) * 16)
      (by omega) (by omega)
    rw [hsp]
    have hv1 := viol_pos row lits i
    have hv2 := viol_neg mem row lits i
    by_cases h1 : anyBit (cmpeq (vor (cmpgt (set1 neonL 0#8) (load neonL row (i * 16)))
        (load neonL lits (i * 16))) (set1 neonL 0#8)) = true
    · simp only [h1, if_true]
      obtain ⟨a, ha1, ha2, ha3, ha4⟩ := hv1.mp h1
      refine ⟨?_, by simp⟩
      simp only [Bool.false_eq_true, false_iff]
      intro h
      exact (h.1 a ha1 (by omega)).1 ha3 ha4
    · rw [if_neg h1]
      by_cases h2 : anyBit (cmpeq (vor (cmpgt (set1 neonL 0#8) (load neonL row (mem + i * 16)))
          (cmpeq (set1 neonL 0#8) (load neonL lits (i * 16)))) (set1 neonL 0#8)) = true
      · rw [if_pos h2]
        obtain ⟨a, ha1, ha2, ha3, ha4⟩ := hv2.mp h2
        refine ⟨?_, by simp⟩
        simp only [Bool.false_eq_true, false_iff]
        intro h
        exact ha4 ((h.1 a ha1 (by omega)).2 ha3)
      · rw [if_neg h2]
        refine ⟨?_, ?_⟩
        · rw [(ih (i + 1) _).1]
          rw [show i + 1 + r = i + (r + 1) by omega]
          constructor
          · intro h
            refine ⟨?_, h⟩
            intro a ha hb
            constructor
            · intro h3 h4; exact h1 (hv1.mpr ⟨a, ha, by omega, h3, h4⟩)
            · intro h3
              apply Classical.byContradiction
              intro h4
              exact h2 (hv2.mpr ⟨a, ha, by omega, h3, h4⟩)
          · exact fun h => h.2
        · intro hb h
          rw [(ih (i + 1) _).2 hb h]
          subst hb
          simp only [if_true, popcount_active]
          rw [show (r + 1) * 16 = 16 + r * 16 by omega, incCount_add, incCount_add,
            show (i + 1) * 16 = i * 16 + 16 by omega, show mem + (i * 16 + 16) = mem + i * 16 + 16 by omega]
          unfold incCount
          omega

theorem neonEvalLoop_spec (mem : Nat) (row lits : Mem) (r : Nat) :
    ∀ i act, ((neonEvalLoop mem row lits i r act).1 = true ↔
        OkRange mem row lits (i * 16) ((i + r) * 16)) ∧
      ((neonEvalLoop mem row lits i r act).1 = true →
        ((neonEvalLoop mem row lits i r act).2 = true ↔ act = true ∨
          ∃ a, i * 16 ≤ a ∧ a < (i + r) * 16 ∧ (0 ≤ (row a).toInt ∨ 0 ≤ (row (mem + a)).toInt))) := by
  induction r with
  | zero =>
    intro i act
    simp only [neonEvalLoop, Nat.add_zero]
    refine ⟨?_, ?_⟩
    · simp only [true_iff]
      intro a h1 h2; omega
    · intro _
      constructor
      · exact Or.inl
      · rintro (h | ⟨a, h1, h2, _⟩)
        · exact h
        · omega
  | succ r ih =>
    intro i act
    rw [neonEvalLoop]
    dsimp only
    have hsp := @okRange_split mem row lits (i * 16) ((i + 1) * 16) ((i + (r + 1)) * 16)
      (by omega) (by omega)
    rw [hsp]
    have hv1 := viol_pos row lits i
    have hv2 := viol_neg mem row lits i
    by_cases h1 : anyBit (cmpeq (vor (cmpgt (set1 neonL 0#8) (load neonL row (i * 16)))
        (load neonL lits (i * 16))) (set1 neonL 0#8)) = true
    · simp only [h1, if_true]
      obtain ⟨a, ha1, ha2, ha3, ha4⟩ := hv1.mp h1
      refine ⟨?_, by simp⟩
      simp only [Bool.false_eq_true, false_iff]
      intro h
      exact (h.1 a ha1 (by omega)).1 ha3 ha4
    · rw [if_neg h1]
      by_cases h2 : anyBit (cmpeq (vor (cmpgt (set1 neonL 0#8) (load neonL row (mem + i * 16)))
          (cmpeq (set1 neonL 0#8) (load neonL lits (i * 16)))) (set1 neonL 0#8)) = true
      · rw [if_pos h2]
        obtain ⟨a, ha1, ha2, ha3, ha4⟩ := hv2.mp h2
        refine ⟨?_, by simp⟩
        simp only [Bool.false_eq_true, false_iff]
        intro h
        exact ha4 ((h.1 a ha1 (by omega)).2 ha3)
      · rw [if_neg h2]
        refine ⟨?_, ?_⟩
        · rw [(ih (i + 1) _).1]
          rw [show i + 1 + r = i + (r + 1) by omega]
          constructor
          · intro h
            refine ⟨?_, h⟩
            intro a ha hb
            constructor
            · intro h3 h4; exact h1 (hv1.mpr ⟨a, ha, by omega, h3, h4⟩)
            · intro h3
              apply Classical.byContradiction
              intro h4
              exact h2 (hv2.mpr ⟨a, ha, by omega, h3, h4⟩)
          · exact fun h => h.2
        · intro h
          rw [(ih (i + 1) _).2 h]
          simp only [Bool.or_eq_true, movemask_active]
          constructor
          · rintro ((((h | ⟨a, h1, h2, h3⟩) | ⟨a, h1, h2, h3⟩)) | ⟨a, h1, h2, h3⟩)
            · exact Or.inl h
            · exact Or.inr ⟨a, by omega, by omega, Or.inl h3⟩
            · exact Or.inr ⟨a - mem, by omega, by omega, Or.inr (by
                rw [show mem + (a - mem) = a by omega]; exact h3)⟩
            · exact Or.inr ⟨a, by omega, by omega, h3⟩
          · rintro (h | ⟨a, h1, h2, h3⟩)
            · exact Or.inl (Or.inl (Or.inl h))
            · by_cases hm : a < (i + 1) * 16
              · rcases h3 with h3 | h3
                · exact Or.inl (Or.inl (Or.inr ⟨a, h1, by omega, h3⟩))
                · exact Or.inl (Or.inr ⟨mem + a, by omega, by omega, h3⟩)
              · exact Or.inr ⟨a, by omega, by omega, h3⟩

theorem neonMem_facts {n : Nat} (hn : 0 < n) :
    (neonMem n / 16 - 1) * 16 < n ∧ n ≤ neonMem n ∧ (neonMem n / 16 - 1) * 16 + 16 = neonMem n := by
  unfold neonMem
  split <;> omega

theorem neonMask_eq {n : Nat} (hn : 0 < n) (l : Fin 16) :
    neonMask n l = maskOf (decide ((neonMem n / 16 - 1) * 16 + l.val < n)) := by
  have := l.isLt
  unfold neonMask neonMem
  by_cases h : n % 16 = 0
  · simp only [h, if_true]
    rw [decide_eq_true (by omega)]; rfl
  · simp only [h, if_false]
    by_cases h2 : n % 16 ≤ l.val
    · rw [if_pos h2, decide_eq_false (by omega)]; rfl
    · rw [if_neg h2, decide_eq_true (by omega)]; rfl

theorem active_lane (row : Mem) (off n base : Nat) (mask : Vec 16)
    (hm : ∀ l : Fin 16, mask l = maskOf (decide (base + l.val < n))) (l : Fin 16) :
    vand (vnot (cmpgt (set1 16 0#8) (load 16 row off))) mask l =
      maskOf (decide (0 ≤ (row (off + l)).toInt ∧ base + l < n)) := by
  simp only [vand, vnot, cmpgt, set1, slt_zero, maskOf_not, hm, maskOf_and, load]
  congr 1
  rw [Bool.eq_iff_iff]
  simp

/-- The count contributed by the masked last chunk. -/
theorem popcount_masked (row : Mem) (off n base : Nat) (hb : base < n) (hn : n ≤ base + 16)
    (mask : Vec 16) (hm : ∀ l : Fin 16, mask l = maskOf (decide (base + l.val < n))) :
    popcountMask (vand (vnot (cmpgt (set1 16 0#8) (load 16 row off))) mask) =
      incCount row off (n - base) := by
  unfold popcountMask
  simp only [active_lane row off n base mask hm, maskOf_msb]
  have e := countP_finRange (L := 16)
    (fun a => decide (0 ≤ (row a).toInt ∧ base + (a - off) < n)) off
  have : (List.finRange 16).countP
      (fun l : Fin 16 => decide (0 ≤ (row (off + l)).toInt ∧ base + l.val < n)) =
      (List.finRange 16).countP
        (fun l : Fin 16 => decide (0 ≤ (row (off + l.val)).toInt ∧ base + (off + l.val - off) < n)) := by
    apply List.countP_congr
    intro l _
    simp
  rw [this, e, countP_range'_split _ off (n - base) 16 (by omega) (by
    intro a ha; simp; omega)]
  unfold incCount
  apply List.countP_congr
  intro a ha
  rw [List.mem_range'_1] at ha
  simp
  omega

/-- Training output of one NEON clause. -/
theorem neonSetClause_spec (cfg : VCfg) (lits : Mem) (c : VClause) (hn : 0 < cfg.nLits) :
    ((neonSetClause cfg lits c).out = 0 ∨ (neonSetClause cfg lits c).out = 1) ∧
    ((neonSetClause cfg lits c).out = 1 ↔ OkRange (neonMem cfg.nLits) c.row lits 0 cfg.nLits) ∧
    (cfg.budget.isSome = true → (neonSetClause cfg lits c).out = 1 →
      (neonSetClause cfg lits c).cnt =
        incCount c.row 0 cfg.nLits + incCount c.row (neonMem cfg.nLits) cfg.nLits) ∧
    (neonSetClause cfg lits c).row = c.row ∧ (neonSetClause cfg lits c).w = c.w := by
  obtain ⟨f1, f2, f3⟩ := neonMem_facts hn
  have hmask := fun l => neonMask_eq hn l
  have hloop := neonSetLoop_spec cfg.budget.isSome (neonMem cfg.nLits) c.row lits
    (neonMem cfg.nLits / 16 - 1) 0 0
  unfold neonSetClause
  dsimp only
  generalize hk : neonMem cfg.nLits / 16 - 1 = k at *
  generalize hmem : neonMem cfg.nLits = mem at *
  generalize hr : neonSetLoop cfg.budget.isSome mem c.row lits 0 k 0 = r at *
  simp only [Nat.zero_mul, Nat.zero_add, Nat.add_zero] at hloop
  rw [okRange_split (Nat.zero_le (k * 16)) (Nat.le_of_lt f1)]
  cases hr1 : r.1 with
  | false =>
    simp only [if_true]
    have hnot : ¬ OkRange mem c.row lits 0 (k * 16) := by
      intro h; rw [hloop.1.mpr h] at hr1; exact absurd hr1 (by simp)
    refine ⟨by simp, ?_, by simp⟩
    simp only [Nat.zero_ne_one, false_iff]
    exact fun h => hnot h.1
  | true =>
    simp only [Bool.true_eq_false, if_false]
    have hok := hloop.1.mp hr1
    have a1 := active_lane c.row (k * 16) cfg.nLits (k * 16) _ hmask
    have a2 := active_lane c.row (mem + k * 16) cfg.nLits (k * 16) _ hmask
    have v1 := anyBit_masked _ (load 16 lits (k * 16)) _ a1
    have v2 := anyBit_masked _ (cmpeq (set1 16 0#8) (load 16 lits (k * 16))) _ a2
    simp only [neg_lit] at v2
    by_cases h1 : anyBit (cmpeq (vor (vnot (vand (vnot (cmpgt (set1 16 0#8)
        (load 16 c.row (k * 16)))) (neonMask cfg.nLits))) (load 16 lits (k * 16))) (set1 16 0#8)) = true
    · simp only [h1, if_true]
      obtain ⟨l, ⟨h3, h4⟩, h5⟩ := v1.mp h1
      refine ⟨by simp, ?_, by simp⟩
      simp only [Nat.zero_ne_one, false_iff]
      intro h
      exact (h.2 (k * 16 + l) (by omega) h4).1 h3 h5
    · rw [if_neg h1]
      dsimp only
      by_cases h2 : anyBit (cmpeq (vor (vnot (vand (vnot (cmpgt (set1 16 0#8)
          (load 16 c.row (mem + k * 16)))) (neonMask cfg.nLits)))
          (cmpeq (set1 16 0#8) (load 16 lits (k * 16)))) (set1 16 0#8)) = true
      · simp only [h2, if_true]
        obtain ⟨l, ⟨h3, h4⟩, h5⟩ := v2.mp h2
        refine ⟨by simp, ?_, by simp⟩
        simp only [Nat.zero_ne_one, false_iff]
        intro h
        exact h5 ((h.2 (k * 16 + l) (by omega) h4).2 (by rw [← Nat.add_assoc]; exact h3))
      · simp only [h2]
        refine ⟨by simp, ?_, ?_, by simp⟩
        · simp only [Bool.false_eq_true, if_false, true_iff]
          refine ⟨hok, ?_⟩
          intro a ha hb
          have hl : k * 16 + (a - k * 16) = a := by omega
          constructor
          · intro h3 h4
            apply h1
            refine v1.mpr ⟨⟨a - k * 16, by omega⟩, ⟨?_, ?_⟩, ?_⟩
            · simp only [hl]; exact h3
            · simp only [hl]; exact hb
            · simp only [load, hl]; exact h4
          · intro h3
            apply Classical.byContradiction
            intro h4
            apply h2
            refine v2.mpr ⟨⟨a - k * 16, by omega⟩, ⟨?_, ?_⟩, ?_⟩
            · simp only [Nat.add_assoc, hl]; exact h3
            · simp only [hl]; exact hb
            · simp only [load, hl]; exact h4
        · intro hb _
          have := hloop.2 hb hr1
          simp only [hb, if_true]
          rw [popcount_masked c.row (k * 16) cfg.nLits (k * 16) f1 (by omega) _ hmask,
            popcount_masked c.row (mem + k * 16) cfg.nLits (k * 16) f1 (by omega) _ hmask, this]
          have e1 := incCount_add c.row 0 (k * 16) (cfg.nLits - k * 16)
          have e2 := incCount_add c.row mem (k * 16) (cfg.nLits - k * 16)
          rw [show k * 16 + (cfg.nLits - k * 16) = cfg.nLits by omega] at e1 e2
          rw [Nat.zero_add] at e1
          omega

/-- The flag after the unmasked chunks, whether or not the loop was left early. -/
theorem neonEvalLoop_act (mem : Nat) (row lits : Mem) (r : Nat) :
    ∀ i act, (act = true → (neonEvalLoop mem row lits i r act).2 = true) ∧
      ((neonEvalLoop mem row lits i r act).2 = true → act = true ∨
          ∃ a, i * 16 ≤ a ∧ a < (i + r) * 16 ∧ (0 ≤ (row a).toInt ∨ 0 ≤ (row (mem + a)).toInt)) := by
  induction r with
  | zero => intro i act; exact ⟨fun h => h, Or.inl⟩
  | succ r ih =>
    intro i act
    rw [neonEvalLoop]
    dsimp only
    have hp : movemaskNZ (vnot (cmpgt (set1 16 0#8) (load 16 row (i * 16)))) = true →
        ∃ a, i * 16 ≤ a ∧ a < (i + (r + 1)) * 16 ∧ (0 ≤ (row a).toInt ∨ 0 ≤ (row (mem + a)).toInt) := by
      rw [movemask_active]
      rintro ⟨a, h1, h2, h3⟩
      exact ⟨a, h1, by omega, Or.inl h3⟩
    have hq : movemaskNZ (vnot (cmpgt (set1 16 0#8) (load 16 row (mem + i * 16)))) = true →
        ∃ a, i * 16 ≤ a ∧ a < (i + (r + 1)) * 16 ∧ (0 ≤ (row a).toInt ∨ 0 ≤ (row (mem + a)).toInt) := by
      rw [movemask_active]
      rintro ⟨a, h1, h2, h3⟩
      exact ⟨a - mem, by omega, by omega, Or.inr (by rw [show mem + (a - mem) = a by omega]; exact h3)⟩
    split
    · refine ⟨fun h => by simp [h], ?_⟩
      intro h
      rw [Bool.or_eq_true] at h
      rcases h with h | h
      · exact Or.inl h
      · exact Or.inr (hp h)
    · split
      · refine ⟨fun h => by simp [h], ?_⟩
        intro h
        rw [Bool.or_eq_true, Bool.or_eq_true] at h
        rcases h with (h | h) | h
        · exact Or.inl h
        · exact Or.inr (hp h)
        · exact Or.inr (hq h)
      · obtain ⟨i1, i2⟩ := ih (i + 1) (act || movemaskNZ (vnot (cmpgt (set1 16 0#8)
          (load 16 row (i * 16)))) || movemaskNZ (vnot (cmpgt (set1 16 0#8) (load 16 row (mem + i * 16)))))
        refine ⟨fun h => i1 (by simp [h]), ?_⟩
        intro h
        rcases i2 h with h | ⟨a, h1, h2, h3⟩
        · rw [Bool.or_eq_true, Bool.or_eq_true] at h
          rcases h with (h | h) | h
          · exact Or.inl h
          · exact Or.inr (hp h)
          · exact Or.inr (hq h)
        · exact Or.inr ⟨a, by omega, by omega, h3⟩

/-- Evaluation output of one NEON clause. -/
theorem neonEvalClause_spec (cfg : VCfg) (lits : Mem) (act0 : Bool) (c : VClause) (hn : 0 < cfg.nLits) :
    ((neonEvalClause cfg lits act0 c).1.out = 0 ∨ (neonEvalClause cfg lits act0 c).1.out = 1) ∧
    ((neonEvalClause cfg lits act0 c).1.out = 1 ↔ OkRange (neonMem cfg.nLits) c.row lits 0 cfg.nLits ∧
      (act0 = true ∨
        ∃ a, a < cfg.nLits ∧ (0 ≤ (c.row a).toInt ∨ 0 ≤ (c.row (neonMem cfg.nLits + a)).toInt))) ∧
    (neonEvalClause cfg lits act0 c).1.row = c.row ∧ (neonEvalClause cfg lits act0 c).1.w = c.w ∧
    (neonEvalClause cfg lits act0 c).1.cnt = c.cnt ∧
    ((act0 = true ∨ (neonEvalClause cfg lits act0 c).1.out = 1) →
      (neonEvalClause cfg lits act0 c).2 = true) ∧
    ((neonEvalClause cfg lits act0 c).2 = true → act0 = true ∨
        ∃ a, a < cfg.nLits ∧ (0 ≤ (c.row a).toInt ∨ 0 ≤ (c.row (neonMem cfg.nLits + a)).toInt)) := by
  obtain ⟨f1, f2, f3⟩ := neonMem_facts hn
  have hmask := fun l => neonMask_eq hn l
  have hloop := neonEvalLoop_spec (neonMem cfg.nLits) c.row lits
    (neonMem cfg.nLits / 16 - 1) 0 act0
  have hlact := neonEvalLoop_act (neonMem cfg.nLits) c.row lits
    (neonMem cfg.nLits / 16 - 1) 0 act0
  unfold neonEvalClause
  dsimp only
  generalize hk : neonMem cfg.nLits / 16 - 1 = k at *
  generalize hmem : neonMem cfg.nLits = mem at *
  generalize hr : neonEvalLoop mem c.row lits 0 k act0 = r at *
  simp only [Nat.zero_mul, Nat.zero_add] at hloop hlact
  rw [okRange_split (Nat.zero_le (k * 16)) (Nat.le_of_lt f1)]
  cases hr1 : r.1 with
  | false =>
    simp only [if_true]
    have hnot : ¬ OkRange mem c.row lits 0 (k * 16) := by
      intro h; rw [hloop.1.mpr h] at hr1; exact absurd hr1 (by simp)
    refine ⟨by simp, ?_, by simp, by simp, by simp, ?_, ?_⟩
    · simp only [Nat.zero_ne_one, false_iff]
      exact fun h => hnot h.1.1
    · rintro (h | h)
      · exact hlact.1 h
      · simp at h
    · intro h
      rcases hlact.2 h with h | ⟨a, _, h2, h3⟩
      · exact Or.inl h
      · exact Or.inr ⟨a, by omega, h3⟩
  | true =>
    simp only [Bool.true_eq_false, if_false]
    have hok := hloop.1.mp hr1
    have hact := hloop.2 hr1
    have a1 := active_lane c.row (k * 16) cfg.nLits (k * 16) _ hmask
    have a2 := active_lane c.row (mem + k * 16) cfg.nLits (k * 16) _ hmask
    have m1 := movemask_lane _ _ a1
    have m2 := movemask_lane _ _ a2
    have v1 := anyBit_masked' (load 16 c.row (k * 16)) (load 16 lits (k * 16)) _ _ hmask
    have v2 := anyBit_masked' (load 16 c.row (mem + k * 16))
      (cmpeq (set1 16 0#8) (load 16 lits (k * 16))) _ _ hmask
    simp only [neg_lit] at v2
    by_cases h1 : anyBit (vand (cmpeq (vor (cmpgt (set1 16 0#8)
        (load 16 c.row (k * 16))) (load 16 lits (k * 16))) (set1 16 0#8)) (neonMask cfg.nLits)) = true
    · simp only [h1, if_true]
      obtain ⟨l, ⟨h3, h4⟩, h5⟩ := v1.mp h1
      refine ⟨by simp, ?_, by simp, by simp, by simp, ?_, ?_⟩
      · simp only [Nat.zero_ne_one, false_iff]
        intro h
        exact (h.1.2 (k * 16 + l) (by omega) h4).1 h3 h5
      · rintro (h | h)
        · rw [hlact.1 h]; rfl
        · simp at h
      · intro h
        rw [Bool.or_eq_true, m1] at h
        rcases h with h | ⟨l, h3, h4⟩
        · rcases hlact.2 h with h | ⟨a, _, h2, h3⟩
          · exact Or.inl h
          · exact Or.inr ⟨a, by omega, h3⟩
        · exact Or.inr ⟨_, h4, Or.inl h3⟩
    · rw [if_neg h1]
      have hcond : (r.2 || movemaskNZ (vand (vnot (cmpgt (set1 16 0#8) (load 16 c.row (k * 16))))
          (neonMask cfg.nLits)) || movemaskNZ (vand (vnot (cmpgt (set1 16 0#8)
            (load 16 c.row (mem + k * 16)))) (neonMask cfg.nLits))) = true ↔
          (act0 = true ∨ ∃ a, a < cfg.nLits ∧ (0 ≤ (c.row a).toInt ∨ 0 ≤ (c.row (mem + a)).toInt)) := by
        rw [Bool.or_eq_true, Bool.or_eq_true, hact, m1, m2]
        constructor
        · rintro ((h | ⟨l, h3, h4⟩) | ⟨l, h3, h4⟩)
          · rcases h with h | ⟨a, _, h3, h4⟩
            · exact Or.inl h
            · exact Or.inr ⟨a, by omega, h4⟩
          · exact Or.inr ⟨_, h4, Or.inl h3⟩
          · exact Or.inr ⟨_, h4, Or.inr (by rw [← Nat.add_assoc]; exact h3)⟩
        · rintro (h | ⟨a, ha, h⟩)
          · exact Or.inl (Or.inl (Or.inl h))
          by_cases hlt : a < k * 16
          · exact Or.inl (Or.inl (Or.inr ⟨a, by omega, hlt, h⟩))
          · have hl : k * 16 + (a - k * 16) = a := by omega
            rcases h with h | h
            · refine Or.inl (Or.inr ⟨⟨a - k * 16, by omega⟩, ?_, ?_⟩)
              · simp only [hl]; exact h
              · simp only [hl]; exact ha
            · refine Or.inr ⟨⟨a - k * 16, by omega⟩, ?_, ?_⟩
              · simp only [Nat.add_assoc, hl]; exact h
              · simp only [hl]; exact ha
      by_cases h2 : anyBit (vand (cmpeq (vor (cmpgt (set1 16 0#8)
          (load 16 c.row (mem + k * 16))) (cmpeq (set1 16 0#8) (load 16 lits (k * 16))))
          (set1 16 0#8)) (neonMask cfg.nLits)) = true
      · simp only [h2, if_true]
        obtain ⟨l, ⟨h3, h4⟩, h5⟩ := v2.mp h2
        refine ⟨by simp, ?_, by simp, by simp, by simp, ?_, hcond.mp⟩
        · simp only [ite_self, Nat.zero_ne_one, false_iff]
          intro h
          simp only [load, Nat.add_assoc] at h3 h5
          exact h5 ((h.1.2 (k * 16 + l) (by omega) h4).2 h3)
        · rintro (h | h)
          · exact hcond.mpr (Or.inl h)
          · simp at h
      · rw [if_neg h2]
        have hall : OkRange mem c.row lits (k * 16) cfg.nLits := by
          intro a ha hb
          have hl : k * 16 + (a - k * 16) = a := by omega
          constructor
          · intro h3 h4
            apply h1
            refine v1.mpr ⟨⟨a - k * 16, by omega⟩, ⟨?_, ?_⟩, ?_⟩
            · simp only [load, hl]; exact h3
            · simp only [hl]; exact hb
            · simp only [load, hl]; exact h4
          · intro h3
            apply Classical.byContradiction
            intro h4
            apply h2
            refine v2.mpr ⟨⟨a - k * 16, by omega⟩, ⟨?_, ?_⟩, ?_⟩
            · simp only [load, Nat.add_assoc, hl]; exact h3
            · simp only [hl]; exact hb
            · simp only [load, hl]; exact h4
        refine ⟨by split <;> simp, ?_, rfl, rfl, rfl, ?_, hcond.mp⟩
        rotate_left
        · rintro (h | h)
          · exact hcond.mpr (Or.inl h)
          · cases hb : (r.2 || movemaskNZ (vand (vnot (cmpgt (set1 16 0#8) (load 16 c.row (k * 16))))
                (neonMask cfg.nLits)) || movemaskNZ (vand (vnot (cmpgt (set1 16 0#8)
                  (load 16 c.row (mem + k * 16)))) (neonMask cfg.nLits))) with
            | false => rw [hb] at h; simp at h
            | true => rfl
        cases hb : (r.2 || movemaskNZ (vand (vnot (cmpgt (set1 16 0#8) (load 16 c.row (k * 16))))
            (neonMask cfg.nLits)) || movemaskNZ (vand (vnot (cmpgt (set1 16 0#8)
              (load 16 c.row (mem + k * 16)))) (neonMask cfg.nLits))) with
        | false =>
          simp only [if_true, Nat.zero_ne_one, false_iff]
          intro h
          rw [hcond.mpr h.2] at hb
          exact absurd hb (by simp)
        | true =>
          simp only [Bool.true_eq_false, if_false, true_iff]
          exact ⟨⟨hok, hall⟩, hcond.mp hb⟩

theorem okRange_iff_satisfied {n : Nat} {lits : Mem} (c : VClause)
    (h : Binary (unpadExample n lits)) :
    OkRange (neonMem n) c.row lits 0 n ↔
      Satisfied (neonUnpad n c).pos (neonUnpad n c).neg (unpadExample n lits) := by
  unfold OkRange Satisfied neonUnpad
  simp only [included_map_range]
  constructor
  · intro H
    refine ⟨fun i ⟨hi, h0⟩ => ?_, fun i ⟨hi, h0⟩ => ?_⟩
    · rw [unpadExample_get n lits i hi]
      rcases binary_unpad h hi with e | e
      · exact absurd e ((H i (by omega) hi).1 h0)
      · rw [e]; rfl
    · rw [unpadExample_get n lits i hi, (H i (by omega) hi).2 h0]; rfl
  · rintro ⟨H1, H2⟩ a _ ha
    refine ⟨fun h0 e => ?_, fun h0 => ?_⟩
    · have := H1 a ⟨ha, h0⟩
      rw [unpadExample_get n lits a ha, e] at this
      simp at this
    · have := H2 a ⟨ha, h0⟩
      rw [unpadExample_get n lits a ha] at this
      exact BitVec.eq_of_toNat_eq (by simpa using this)

theorem unpad_shaped (n : Nat) (c : VClause) (lits : Mem) :
    Shaped (unpadExample n lits).length (neonUnpad n c) := by
  simp [Shaped, neonUnpad, unpadExample]

theorem nonempty_unpad (n : Nat) (c : VClause) :
    (¬ EmptyClause (neonUnpad n c).pos (neonUnpad n c).neg) ↔
      ∃ a, a < n ∧ (0 ≤ (c.row a).toInt ∨ 0 ≤ (c.row (neonMem n + a)).toInt) := by
  unfold EmptyClause neonUnpad
  simp only [included_map_range]
  constructor
  · intro h
    apply Classical.byContradiction
    intro h2
    apply h
    exact ⟨fun i hi => h2 ⟨i, hi.1, Or.inl hi.2⟩, fun i hi => h2 ⟨i, hi.1, Or.inr hi.2⟩⟩
  · rintro ⟨a, ha, h | h⟩ ⟨h1, h2⟩
    · exact h1 a ⟨ha, h⟩
    · exact h2 a ⟨ha, h⟩

/-- A memory update of the two halves of one chunk. -/
def chunkUpd (mem i : Nat) (P N : Nat → Byte → Byte) (row : Mem) : Mem := fun a =>
  if i * 16 ≤ a ∧ a < i * 16 + 16 then P a (row a)
  else if mem + i * 16 ≤ a ∧ a < mem + i * 16 + 16 then N (a - mem) (row a) else row a

theorem store2_eq (mem i : Nat) (hi : i * 16 + 16 ≤ mem) (row : Mem) (P N : Nat → Byte → Byte)
    (v1 v2 : Vec 16) (h1 : ∀ l : Fin 16, v1 l = P (i * 16 + l) (row (i * 16 + l)))
    (h2 : ∀ l : Fin 16, v2 l = N (i * 16 + l) (row (mem + (i * 16 + l)))) :
    store (store row (i * 16) v1) (mem + i * 16) v2 = chunkUpd mem i P N row := by
  funext a
  unfold store chunkUpd
  by_cases hA : mem + i * 16 ≤ a ∧ a - (mem + i * 16) < 16
  · rw [dif_pos hA, if_neg (by omega), if_pos (by omega), h2]
    simp only
    rw [show mem + (i * 16 + (a - (mem + i * 16))) = a by omega,
      show i * 16 + (a - (mem + i * 16)) = a - mem by omega]
  · rw [dif_neg hA]
    by_cases hB : i * 16 ≤ a ∧ a - i * 16 < 16
    · rw [dif_pos hB, if_pos (by omega), h1]
      simp only
      rw [show i * 16 + (a - i * 16) = a by omega]
    · rw [dif_neg hB, if_neg (by omega), if_neg (by omega)]

/-- Reading the negated half is not affected by the store to the positive half. -/
theorem load_store_other (mem i : Nat) (hi : i * 16 + 16 ≤ mem) (row : Mem) (v : Vec 16) :
    load 16 (store row (i * 16) v) (mem + i * 16) = load 16 row (mem + i * 16) := by
  funext l
  have := l.isLt
  simp only [load, store]
  rw [dif_neg (by omega)]

theorem neonT1aChunk_eq (cfg : VCfg) (mem : Nat) (lits : Mem) (i : Nat) (row : Mem) (g : VRng)
    (hi : i * 16 + 16 ≤ mem) :
    neonT1aChunk cfg mem lits i row g =
      (chunkUpd mem i
        (fun a v => t1aLane cfg.boost cfg.cmpS (lits a == 1#8) (g.draw g.pos (a - i * 16)) v)
        (fun a v => t1aLane false cfg.cmpS (!(lits a == 1#8)) (g.draw (g.pos + 1) (a - i * 16)) v)
        row, { g with pos := g.pos + 2 }) := by
  unfold neonT1aChunk
  dsimp only
  refine Prod.ext ?_ (by simp [VRng.next])
  rw [load_store_other mem i hi]
  dsimp only
  apply store2_eq mem i hi
  · intro l
    rw [← t1a_lane_eq]
    simp only [vadds, load, VRng.next, Nat.add_sub_cancel_left]
    congr 1
    cases cfg.boost <;> simp [vor, vand, vnot, cmpgt, cmpeq, set1, load]
  · intro l
    rw [← t1a_lane_eq]
    simp only [vadds, load, VRng.next, Nat.add_sub_cancel_left]
    rw [Nat.add_assoc]
    congr 1
    cases cfg.boost <;> simp [vor, vand, vnot, cmpgt, cmpeq, set1, load]

theorem neonT1bChunk_eq (cfg : VCfg) (mem : Nat) (i : Nat) (row : Mem) (g : VRng)
    (hi : i * 16 + 16 ≤ mem) :
    neonT1bChunk cfg mem i row g =
      (chunkUpd mem i (fun a v => t1bLane cfg.cmpS (g.draw g.pos (a - i * 16)) v)
        (fun a v => t1bLane cfg.cmpS (g.draw (g.pos + 1) (a - i * 16)) v) row,
        { g with pos := g.pos + 2 }) := by
  unfold neonT1bChunk
  dsimp only
  refine Prod.ext ?_ (by simp [VRng.next])
  rw [load_store_other mem i hi]
  have hl : ∀ rnd v : Byte, satAdd v (0xFF#8 &&& maskOf (rnd.slt cfg.cmpS)) = t1bLane cfg.cmpS rnd v := by
    intro rnd v
    unfold t1bLane
    cases rnd.slt cfg.cmpS <;> simp [maskOf, satAdd_zero]
  dsimp only
  apply store2_eq mem i hi
  · intro l
    rw [← hl]
    simp [vadds, load, VRng.next, vand, cmpgt, set1]
  · intro l
    rw [← hl]
    simp [vadds, load, VRng.next, vand, cmpgt, set1, Nat.add_assoc]

theorem neonT2Chunk_eq (mem : Nat) (lits : Mem) (i : Nat) (row : Mem) (hi : i * 16 + 16 ≤ mem) :
    neonT2Chunk mem lits i row =
      chunkUpd mem i (fun a v => t2Lane (lits a == 0#8) v) (fun a v => t2Lane (!(lits a == 0#8)) v)
        row := by
  unfold neonT2Chunk
  dsimp only
  rw [load_store_other mem i hi]
  have hl : ∀ (b : Bool) (v : Byte), satAdd v (maskOf (b && v.slt 0#8) &&& 1#8) = t2Lane b v := by
    intro b v
    unfold t2Lane
    cases b <;> cases v.slt 0#8 <;> simp [maskOf, satAdd_zero]
  apply store2_eq mem i hi
  · intro l
    rw [← hl]
    simp [vadds, load, vand, cmpgt, cmpeq, set1]
  · intro l
    rw [← hl]
    simp [vadds, load, vand, vnot, cmpgt, cmpeq, set1, Nat.add_assoc]

/-- The loop over the chunks updates each byte of the two halves once. `d` is the number of vector draws
per chunk. -/
theorem chunkLoop_eq (mem d : Nat) (f : Nat → Mem → VRng → Mem × VRng) (D : Nat → Nat → Byte)
    (P N : Nat → Nat → Byte → Byte)
    (hf : ∀ i row p, i * 16 + 16 ≤ mem →
      f i row ⟨D, p⟩ = (chunkUpd mem i (P p) (N p) row, ⟨D, p + d⟩)) (r : Nat) :
    ∀ i row p, (i + r) * 16 ≤ mem →
      chunkLoop f i r row ⟨D, p⟩ =
        (fun a =>
          if i * 16 ≤ a ∧ a < (i + r) * 16 then P (p + d * (a / 16 - i)) a (row a)
          else if mem + i * 16 ≤ a ∧ a < mem + (i + r) * 16 then
            N (p + d * ((a - mem) / 16 - i)) (a - mem) (row a)
          else row a, ⟨D, p + d * r⟩) := by
  induction r with
  | zero =>
    intro i row p h
    simp only [chunkLoop, Nat.add_zero, Nat.mul_zero]
    congr 1
    funext a
    rw [if_neg (by omega), if_neg (by omega)]
  | succ r ih =>
    intro i row p h
    rw [chunkLoop, hf i row p (by omega)]
    dsimp only
    rw [ih (i + 1) _ _ (by omega)]
    refine Prod.ext ?_ (by simp [Nat.mul_add]; omega)
    funext a
    dsimp only
    unfold chunkUpd
    by_cases h1 : i * 16 ≤ a ∧ a < i * 16 + 16
    · rw [if_neg (by omega), if_neg (by omega), if_pos h1, if_pos (by omega),
        show a / 16 - i = 0 by omega, Nat.mul_zero, Nat.add_zero]
    · by_cases h2 : mem + i * 16 ≤ a ∧ a < mem + i * 16 + 16
      · rw [if_neg (by omega), if_neg (by omega), if_neg h1, if_pos h2, if_neg (by omega),
          if_pos (by omega), show (a - mem) / 16 - i = 0 by omega, Nat.mul_zero, Nat.add_zero]
      · rw [if_neg h1, if_neg h2]
        by_cases h3 : (i + 1) * 16 ≤ a ∧ a < (i + 1 + r) * 16
        · rw [if_pos h3, if_pos (by omega), show a / 16 - i = (a / 16 - (i + 1)) + 1 by omega,
            Nat.mul_add, Nat.mul_one, Nat.add_right_comm, Nat.add_assoc]
        · rw [if_neg h3]
          by_cases h4 : mem + (i + 1) * 16 ≤ a ∧ a < mem + (i + 1 + r) * 16
          · rw [if_pos h4, if_neg (by omega), if_pos (by omega),
              show (a - mem) / 16 - i = ((a - mem) / 16 - (i + 1)) + 1 by omega,
              Nat.mul_add, Nat.mul_one, Nat.add_right_comm, Nat.add_assoc]
          · rw [if_neg h4, if_neg (by omega), if_neg (by omega)]

theorem neonMem_div (n : Nat) : neonMem n / 16 * 16 = neonMem n ∧ n ≤ neonMem n := by
  unfold neonMem; split <;> omega

/-- Type Ia feedback on a padded row. -/
theorem neonT1a_eq (cfg : VCfg) (row lits : Mem) (g : VRng) :
    neonT1a cfg row lits g =
      (fun a =>
        if a < neonMem cfg.nLits then
          t1aLane cfg.boost cfg.cmpS (lits a == 1#8) (g.draw (g.pos + 2 * (a / 16)) (a % 16)) (row a)
        else if a < 2 * neonMem cfg.nLits then
          t1aLane false cfg.cmpS (!(lits (a - neonMem cfg.nLits) == 1#8))
            (g.draw (g.pos + 2 * ((a - neonMem cfg.nLits) / 16) + 1) ((a - neonMem cfg.nLits) % 16)) (row a)
        else row a, { g with pos := g.pos + 2 * (neonMem cfg.nLits / 16) }) := by
  obtain ⟨D, p⟩ := g
  have h := chunkLoop_eq (neonMem cfg.nLits) 2 (neonT1aChunk cfg (neonMem cfg.nLits) lits) D
    (fun p a v => t1aLane cfg.boost cfg.cmpS (lits a == 1#8) (D p (a % 16)) v)
    (fun p a v => t1aLane false cfg.cmpS (!(lits a == 1#8)) (D (p + 1) (a % 16)) v)
    (by
      intro i row p hi
      rw [neonT1aChunk_eq _ _ _ _ _ _ hi]
      refine Prod.ext ?_ rfl
      funext a
      unfold chunkUpd
      by_cases h1 : i * 16 ≤ a ∧ a < i * 16 + 16
      · simp only [h1, and_self, if_true, show a - i * 16 = a % 16 by omega]
      · simp only [h1, if_false]
        by_cases h2 : neonMem cfg.nLits + i * 16 ≤ a ∧ a < neonMem cfg.nLits + i * 16 + 16
        · simp only [h2, and_self, if_true,
            show a - neonMem cfg.nLits - i * 16 = (a - neonMem cfg.nLits) % 16 by omega]
        · simp only [h2, if_false])
    (neonMem cfg.nLits / 16) 0 row p (by have := neonMem_div cfg.nLits; omega)
  have hm := (neonMem_div cfg.nLits).1
  unfold neonT1a
  rw [h]
  refine Prod.ext ?_ rfl
  funext a
  simp only [Nat.zero_add, Nat.zero_mul, Nat.zero_le, true_and, Nat.sub_zero, hm, Nat.add_zero]
  by_cases h1 : a < neonMem cfg.nLits
  · simp [h1]
  · rw [if_neg h1, if_neg h1]
    by_cases h2 : a < 2 * neonMem cfg.nLits
    · rw [if_pos (by omega), if_pos h2]
    · rw [if_neg (by omega), if_neg h2]

/-- Type Ib feedback on a padded row. -/
theorem neonT1b_eq (cfg : VCfg) (row : Mem) (g : VRng) :
    neonT1b cfg row g =
      (fun a =>
        if a < neonMem cfg.nLits then
          t1bLane cfg.cmpS (g.draw (g.pos + 2 * (a / 16)) (a % 16)) (row a)
        else if a < 2 * neonMem cfg.nLits then
          t1bLane cfg.cmpS
            (g.draw (g.pos + 2 * ((a - neonMem cfg.nLits) / 16) + 1) ((a - neonMem cfg.nLits) % 16)) (row a)
        else row a, { g with pos := g.pos + 2 * (neonMem cfg.nLits / 16) }) := by
  obtain ⟨D, p⟩ := g
  have h := chunkLoop_eq (neonMem cfg.nLits) 2 (neonT1bChunk cfg (neonMem cfg.nLits)) D
    (fun p a v => t1bLane cfg.cmpS (D p (a % 16)) v)
    (fun p a v => t1bLane cfg.cmpS (D (p + 1) (a % 16)) v)
    (by
      intro i row p hi
      rw [neonT1bChunk_eq _ _ _ _ _ hi]
      refine Prod.ext ?_ rfl
      funext a
      unfold chunkUpd
      by_cases h1 : i * 16 ≤ a ∧ a < i * 16 + 16
      · simp only [h1, and_self, if_true, show a - i * 16 = a % 16 by omega]
      · simp only [h1, if_false]
        by_cases h2 : neonMem cfg.nLits + i * 16 ≤ a ∧ a < neonMem cfg.nLits + i * 16 + 16
        · simp only [h2, and_self, if_true,
            show a - neonMem cfg.nLits - i * 16 = (a - neonMem cfg.nLits) % 16 by omega]
        · simp only [h2, if_false])
    (neonMem cfg.nLits / 16) 0 row p (by have := neonMem_div cfg.nLits; omega)
  have hm := (neonMem_div cfg.nLits).1
  unfold neonT1b
  rw [h]
  refine Prod.ext ?_ rfl
  funext a
  simp only [Nat.zero_add, Nat.zero_mul, Nat.zero_le, true_and, Nat.sub_zero, hm, Nat.add_zero]
  by_cases h1 : a < neonMem cfg.nLits
  · simp [h1]
  · rw [if_neg h1, if_neg h1]
    by_cases h2 : a < 2 * neonMem cfg.nLits
    · rw [if_pos (by omega), if_pos h2]
    · rw [if_neg (by omega), if_neg h2]

/-- Type II feedback on a padded row. -/
theorem neonT2_eq (cfg : VCfg) (row lits : Mem) (g : VRng) :
    neonT2 cfg row lits g =
      (fun a =>
        if a < neonMem cfg.nLits then t2Lane (lits a == 0#8) (row a)
        else if a < 2 * neonMem cfg.nLits then
          t2Lane (!(lits (a - neonMem cfg.nLits) == 0#8)) (row a)
        else row a, g) := by
  obtain ⟨D, p⟩ := g
  have h := chunkLoop_eq (neonMem cfg.nLits) 0
    (fun i row g => (neonT2Chunk (neonMem cfg.nLits) lits i row, g)) D
    (fun _ a v => t2Lane (lits a == 0#8) v)
    (fun _ a v => t2Lane (!(lits a == 0#8)) v)
    (by
      intro i row p hi
      rw [neonT2Chunk_eq _ _ _ _ hi]
      rfl)
    (neonMem cfg.nLits / 16) 0 row p (by have := neonMem_div cfg.nLits; omega)
  have hm := (neonMem_div cfg.nLits).1
  unfold neonT2
  rw [h]
  refine Prod.ext ?_ (by simp)
  funext a
  simp only [Nat.zero_add, Nat.zero_mul, Nat.zero_le, true_and, Nat.add_zero, hm]
  by_cases h1 : a < neonMem cfg.nLits
  · simp [h1]
  · rw [if_neg h1, if_neg h1]
    by_cases h2 : a < 2 * neonMem cfg.nLits
    · rw [if_pos (by omega), if_pos h2]
    · rw [if_neg (by omega), if_neg h2]

theorem neonClauseUpdate_w (cfg : VCfg) (lits : Mem) (j : Nat) (t : Int) (c : VClause) (g : VRng)
    (ht : t = 1 ∨ t = -1) :
    (neonClauseUpdate cfg lits j t c g).1.w = (if c.out = 1 then bump j t c.w else c.w) ∧
    (neonClauseUpdate cfg lits j t c g).1.out = c.out := by
  unfold neonClauseUpdate bump
  dsimp only
  generalize c.w.getD j 0 = v
  by_cases hw : v ≥ 0 <;> rcases ht with rfl | rfl <;> by_cases ho : c.out = 1 <;>
    simp [hw, ho, Int.sub_eq_add_neg]

theorem neonBudgetGate_facts (cfg : VCfg) (c : VClause) :
    ((neonBudgetGate cfg c).out = 1 ↔ c.out = 1 ∧ ∀ b, cfg.budget = some b → c.cnt ≤ b) ∧
    (neonBudgetGate cfg c).w = c.w ∧ (neonBudgetGate cfg c).row = c.row := by
  unfold neonBudgetGate
  cases h : cfg.budget with
  | none => simp
  | some b => dsimp only; split <;> simp <;> omega

theorem neonTrainClause_w (cfg : VCfg) (lits : Mem) (fb : Feedback) (c : VClause) (f : Rng) (g : VRng) :
    (neonTrainClause cfg lits fb c f g).1.w =
      (let w1 := if (neonBudgetGate cfg c).out = 1 ∧ f.draw f.pos < fb.posProb
                 then bump fb.posClass 1 c.w else c.w
       if (neonBudgetGate cfg c).out = 1 ∧ f.draw (f.pos + 1) < fb.negProb
       then bump fb.negClass (-1) w1 else w1) := by
  simp only [neonTrainClause, Rng.next]
  have h1' := fun j (t : Int) ht c g => neonClauseUpdate_w cfg lits j t c g ht
  have hw := (neonBudgetGate_facts cfg c).2.1
  by_cases h1 : f.draw f.pos < fb.posProb <;> by_cases h2 : f.draw (f.pos + 1) < fb.negProb <;>
    by_cases h3 : (neonBudgetGate cfg c).out = 1 <;>
    simp [h1, h2, h3, h1' _ 1 (Or.inl rfl), h1' _ (-1) (Or.inr rfl), hw]

theorem neonTrainClauses_get (cfg : VCfg) (lits : Mem) (fb : Feedback) (cs : List VClause) (f : Rng)
    (g : VRng) (i : Nat) (c : VClause) (h : cs[i]? = some c) :
    ∃ g', (neonTrainClauses cfg lits fb cs f g).1[i]? =
      some (neonTrainClause cfg lits fb c { f with pos := f.pos + 2 * i } g').1 := by
  induction cs generalizing f g i with
  | nil => simp at h
  | cons d cs ih =>
    rw [neonTrainClauses]
    cases i with
    | zero => simp at h; subst h; exact ⟨g, by simp⟩
    | succ i =>
      simp at h
      obtain ⟨g', e⟩ := ih (neonTrainClause cfg lits fb d f g).2.1
        (neonTrainClause cfg lits fb d f g).2.2 i h
      refine ⟨g', ?_⟩
      have hf : (neonTrainClause cfg lits fb d f g).2.1 = { f with pos := f.pos + 2 } := by
        simp [neonTrainClause, Rng.next]
      rw [hf] at e
      simp only [List.getElem?_cons_succ, hf, e]
      rw [show f.pos + 2 + 2 * i = f.pos + 2 * (i + 1) by omega]

theorem neonTrainClauses_length (cfg : VCfg) (lits : Mem) (fb : Feedback) (cs : List VClause) (f : Rng)
    (g : VRng) : (neonTrainClauses cfg lits fb cs f g).1.length = cs.length := by
  induction cs generalizing f g with
  | nil => simp [neonTrainClauses]
  | cons d cs ih => simp [neonTrainClauses, ih]

/-- A clause that does not fire receives Type Ib feedback or nothing. -/
theorem neonClauseUpdate_silent (cfg : VCfg) (lits : Mem) (j : Nat) (t : Int) (c : VClause) (g : VRng)
    (ho : c.out ≠ 1) :
    (neonClauseUpdate cfg lits j t c g).1 = c ∨
      (neonClauseUpdate cfg lits j t c g).1 = { c with row := (neonT1b cfg c.row g).1 } := by
  unfold neonClauseUpdate
  dsimp only
  generalize (if c.w.getD j 0 ≥ 0 then (1 : Int) else -1) = sign
  by_cases hs : t * sign > 0
  · simp [hs, ho]
  · simp [hs, ho]

theorem neonT1b_row_le (cfg : VCfg) (row : Mem) (g : VRng) (a : Nat) :
    ((neonT1b cfg row g).1 a).toInt ≤ (row a).toInt := by
  have hb := byte_range (row a)
  rw [neonT1b_eq]
  dsimp only
  split
  · rw [t1bLane_toInt]; split <;> omega
  · split
    · rw [t1bLane_toInt]; split <;> omega
    · omega

theorem neonTrainClause_silent (cfg : VCfg) (lits : Mem) (fb : Feedback) (c : VClause) (f : Rng)
    (g : VRng) (ho : (neonBudgetGate cfg c).out ≠ 1) :
    (neonTrainClause cfg lits fb c f g).1.w = c.w ∧
    ∀ a, ((neonTrainClause cfg lits fb c f g).1.row a).toInt ≤ (c.row a).toInt := by
  refine ⟨by rw [neonTrainClause_w]; simp [ho], ?_⟩
  intro a
  have hrow := (neonBudgetGate_facts cfg c).2.2
  have key : ∀ (j : Nat) (t : Int) (d : VClause) (g : VRng), d.out ≠ 1 →
      ((neonClauseUpdate cfg lits j t d g).1.row a).toInt ≤ (d.row a).toInt := by
    intro j t d g hd
    rcases neonClauseUpdate_silent cfg lits j t d g hd with e | e <;> rw [e]
    · exact Int.le_refl _
    · exact neonT1b_row_le cfg d.row g a
  rw [← hrow]
  unfold neonTrainClause
  dsimp only
  by_cases h1 : f.next.1 < fb.posProb <;> by_cases h2 : f.next.2.next.1 < fb.negProb <;>
    simp only [h1, h2, if_true, if_false]
  · exact Int.le_trans (key _ _ _ _ (by rw [(neonClauseUpdate_w cfg lits _ _ _ _ (Or.inl rfl)).2]; exact ho))
      (key _ _ _ _ ho)
  · exact key _ _ _ _ ho
  · exact key _ _ _ _ ho
  · exact Int.le_refl _


end GT.Neon

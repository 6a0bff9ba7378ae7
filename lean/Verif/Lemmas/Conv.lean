import Verif.Spec.Conv
import Verif.Props.Avx2
import Mathlib.Algebra.Order.Field.Rat
import Mathlib.Algebra.Order.Field.Basic

/-! # Lemmas about convolutional blocks -/

namespace GT
open Spec

theorem convSetLoop_eq (bud : Bool) (ps qs : List Int) (xs : List Nat) (pc nc : Nat) :
    convSetLoop bud ps qs xs (pc + nc) =
      (decide ((setOutLoop bud ps qs xs pc nc).1 = 1),
        (setOutLoop bud ps qs xs pc nc).2.1 + (setOutLoop bud ps qs xs pc nc).2.2) := by
  induction ps generalizing qs xs pc nc with
  | nil => cases qs <;> cases xs <;> simp [convSetLoop, setOutLoop]
  | cons p ps ih =>
    cases qs with
    | nil => cases xs <;> simp [convSetLoop, setOutLoop]
    | cons q qs =>
      cases xs with
      | nil => simp [convSetLoop, setOutLoop]
      | cons x xs =>
        simp only [convSetLoop, setOutLoop]
        by_cases h0 : p ≥ 0 ∧ x = 0
        · rw [if_pos h0, if_pos h0]; simp
        · rw [if_neg h0, if_neg h0]
          have e1 : (if p ≥ 0 ∧ bud = true then pc + nc + 1 else pc + nc) =
              (if p ≥ 0 ∧ bud = true then pc + 1 else pc) + nc := by split <;> omega
          by_cases h1 : q ≥ 0 ∧ x = 1
          · rw [if_pos h1, if_pos h1, e1]; simp
          · rw [if_neg h1, if_neg h1, e1, ← ih]
            congr 1
            split <;> omega

theorem convEvalLoop_eq (ps qs : List Int) (xs : List Nat) (e : Bool) :
    convEvalLoop ps qs xs e = (decide ((evalOutLoop ps qs xs e).1 = 1), (evalOutLoop ps qs xs e).2) := by
  induction ps generalizing qs xs e with
  | nil => cases qs <;> cases xs <;> simp [convEvalLoop, evalOutLoop]
  | cons p ps ih =>
    cases qs with
    | nil => cases xs <;> simp [convEvalLoop, evalOutLoop]
    | cons q qs =>
      cases xs with
      | nil => simp [convEvalLoop, evalOutLoop]
      | cons x xs =>
        simp only [convEvalLoop, evalOutLoop]
        by_cases h0 : p ≥ 0 ∧ x = 0
        · rw [if_pos h0, if_pos h0]; simp
        · rw [if_neg h0, if_neg h0]
          by_cases h1 : q ≥ 0 ∧ x = 1
          · rw [if_pos h1, if_pos h1]; simp
          · rw [if_neg h1, if_neg h1, ih]

theorem patchAt_eq {n np : Nat} {x : List Nat} (hx : x.length = np * n) {k : Nat} (hk : k < np) :
    patchAt n x k = patchLits n x k := by
  have hb : k * n + n ≤ x.length := by
    rw [hx]
    calc k * n + n = (k + 1) * n := (Nat.succ_mul k n).symm
      _ ≤ np * n := Nat.mul_le_mul_right _ hk
  apply List.ext_getElem?
  intro i
  unfold patchAt patchLits
  rw [List.getElem?_take, List.getElem?_map, List.getElem?_drop]
  by_cases hi : i < n
  · rw [if_pos hi, List.getElem?_range hi]
    have : k * n + i < x.length := by omega
    simp [List.getD, List.getElem?_eq_getElem this]
  · rw [if_neg hi, List.getElem?_eq_none (by simp; omega)]
    rfl

theorem patchLits_length (n : Nat) (x : List Nat) (k : Nat) : (patchLits n x k).length = n := by simp [patchLits]

theorem patchLits_binary {n : Nat} {x : List Nat} (hx : Binary x) (k : Nat) : Binary (patchLits n x k) := by
  intro v hv
  obtain ⟨i, _, rfl⟩ := List.mem_map.mp hv
  rw [List.getD_eq_getElem?_getD]
  rcases h : x[k * n + i]? with _ | w
  · exact Or.inl rfl
  · exact hx _ (List.mem_of_getElem? h)

/-- What the patch loop produces. -/
theorem convScan_spec (np : Nat) (test : Nat → Bool × Nat) (counts : Nat → Nat) :
    (convScan np test counts).storage = (List.range np).filter (fun k => (test k).1) ∧
    (convScan np test counts).out = (if ∃ k, k < np ∧ (test k).1 = true then 1 else 0) ∧
    (∀ i, (convScan np test counts).counts i = if i < np ∧ (test i).1 = true then (test i).2 else counts i) := by
  induction np with
  | zero => simp [convScan]
  | succ m ih =>
    have e : convScan (m + 1) test counts = (convScan m test counts).step test m := by
      simp [convScan, List.range_succ]
    obtain ⟨h1, h2, h3⟩ := ih
    rw [e]
    unfold Scan.step
    rcases ht : (test m).1 with _ | _
    · simp only [Bool.false_eq_true, if_false]
      refine ⟨?_, ?_, ?_⟩
      · rw [h1, List.range_succ, List.filter_append]; simp [ht]
      · rw [h2]
        congr 1
        apply propext
        constructor
        · rintro ⟨k, hk, hh⟩; exact ⟨k, by omega, hh⟩
        · rintro ⟨k, hk, hh⟩
          refine ⟨k, ?_, hh⟩
          rcases Nat.lt_succ_iff_lt_or_eq.mp hk with h | rfl
          · exact h
          · rw [ht] at hh; cases hh
      · intro i
        rw [h3]
        by_cases hi : i = m
        · subst hi; simp [ht]
        · have : i < m ↔ i < m + 1 := by omega
          simp only [this]
    · simp only [if_true]
      refine ⟨?_, ?_, ?_⟩
      · rw [h1, List.range_succ, List.filter_append]; simp [ht]
      · rw [if_pos ⟨m, by omega, ht⟩]
      · intro i
        by_cases hi : i = m
        · subst hi; simp [ht]
        · have : i < m ↔ i < m + 1 := by omega
          rw [if_neg hi, h3]
          simp only [this]

theorem convScan_out01 (np : Nat) (test : Nat → Bool × Nat) (counts : Nat → Nat) :
    (convScan np test counts).out = 0 ∨ (convScan np test counts).out = 1 := by
  rw [(convScan_spec np test counts).2.1]; split <;> simp

theorem convScan_storage_empty (np : Nat) (test : Nat → Bool × Nat) (counts : Nat → Nat) :
    (convScan np test counts).storage.length = 0 ↔ ¬ (convScan np test counts).out = 1 := by
  obtain ⟨h1, h2, -⟩ := convScan_spec np test counts
  rw [h1, h2, List.length_eq_zero_iff, List.filter_eq_nil_iff]
  constructor
  · intro h
    rw [if_neg]
    · simp
    · rintro ⟨k, hk, ht⟩; exact h k (List.mem_range.mpr hk) ht
  · intro h k hk ht
    exact h (if_pos ⟨k, List.mem_range.mp hk, ht⟩)

/-- The chosen patch is one of those that were stored. -/
theorem convSelect_patch (bud : Bool) (np : Nat) (test : Nat → Bool × Nat) (counts : Nat → Nat) (p0 c0 : Nat) (g : Rng)
    (h : (convScan np test counts).out = 1) :
    let r := convSelect bud (convScan np test counts) p0 c0 g
    r.1 < np ∧ (test r.1).1 = true := by
  have hs : ¬ (convScan np test counts).storage.length = 0 := fun e => (convScan_storage_empty np test counts).mp e h
  have h1 := (convScan_spec np test counts).1
  simp only [convSelect, if_neg hs, Rng.pick]
  generalize (convScan np test counts).storage = st at hs h1
  have hlt : min (st.length - 1) (g.next.1 * ((st.length : Nat) : Rat)).floor.toNat < st.length := by omega
  rw [List.getD_eq_getElem?_getD, List.getElem?_eq_getElem hlt, Option.getD_some]
  have hm := List.getElem_mem hlt
  generalize st[min (st.length - 1) (g.next.1 * ((st.length : Nat) : Rat)).floor.toNat] = v at hm ⊢
  rw [h1, List.mem_filter, List.mem_range] at hm
  exact hm

theorem anyPatch_spec (test : Nat → Bool) (r k : Nat) :
    (anyPatch test k r = 1 ↔ ∃ j, k ≤ j ∧ j < k + r ∧ test j = true) ∧ (anyPatch test k r = 0 ∨ anyPatch test k r = 1) := by
  induction r generalizing k with
  | zero => exact ⟨by simp [anyPatch]; omega, Or.inl rfl⟩
  | succ r ih =>
    unfold anyPatch
    by_cases h : test k = true
    · rw [if_pos h]
      exact ⟨⟨fun _ => ⟨k, by omega, by omega, h⟩, fun _ => rfl⟩, Or.inr rfl⟩
    · rw [if_neg h]
      refine ⟨?_, (ih _).2⟩
      rw [(ih _).1]
      constructor
      · rintro ⟨j, h1, h2, h3⟩; exact ⟨j, by omega, by omega, h3⟩
      · rintro ⟨j, h1, h2, h3⟩
        refine ⟨j, ?_, by omega, h3⟩
        rcases Nat.eq_or_lt_of_le h1 with rfl | h
        · exact absurd h3 h
        · omega

/-- The training test of a patch. -/
theorem convSetLoop_spec (bud : Bool) (c : Clause) (x : List Nat) (hx : Binary x) (hc : Shaped x.length c) :
    ((convSetLoop bud c.pos c.neg x 0).1 = true ↔ Satisfied c.pos c.neg x) ∧
    (bud = true → (convSetLoop bud c.pos c.neg x 0).1 = true →
      (convSetLoop bud c.pos c.neg x 0).2 = numIncluded c.pos + numIncluded c.neg) := by
  have e := convSetLoop_eq bud c.pos c.neg x 0 0
  have h := setOutLoop_spec bud c.pos c.neg x 0 0 hc.1 hc.2 hx
  rw [Nat.add_zero] at e
  rw [e]
  simp only [decide_eq_true_eq]
  refine ⟨h.2.1, fun hb ho => ?_⟩
  have := h.2.2 hb ho
  omega

theorem convEvalPatch_spec (c : Clause) (x : List Nat) (hx : Binary x) (hc : Shaped x.length c) :
    convEvalPatch c.pos c.neg x = true ↔ ¬ EmptyClause c.pos c.neg ∧ Satisfied c.pos c.neg x := by
  rw [← (C05_eval_output x c hx hc).1]
  simp only [convEvalPatch, convEvalLoop_eq, evalOutClause]
  split <;> simp

theorem convSetClauses_get (cfg : Cfg) (n np : Nat) (x : List Nat) (cs : List ConvClause) (counts : Nat → Nat) (g : Rng)
    (i : Nat) (c : ConvClause) (hc : cs[i]? = some c) :
    ∃ counts' g', (convSetClauses cfg n np x cs counts g).1[i]? = some (convSetClause cfg n np x c counts' g').1 := by
  induction cs generalizing counts g i with
  | nil => simp at hc
  | cons d cs ih =>
    cases i with
    | zero =>
      simp only [List.getElem?_cons_zero, Option.some.injEq] at hc
      subst hc
      exact ⟨counts, g, rfl⟩
    | succ i => exact ih _ _ i (by simpa using hc)

theorem convTrainClauses_get (cfg : Cfg) (n : Nat) (x : List Nat) (fb : Feedback) (cs : List ConvClause) (f g : Rng)
    (i : Nat) (c : ConvClause) (hc : cs[i]? = some c) :
    ∃ f' g', (convTrainClauses cfg n x fb cs f g).1[i]? = some (convTrainClause cfg n x fb c f' g').1 := by
  induction cs generalizing f g i with
  | nil => simp at hc
  | cons d cs ih =>
    cases i with
    | zero =>
      simp only [List.getElem?_cons_zero, Option.some.injEq] at hc
      subst hc
      exact ⟨f, g, rfl⟩
    | succ i => exact ih _ _ i (by simpa using hc)

theorem convSetClauses_length (cfg : Cfg) (n np : Nat) (x : List Nat) (cs : List ConvClause) (counts : Nat → Nat)
    (g : Rng) : (convSetClauses cfg n np x cs counts g).1.length = cs.length := by
  induction cs generalizing counts g with
  | nil => rfl
  | cons d cs ih => simp [convSetClauses, ih]

theorem convTrainClauses_length (cfg : Cfg) (n : Nat) (x : List Nat) (fb : Feedback) (cs : List ConvClause) (f g : Rng) :
    (convTrainClauses cfg n x fb cs f g).1.length = cs.length := by
  induction cs generalizing f g with
  | nil => rfl
  | cons d cs ih => simp [convTrainClauses, ih]

/-- Everything about the training output of one clause. -/
theorem convSetClause_spec (cfg : Cfg) (n np : Nat) (x : List Nat) (hx : Binary x) (hl : x.length = np * n)
    (c : ConvClause) (hc : Shaped n c.base) (counts : Nat → Nat) (g : Rng) :
    let c' := (convSetClause cfg n np x c counts g).1
    (c'.base.out = 1 ↔ ∃ k, k < np ∧ HoldsIn c.base n x k) ∧ (c'.base.out = 0 ∨ c'.base.out = 1) ∧
    (c'.base.out = 1 → c'.patch < np ∧ HoldsIn c.base n x c'.patch) ∧
    (c'.base.out = 0 → c'.patch = c.patch ∧ c'.base.cnt = c.base.cnt) ∧
    c'.base.pos = c.base.pos ∧ c'.base.neg = c.base.neg ∧ c'.base.w = c.base.w := by
  have ht : ∀ k, k < np →
      ((convSetLoop cfg.budget.isSome c.base.pos c.base.neg (patchAt n x k) 0).1 = true ↔ HoldsIn c.base n x k) := by
    intro k hk
    rw [patchAt_eq hl hk]
    exact (convSetLoop_spec _ c.base _ (patchLits_binary hx k) (by rw [patchLits_length]; exact hc)).1
  have hs := convScan_spec np
    (fun k => convSetLoop cfg.budget.isSome c.base.pos c.base.neg (patchAt n x k) 0) counts
  refine ⟨?_, convScan_out01 _ _ _, ?_, ?_, rfl, rfl, rfl⟩
  · show (convScan np _ counts).out = 1 ↔ _
    rw [hs.2.1]
    constructor
    · intro h
      split at h
      · rename_i he
        obtain ⟨k, hk, hh⟩ := he
        exact ⟨k, hk, (ht k hk).mp hh⟩
      · cases h
    · rintro ⟨k, hk, hh⟩
      rw [if_pos ⟨k, hk, (ht k hk).mpr hh⟩]
  · intro h
    have := convSelect_patch cfg.budget.isSome np _ counts c.patch c.base.cnt g h
    exact ⟨this.1, (ht _ this.1).mp this.2⟩
  · intro h
    have : (convScan np (fun k => convSetLoop cfg.budget.isSome c.base.pos c.base.neg (patchAt n x k) 0)
        counts).storage.length = 0 := by
      rw [convScan_storage_empty]
      simp only [convSetClause] at h
      omega
    simp only [convSetClause, convSelect, if_pos this, and_self]

/-- The literals given to a silent clause do not matter. -/
theorem trainClause_silent_example (cfg : Cfg) (x y : List Nat) (fb : Feedback) (c : Clause) (f g : Rng)
    (h : c.out ≠ 1) : trainClause cfg x fb c f g = trainClause cfg y fb c f g := by
  have hg : (budgetGate cfg c).out ≠ 1 := by
    rw [Ne, budgetGate_out]
    exact fun e => h e.1
  have hu : ∀ (j : Nat) (t : Int) (c : Clause) (g : Rng), c.out ≠ 1 →
      clauseUpdate cfg x j t c g = clauseUpdate cfg y j t c g := by
    intro j t c g hc
    simp only [clauseUpdate, if_neg hc]
    simp [hc]
  simp only [trainClause]
  rw [hu _ _ _ _ hg]
  by_cases hp : f.next.1 < fb.posProb
  · simp only [if_pos hp]
    rw [hu]
    rw [(clauseUpdate_out _ _ _ _ _ _).1]
    exact hg
  · simp only [if_neg hp]
    rw [hu _ _ _ _ hg]

/-! ### AVX2 -/

theorem convScan_congr (np : Nat) (t t' : Nat → Bool × Nat) (counts : Nat → Nat)
    (h : ∀ k, k < np → (t k).1 = (t' k).1 ∧ ((t k).1 = true → (t k).2 = (t' k).2)) :
    convScan np t counts = convScan np t' counts := by
  induction np with
  | zero => rfl
  | succ m ih =>
    have e : ∀ t, convScan (m + 1) t counts = (convScan m t counts).step t m := by
      intro t; simp [convScan, List.range_succ]
    rw [e, e, ih (fun k hk => h k (by omega))]
    obtain ⟨h1, h2⟩ := h m (by omega)
    unfold Scan.step
    rw [← h1]
    by_cases hm : (t m).1 = true
    · rw [if_pos hm, if_pos hm, h2 hm]
    · rw [if_neg hm, if_neg hm]

theorem avxConvSetPatch_eq (cfg : VCfg) (lits : Mem) (c : VClause) :
    (avxConvSetPatch cfg c.row lits).1 = decide ((avxSetClause cfg lits c).out = 1) ∧
    (cfg.budget.isSome = true → (avxConvSetPatch cfg c.row lits).1 = true →
      (avxConvSetPatch cfg c.row lits).2 = (avxSetClause cfg lits c).cnt) := by
  unfold avxConvSetPatch avxSetClause
  dsimp only
  split
  · simp
  · split
    · simp
    · split
      · simp
      · refine ⟨by simp, fun hb _ => by simp [hb]⟩

theorem avxConvEvalPatch_eq (cfg : VCfg) (lits : Mem) (c : VClause) :
    avxConvEvalPatch cfg c.row lits = decide ((avxEvalClause cfg lits c).out = 1) := by
  unfold avxConvEvalPatch avxEvalClause
  dsimp only
  split
  · simp
  · split
    · simp
    · split
      · simp
      · have : ∀ b : Bool, b = decide ((if b = false then 0 else 1) = 1) := by decide
        exact this _

theorem patchAt_unpad (n np : Nat) (lits : Mem) (k : Nat) (hk : k < np) :
    patchAt n (unpadExample (np * n) lits) k = unpadExample n (shiftMem lits (k * n)) := by
  rw [patchAt_eq (by simp [unpadExample]) hk]
  have hb : k * n + n ≤ np * n := by
    calc k * n + n = (k + 1) * n := (Nat.succ_mul k n).symm
      _ ≤ np * n := Nat.mul_le_mul_right _ hk
  apply List.map_congr_left
  intro i hi
  have hi := List.mem_range.mp hi
  have hlt : k * n + i < (unpadExample (np * n) lits).length := by simp [unpadExample]; omega
  rw [List.getD_eq_getElem?_getD, List.getElem?_eq_getElem hlt]
  simp [unpadExample, shiftMem]

theorem binary_patch (n np : Nat) (lits : Mem) (k : Nat) (hk : k < np) (hx : Binary (unpadExample (np * n) lits)) :
    Binary (unpadExample n (shiftMem lits (k * n))) := by
  rw [← patchAt_unpad n np lits k hk, patchAt_eq (np := np) (by simp [unpadExample]) hk]
  exact patchLits_binary hx k

theorem avxConvSetClause_unpad (cfg : VCfg) (scalar : Cfg) (hcfg : scalar.budget = cfg.budget) (hb : cfg.budget ≠ none)
    (np : Nat) (lits : Mem) (hn : 0 < cfg.nLits) (hx : Binary (unpadExample (np * cfg.nLits) lits)) (c : VConvClause)
    (counts : Nat → Nat) (g : Rng) :
    let v := avxConvSetClause cfg np lits c counts g
    (unpadConv cfg.nLits v.1, v.2) =
      convSetClause scalar cfg.nLits np (unpadExample (np * cfg.nLits) lits) (unpadConv cfg.nLits c) counts g := by
  have hs : cfg.budget.isSome = true := by
    cases h : cfg.budget with
    | none => exact absurd h hb
    | some _ => rfl
  have e : convScan np (fun k => avxConvSetPatch cfg c.base.row (shiftMem lits (k * cfg.nLits))) counts =
      convScan np (fun k => convSetLoop scalar.budget.isSome (unpad cfg.nLits c.base).pos (unpad cfg.nLits c.base).neg
        (patchAt cfg.nLits (unpadExample (np * cfg.nLits) lits) k) 0) counts := by
    apply convScan_congr
    intro k hk
    have hbin := binary_patch cfg.nLits np lits k hk hx
    have h1 := avxConvSetPatch_eq cfg (shiftMem lits (k * cfg.nLits)) c.base
    have h2 := C07_train_output cfg scalar hcfg (shiftMem lits (k * cfg.nLits)) c.base hn hbin
    have h3 := convSetLoop_eq scalar.budget.isSome (unpad cfg.nLits c.base).pos (unpad cfg.nLits c.base).neg
      (unpadExample cfg.nLits (shiftMem lits (k * cfg.nLits))) 0 0
    rw [Nat.add_zero] at h3
    rw [patchAt_unpad _ _ _ _ hk, h3]
    refine ⟨?_, fun h => ?_⟩
    · rw [h1.1, h2.1]; rfl
    · rw [h1.2 hs h, h2.2 hb (by rw [h1.1] at h; exact of_decide_eq_true h)]
      simp only [setOutClause, hcfg, hs, if_true]
  simp only [avxConvSetClause, convSetClause, unpadConv]
  rw [e, hcfg]
  rfl

end GT

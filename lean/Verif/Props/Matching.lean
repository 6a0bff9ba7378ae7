import Verif.Lemmas.Matching
import Verif.Props.Dense
import Verif.Props.Conv
import Verif.Props.Neon
import Verif.Props.SparseFeedback
import Verif.Spec.ClauseOrder
import Verif.Lemmas.Fresh

/-! # C97: what a training step does to the set of examples a clause matches -/

namespace GT
open Spec

/-- C97, portable backend: whatever the feedback and the draws, a training step on an example the clause does not match -
or matches with more literals than its budget - leaves it matching everything it matched before; a training step on an
example it matches within its budget leaves it matching nothing it did not match before. -/
theorem C97_dense (b : DBlock) (x : List Nat) (fb : Feedback) (hx : Binary x)
    (hb : ∀ c ∈ b.clauses, Shaped x.length c ∧ InRange c.pos ∧ InRange c.neg) (i : Nat) (c : Clause)
    (hc : b.clauses[i]? = some c) :
    ∃ c', (b.trainStep x fb).clauses[i]? = some c' ∧
      (¬ Satisfied c.pos c.neg x ∨ ¬ FitsBudget b.cfg.budget c → Within x.length c c') ∧
      (Satisfied c.pos c.neg x → FitsBudget b.cfg.budget c → Within x.length c' c) := by
  obtain ⟨hsh, hrp, hrn⟩ := hb c (List.mem_of_getElem? hc)
  have hO := C06_train_output b.cfg x c hx hsh
  have hc1 : ((b.apply (.trainExample x)).clauses)[i]? = some (setOutClause b.cfg x c) := by
    simp [DBlock.apply, DBlock.countVotes, DBlock.trainSetOutput, hc]
  obtain ⟨g', e⟩ := trainClauses_get b.cfg x fb _ b.fast b.rng i _ hc1
  have hg : (budgetGate b.cfg (setOutClause b.cfg x c)).out = 1 ↔ Satisfied c.pos c.neg x ∧ FitsBudget b.cfg.budget c := by
    rw [budgetGate_out, hO.1]
    refine and_congr_right fun hs => ?_
    unfold FitsBudget
    refine forall_congr' fun m => ?_
    by_cases hm : b.cfg.budget = some m
    · rw [hO.2.2 (by rw [hm]; simp) (hO.1.mpr hs)]
    · simp [hm]
  refine ⟨_, e, ?_, ?_⟩
  · intro h
    have hsil : (budgetGate b.cfg (setOutClause b.cfg x c)).out ≠ 1 := by
      rw [Ne, hg]
      rintro ⟨h1, h2⟩
      rcases h with h | h
      · exact h h1
      · exact h h2
    exact Match.trainClause_wider b.cfg x fb (setOutClause b.cfg x c) { b.fast with pos := b.fast.pos + 2 * i } g' hsil
      (hsh.1.trans hsh.2.symm) hrp hrn x.length
  · intro hs hf
    exact (Match.trainClause_keeps b.cfg x fb (setOutClause b.cfg x c) { b.fast with pos := b.fast.pos + 2 * i } g' (hg.mpr ⟨hs, hf⟩) hsh hrp hrn).within hs _

/-- C97 over histories: while a clause matches none of the examples trained on, it keeps matching everything it matched
at the start; while it matches all of them within its budget, it matches nothing new. -/
theorem C97_history (n : Nat) (b : DBlock) (h : List (List Nat × Feedback))
    (hx : ∀ e ∈ h, Binary e.1 ∧ e.1.length = n)
    (hb : ∀ c ∈ b.clauses, Shaped n c ∧ InRange c.pos ∧ InRange c.neg)
    (i : Nat) (c : Clause) (hc : b.clauses[i]? = some c) :
    ∃ c', (trainHistory b h).clauses[i]? = some c' ∧
      ((∀ h1 e h2 d, h = h1 ++ e :: h2 → (trainHistory b h1).clauses[i]? = some d → ¬ Satisfied d.pos d.neg e.1) →
        Within n c c') ∧
      ((∀ h1 e h2 d, h = h1 ++ e :: h2 → (trainHistory b h1).clauses[i]? = some d →
        Satisfied d.pos d.neg e.1 ∧ FitsBudget b.cfg.budget d) → Within n c' c) := by
  induction h generalizing b c with
  | nil => exact ⟨c, hc, fun _ _ _ _ h => h, fun _ _ _ _ h => h⟩
  | cons e h ih =>
    have hn := (hx e (by simp)).2
    obtain ⟨c1, h1, hw1, hn1⟩ := C97_dense b e.1 e.2 (hx e (by simp)).1 (by rw [hn]; exact hb) i c hc
    rw [hn] at hw1 hn1
    have hk := trainStep_keeps_shape b e.1 e.2 n hb
    obtain ⟨c2, h2, hw2, hn2⟩ := ih (b.trainStep e.1 e.2) (fun e' he' => hx e' (by simp [he'])) hk.2 c1 h1
    refine ⟨c2, h2, fun hh => ?_, fun hh => ?_⟩
    · intro z hz hl hs
      refine hw2 (fun l1 f l2 d hl hd => hh (e :: l1) f l2 d (by simp [hl]) hd) z hz hl
        (hw1 (Or.inl (hh [] e h c rfl hc)) z hz hl hs)
    · intro z hz hl hs
      have h0 := hh [] e h c rfl hc
      exact hn1 h0.1 h0.2 z hz hl
        (hn2 (fun l1 f l2 d hl hd => by rw [hk.1]; exact hh (e :: l1) f l2 d (by simp [hl]) hd) z hz hl hs)

/-- C97: a clause that matches the example, votes for its class and against the negative class still matches it after the
training step, whatever the draws. -/
theorem C97_rewarded_clause_keeps_the_example (b : DBlock) (x : List Nat) (fb : Feedback) (hx : Binary x)
    (hb : ∀ c ∈ b.clauses, Shaped x.length c ∧ InRange c.pos ∧ InRange c.neg) (i : Nat) (c : Clause)
    (hc : b.clauses[i]? = some c) (hs : Satisfied c.pos c.neg x) (hcl : fb.posClass ≠ fb.negClass)
    (hp : 0 ≤ c.w.getD fb.posClass 0) (hq : c.w.getD fb.negClass 0 < 0) :
    ∃ c', (b.trainStep x fb).clauses[i]? = some c' ∧ Satisfied c'.pos c'.neg x := by
  obtain ⟨hsh, hrp, hrn⟩ := hb c (List.mem_of_getElem? hc)
  have hc1 : ((b.apply (.trainExample x)).clauses)[i]? = some (setOutClause b.cfg x c) := by
    simp [DBlock.apply, DBlock.countVotes, DBlock.trainSetOutput, hc]
  obtain ⟨g', e⟩ := trainClauses_get b.cfg x fb _ b.fast b.rng i _ hc1
  refine ⟨_, e, ?_⟩
  exact Match.trainClause_rewarded b.cfg x fb (setOutClause b.cfg x c) { b.fast with pos := b.fast.pos + 2 * i } g' hx hsh hrp hrn hs hcl hp hq

/-- C97: a clause of `n` literals can be rejected at most 254 times for examples it matches before it must be given
other feedback: after that it matches no example at all. -/
theorem C97_rejections_are_bounded (n : Nat) (hn : 0 < n) (xs : List (List Nat)) (pos neg : List Int)
    (hx : ∀ x ∈ xs, Binary x ∧ x.length = n) (hp : pos.length = n) (hq : neg.length = n)
    (hrp : InRange pos) (hrn : InRange neg) (h : RejectedFor xs (pos, neg)) : xs.length ≤ 254 := by
  have h1 := Match.rejected_bound n xs pos neg hx hp hq hrp hrn h
  have h2 := Match.lack_le pos hrp
  have h3 := Match.lack_le neg hrn
  rw [hp] at h2
  rw [hq] at h3
  have h4 : (xs.length : Int) * n ≤ 254 * n := by omega
  have h5 := Int.le_of_mul_le_mul_right h4 (by omega)
  omega

/-- C97: the bound 254 is reached. -/
theorem C97_bound_is_tight :
    RejectedFor (List.replicate 127 [0] ++ List.replicate 127 [1]) ([-127], [-127]) := by
  have hz : ∀ (k : Nat) (p : Int) (rest : List (List Nat)), (k : Int) + p ≤ 0 → -128 ≤ p →
      RejectedFor rest ([p + k], [-127]) → RejectedFor (List.replicate k [0] ++ rest) ([p], [-127]) := by
    intro k
    induction k with
    | zero => intro p rest _ _ h; simpa using h
    | succ k ih =>
      intro p rest hp hl h
      rw [List.replicate_succ, List.cons_append]
      refine ⟨?_, ?_⟩
      · constructor <;> rintro (_ | i) ⟨v, hv, h0⟩ <;> simp at hv <;> omega
      · have : t2 [p] [-127] [0] = ([p + 1], [-127]) := by
          simp only [t2, if_true]
          rw [if_pos (by omega), wrap8_id (by omega) (by omega)]
        show RejectedFor _ (t2 [p] [-127] [0])
        rw [this]
        refine ih (p + 1) rest (by omega) (by omega) ?_
        rw [show p + 1 + (k : Int) = p + ((k + 1 : Nat) : Int) by omega]
        exact h
  have ho : ∀ (k : Nat) (q : Int), (k : Int) + q ≤ 0 → -128 ≤ q → RejectedFor (List.replicate k [1]) ([0], [q]) := by
    intro k
    induction k with
    | zero => intro q _ _; trivial
    | succ k ih =>
      intro q hq hl
      rw [List.replicate_succ]
      refine ⟨?_, ?_⟩
      · constructor <;> rintro (_ | i) ⟨v, hv, h0⟩ <;> simp at hv ⊢ <;> omega
      · have : t2 [0] [q] [1] = ([0], [q + 1]) := by
          simp only [t2]
          rw [if_neg (by decide), if_pos (by omega), wrap8_id (by omega) (by omega)]
        show RejectedFor _ (t2 [0] [q] [1])
        rw [this]
        exact ih (q + 1) (by omega) (by omega)
  exact hz 127 (-127) _ (by omega) (by omega) (ho 127 (-127) (by omega) (by omega))

/-- C97 on AVX2. -/
theorem C97_avx2 (b : VBlock) (lits : Mem) (fb : Feedback) (hn : 0 < b.cfg.nLits)
    (hx : Binary (unpadExample b.cfg.nLits lits)) (i : Nat) (c : VClause) (hc : b.clauses[i]? = some c) :
    ∃ c', (vstep b (.train lits fb)).clauses[i]? = some c' ∧
      (¬ Satisfied (unpad b.cfg.nLits c).pos (unpad b.cfg.nLits c).neg (unpadExample b.cfg.nLits lits) ∨
        ¬ FitsBudget b.cfg.budget (unpad b.cfg.nLits c) → Within b.cfg.nLits (unpad b.cfg.nLits c) (unpad b.cfg.nLits c')) ∧
      (Satisfied (unpad b.cfg.nLits c).pos (unpad b.cfg.nLits c).neg (unpadExample b.cfg.nLits lits) →
        FitsBudget b.cfg.budget (unpad b.cfg.nLits c) → Within b.cfg.nLits (unpad b.cfg.nLits c') (unpad b.cfg.nLits c)) := by
  have hs := avxSetClause_spec b.cfg lits c hn
  have hc1 : (b.apply (.trainExample lits)).clauses[i]? = some (avxSetClause b.cfg lits c) := by
    simp [VBlock.apply, hc]
  obtain ⟨g', e⟩ := avxTrainClauses_get b.cfg lits fb _ b.fast b.vrng i _ hc1
  have hrow : unpad b.cfg.nLits c = { unpad b.cfg.nLits (avxSetClause b.cfg lits c) with
      w := c.w, out := c.out, cnt := c.cnt } := by
    unfold unpad; rw [hs.2.2.2.1]
  have hg : (avxBudgetGate b.cfg (avxSetClause b.cfg lits c)).out = 1 ↔
      Satisfied (unpad b.cfg.nLits c).pos (unpad b.cfg.nLits c).neg (unpadExample b.cfg.nLits lits) ∧
        FitsBudget b.cfg.budget (unpad b.cfg.nLits c) := by
    rw [(avxBudgetGate_facts _ _).1, hs.2.1, okRange_iff_satisfied c hx]
    refine and_congr_right fun hsat => ?_
    unfold FitsBudget
    refine forall_congr' fun m => ?_
    by_cases hm : b.cfg.budget = some m
    · rw [hs.2.2.1 (by simp [hm]) (hs.2.1.mpr ((okRange_iff_satisfied c hx).mpr hsat)), incCount_eq_numIncluded,
        incCount_eq_numIncluded]
      simp only [Nat.zero_add]
      exact Iff.rfl
    · simp [hm]
  refine ⟨_, e, ?_, ?_⟩
  · intro h
    have := Match.avx_train_wider b.cfg lits fb (avxSetClause b.cfg lits c) { b.fast with pos := b.fast.pos + 2 * i } g' (by
      rw [Ne, hg]
      rintro ⟨h1, h2⟩
      rcases h with h | h
      · exact h h1
      · exact h h2) b.cfg.nLits
    rw [hrow]
    exact this
  · intro h1 h2
    have := Match.avx_train_keeps b.cfg lits fb (avxSetClause b.cfg lits c) { b.fast with pos := b.fast.pos + 2 * i } g'
      (hg.mpr ⟨h1, h2⟩)
    rw [hrow] at h1 ⊢
    exact this.within h1 _

/-- C97 on NEON, for blocks with a budget (without one a training step crashes, C42). -/
theorem C97_neon (b : NBlock) (lits : Mem) (fb : Feedback) (hn : 0 < b.cfg.nLits)
    (hx : Binary (unpadExample b.cfg.nLits lits)) (hbudget : b.cfg.budget ≠ none) (i : Nat) (c : VClause)
    (hc : b.clauses[i]? = some c) :
    ∃ b' c', neonStep b (.train lits fb) = some b' ∧ b'.clauses[i]? = some c' ∧
      (¬ Satisfied (neonUnpad b.cfg.nLits c).pos (neonUnpad b.cfg.nLits c).neg (unpadExample b.cfg.nLits lits) ∨
        ¬ FitsBudget b.cfg.budget (neonUnpad b.cfg.nLits c) →
          Within b.cfg.nLits (neonUnpad b.cfg.nLits c) (neonUnpad b.cfg.nLits c')) ∧
      (Satisfied (neonUnpad b.cfg.nLits c).pos (neonUnpad b.cfg.nLits c).neg (unpadExample b.cfg.nLits lits) →
        FitsBudget b.cfg.budget (neonUnpad b.cfg.nLits c) →
          Within b.cfg.nLits (neonUnpad b.cfg.nLits c') (neonUnpad b.cfg.nLits c)) := by
  have hs := Neon.neonSetClause_spec b.cfg lits c hn
  have hset : neonSetClauses b.cfg lits b.clauses = some (b.clauses.map (neonSetClause b.cfg lits)) := by
    unfold neonSetClauses
    rw [if_neg (fun h => hbudget h.2)]
  have hc1 : (b.clauses.map (neonSetClause b.cfg lits))[i]? = some (neonSetClause b.cfg lits c) := by
    simp [hc]
  obtain ⟨g', e⟩ := Neon.neonTrainClauses_get b.cfg lits fb _ b.fast b.vrng i _ hc1
  have hrow : neonUnpad b.cfg.nLits c = { neonUnpad b.cfg.nLits (neonSetClause b.cfg lits c) with
      w := c.w, out := c.out, cnt := c.cnt } := by
    unfold neonUnpad; rw [hs.2.2.2.1]
  have hg : (neonBudgetGate b.cfg (neonSetClause b.cfg lits c)).out = 1 ↔
      Satisfied (neonUnpad b.cfg.nLits c).pos (neonUnpad b.cfg.nLits c).neg (unpadExample b.cfg.nLits lits) ∧
        FitsBudget b.cfg.budget (neonUnpad b.cfg.nLits c) := by
    rw [(Neon.neonBudgetGate_facts _ _).1, hs.2.1, Neon.okRange_iff_satisfied c hx]
    refine and_congr_right fun hsat => ?_
    unfold FitsBudget
    refine forall_congr' fun m => ?_
    by_cases hm : b.cfg.budget = some m
    · rw [hs.2.2.1 (by simp [hm]) (hs.2.1.mpr ((Neon.okRange_iff_satisfied c hx).mpr hsat)), incCount_eq_numIncluded,
        incCount_eq_numIncluded]
      simp only [Nat.zero_add]
      exact Iff.rfl
    · simp [hm]
  refine ⟨_, _, by simp only [neonStep, NBlock.apply, hset, Option.map_some, Option.bind_some]; rfl, e, ?_, ?_⟩
  · intro h
    have := Match.neon_train_wider b.cfg lits fb (neonSetClause b.cfg lits c) { b.fast with pos := b.fast.pos + 2 * i } g' (by
      rw [Ne, hg]
      rintro ⟨h1, h2⟩
      rcases h with h | h
      · exact h h1
      · exact h h2) b.cfg.nLits
    rw [hrow]
    exact this
  · intro h1 h2
    have := Match.neon_train_keeps b.cfg lits fb (neonSetClause b.cfg lits c) { b.fast with pos := b.fast.pos + 2 * i } g'
      (hg.mpr ⟨h1, h2⟩)
    rw [hrow] at h1 ⊢
    exact this.within h1 _

/-- C97 for convolution, patch by patch: a clause that matches no patch of the example matches every patch it matched
before; one that matches some patch, in a block without a budget or with one that nothing exceeds (such as the 65535 a block has if
none is set), matches no patch it did not match before. With a smaller budget, whose count may be another patch's (C41), it is one of the two. -/
theorem C97_conv_partial (b : ConvBlock) (x : List Nat) (fb : Feedback) (hx : Binary x)
    (hl : x.length = b.nPatches * b.nLits) (i : Nat) (c : ConvClause) (hi : b.clauses[i]? = some c)
    (hc : Shaped b.nLits c.base) (hp : InRange c.base.pos) (hq : InRange c.base.neg) :
    ∃ c', (b.trainStep x fb).clauses[i]? = some c' ∧
      ((∀ k, k < b.nPatches → ¬ HoldsIn c.base b.nLits x k) → Within b.nLits c.base c'.base) ∧
      ((∃ k, k < b.nPatches ∧ HoldsIn c.base b.nLits x k) → b.cfg.budget = none ∨ AmpleBudget b → Within b.nLits c'.base c.base) ∧
      (Within b.nLits c.base c'.base ∨ Within b.nLits c'.base c.base) := by
  obtain ⟨counts', g0, e0⟩ := convSetClauses_get b.cfg b.nLits b.nPatches x b.clauses b.counts b.rng i c hi
  obtain ⟨h1, h2, h3, -, hpos, hneg, hw⟩ := convSetClause_spec b.cfg b.nLits b.nPatches x hx hl c hc counts' g0
  have hcnt : ∀ v, (∀ i, b.counts i ≤ v) → (∀ c ∈ b.clauses, c.base.cnt ≤ v ∧ c.base.pos.length + c.base.neg.length ≤ v) →
      (convSetClause b.cfg b.nLits b.nPatches x c counts' g0).1.base.cnt ≤ v := by
    intro v hv hcs
    have hs := (Fresh.lsets_like v b.cfg b.nLits b.nPatches x b.clauses b.clauses b.counts b.counts b.rng rfl hv hv (fun c h => (hcs c h).1)
      (fun c h => (hcs c h).1) fun c h => (hcs c h).2).1
    have hsame : ∀ l : List ConvClause, List.Forall₂ (Fresh.LLike v) l l → ∀ d ∈ l, d.base.cnt ≤ v := by
      intro l h
      induction l with
      | nil => intro d hd; cases hd
      | cons a l ih =>
        intro d hd
        cases h with
        | cons h1 h2 =>
          rcases List.mem_cons.1 hd with rfl | hd
          · exact h1.2.2.2.1
          · exact ih h2 d hd
    exact hsame _ hs _ (List.mem_of_getElem? e0)
  generalize (convSetClause b.cfg b.nLits b.nPatches x c counts' g0).1 = d at e0 h1 h2 h3 hpos hneg hw hcnt
  obtain ⟨f', g', e⟩ := convTrainClauses_get b.cfg b.nLits x fb _ b.fast
    (convSetClauses b.cfg b.nLits b.nPatches x b.clauses b.counts b.rng).2.2 i d e0
  have hwide : (budgetGate b.cfg d.base).out ≠ 1 →
      Within b.nLits c.base (convTrainClause b.cfg b.nLits x fb d f' g').1.base := by
    intro ho
    have := Match.trainClause_wider b.cfg (patchAt b.nLits x d.patch) fb d.base f' g' ho
      (by rw [hpos, hneg]; exact hc.1.trans hc.2.symm) (by rw [hpos]; exact hp) (by rw [hneg]; exact hq) b.nLits
    unfold Within at this ⊢
    rw [hpos, hneg] at this
    exact this
  have hnarrow : (budgetGate b.cfg d.base).out = 1 →
      Within b.nLits (convTrainClause b.cfg b.nLits x fb d f' g').1.base c.base := by
    intro ho
    have h4 := h3 ((budgetGate_out b.cfg d.base).mp ho).1
    have hsh : Shaped (patchAt b.nLits x d.patch).length d.base := by
      rw [patchAt_eq hl h4.1, patchLits_length]
      exact ⟨by rw [hpos]; exact hc.1, by rw [hneg]; exact hc.2⟩
    have hk := Match.trainClause_keeps b.cfg (patchAt b.nLits x d.patch) fb d.base f' g' ho hsh
      (by rw [hpos]; exact hp) (by rw [hneg]; exact hq)
    have := hk.within (by rw [patchAt_eq hl h4.1, hpos, hneg]; exact h4.2) b.nLits
    unfold Within at this ⊢
    rw [hpos, hneg] at this
    exact this
  refine ⟨_, e, ?_, ?_, ?_⟩
  · intro h
    refine hwide fun ho => ?_
    obtain ⟨k, hk, hh⟩ := h1.mp ((budgetGate_out b.cfg d.base).mp ho).1
    exact h k hk hh
  · intro h hb
    refine hnarrow ((budgetGate_out b.cfg d.base).mpr ⟨h1.mpr h, ?_⟩)
    intro v hv
    rcases hb with hb | ⟨u, hu, hu1, hu2⟩
    · rw [hb] at hv; cases hv
    · rw [hu] at hv; cases hv
      exact hcnt _ hu1 hu2
  · by_cases ho : (budgetGate b.cfg d.base).out = 1
    · exact Or.inr (hnarrow ho)
    · exact Or.inl (hwide ho)

/-! ### Sparse machines -/

/-- One update of a firing clause keeps the included literals that agree with the example, the order and the byte range. -/
theorem sparse_update_keeps (cfg : SCfg) (hta : cfg.lowerTA ≤ 0) (x : List Nat) (hx : SortedEx x) (j : Nat) (t : Int)
    (ht : t = 1 ∨ t = -1) (c : SClause) (al : List Nat × Nat) (g : Rng) (ho : c.out = 1) (hc : Tidy cfg c)
    (hb : ByteStates c) :
    (∀ l, On c.pos l → l ∈ x → On (sClauseUpdate cfg x j t c al g).1.pos l) ∧
    (∀ l, On c.neg l → l ∉ x → On (sClauseUpdate cfg x j t c al g).1.neg l) ∧
    Tidy cfg (sClauseUpdate cfg x j t c al g).1 ∧ ByteStates (sClauseUpdate cfg x j t c al g).1 ∧
    (sClauseUpdate cfg x j t c al g).1.out = 1 := by
  have hin := sClauseUpdate_in (-128) (by omega) (by omega) cfg (by unfold wrap8; omega) x j t c al g hb.1 hb.2
  refine and_assoc.mp ⟨?_, C36_update_keeps_order cfg x j t c al g hc, ⟨hin.1, hin.2⟩, ?_⟩
  · have hcase : SRightlyFiring c j t ∨ SWronglyFiring c j t := by
      rcases ht with rfl | rfl
      · rcases Int.lt_or_le (c.w.getD j 0) 0 with h | h
        · exact Or.inr ⟨ho, Or.inl ⟨rfl, h⟩⟩
        · exact Or.inl ⟨ho, Or.inl ⟨rfl, h⟩⟩
      · rcases Int.lt_or_le (c.w.getD j 0) 0 with h | h
        · exact Or.inl ⟨ho, Or.inr ⟨rfl, h⟩⟩
        · exact Or.inr ⟨ho, Or.inr ⟨rfl, h⟩⟩
    rcases hcase with hw | hw
    · obtain ⟨h1, h2, -⟩ := C59_reward cfg x j t c al g hw hx hc.1 hc.2.1 hb
      constructor
      · rintro l ⟨v, hv, h0⟩ hl
        obtain ⟨i, _, hh⟩ := h1 l v hv
        have hcl : 0 ≤ climb cfg.boost cfg.sMin1Inv (g.draw i) v := by unfold climb; split <;> omega
        rw [if_pos hl] at hh
        exact ⟨_, (hh _ rfl).2 (by omega), hcl⟩
      · rintro l ⟨v, hv, h0⟩ hl
        obtain ⟨i, _, hh⟩ := h2 l v hv
        have hcl : 0 ≤ climb cfg.boost cfg.sMin1Inv (g.draw i) v := by unfold climb; split <;> omega
        rw [if_neg hl] at hh
        exact ⟨_, (hh _ rfl).2 (by omega), hcl⟩
    · obtain ⟨h1, h2, -⟩ := C59_reject cfg x j t c al g hw hb
      constructor
      · rintro l ⟨v, hv, h0⟩ hl
        have := h1 l v hv
        rw [if_neg (by omega)] at this
        exact ⟨v, this, h0⟩
      · rintro l ⟨v, hv, h0⟩ hl
        have := h2 l v hv
        rw [if_neg (by omega)] at this
        exact ⟨v, this, h0⟩
  · rw [(sClauseUpdate_out _ _ _ _ _ _ _).1]; exact ho

/-- C97 for sparse machines: a training step on an example the clause does not fire on, or with more literals than its
budget, leaves it matching everything it matched before; one on an example it matches within its budget leaves it matching
nothing new (pruning threshold at most 0). Missing from the full claim: examples the clause fires on without matching them
(`C97_sparse_rejected_without_matching`). -/
theorem C97_sparse_partial (b : SBlock) (hta : b.cfg.lowerTA ≤ 0) (x : List Nat) (hx : SortedEx x) (fb : Feedback)
    (i : Nat) (c : SClause) (hc : b.clauses[i]? = some c) (htidy : Tidy b.cfg c) (hbyte : ByteStates c) :
    ∃ c', (b.trainStep x fb).clauses[i]? = some c' ∧
      ((sSetClause b.cfg x c).out ≠ 1 ∨ (∃ m, b.cfg.budget = some m ∧
        m < (c.pos.filter (fun e => decide (0 ≤ e.2))).length + (c.neg.filter (fun e => decide (0 ≤ e.2))).length) →
        SWithin c c') ∧
      (SHolds c x → (∀ m, b.cfg.budget = some m →
        (c.pos.filter (fun e => decide (0 ≤ e.2))).length + (c.neg.filter (fun e => decide (0 ≤ e.2))).length ≤ m) →
        SWithin c' c) := by
  have hc1 : (b.apply (.trainExample x)).clauses[i]? = some (sSetClause b.cfg x c) := by
    simp [SBlock.apply, hc]
  obtain ⟨al', g', hl, he⟩ := sTrainClauses_get b.cfg x fb _ b.al b.fast i _ hc1
  obtain ⟨r1, r2, r3⟩ := sSetClause_rows b.cfg x c
  have hg : (sBudgetGate b.cfg (sSetClause b.cfg x c)).out = 1 ↔ (sSetClause b.cfg x c).out = 1 ∧
      (∀ m, b.cfg.budget = some m →
        (c.pos.filter (fun e => decide (0 ≤ e.2))).length + (c.neg.filter (fun e => decide (0 ≤ e.2))).length ≤ m) := by
    rw [sBudgetGate_out]
    refine and_congr_right fun _ => forall_congr' fun m => ?_
    constructor
    · intro h hm
      have := h hm
      rwa [C37_literal_count b.cfg x c (by simp [hm])] at this
    · intro h hm
      rw [C37_literal_count b.cfg x c (by simp [hm])]
      exact h hm
  refine ⟨_, he, ?_, ?_⟩
  · intro h
    have hs : (sBudgetGate b.cfg (sSetClause b.cfg x c)).out ≠ 1 := by
      rw [Ne, hg]
      rintro ⟨h1, h2⟩
      rcases h with h | ⟨m, hm, hlt⟩
      · exact h h1
      · have := h2 m hm
        omega
    obtain ⟨a1, a2, -⟩ := sTrainClause_silent b.cfg x fb (sSetClause b.cfg x c) al' g' hs
    rw [r1] at a1
    rw [r2] at a2
    intro z hz
    constructor
    · rintro t ⟨v, hv, h0⟩
      obtain ⟨u, hu, huv⟩ := a1 t v hv
      exact hz.1 t ⟨u, hu, by omega⟩
    · rintro t ⟨v, hv, h0⟩
      obtain ⟨u, hu, huv⟩ := a2 t v hv
      exact hz.2 t ⟨u, hu, by omega⟩
  · intro hs hfit
    have hout : (sSetClause b.cfg x c).out = 1 :=
      (C37_train_exact b.cfg x c hx).1.mpr ⟨fun t ht => Or.inl (hs.1 t ht), hs.2⟩
    have ho := hg.mpr ⟨hout, hfit⟩
    obtain ⟨q1, q2, q3⟩ := sBudgetGate_rows b.cfg (sSetClause b.cfg x c)
    have t0 : Tidy b.cfg (sBudgetGate b.cfg (sSetClause b.cfg x c)) := by
      unfold Tidy; rw [q1, q2, r1, r2]; exact htidy
    have b0 : ByteStates (sBudgetGate b.cfg (sSetClause b.cfg x c)) := by
      unfold ByteStates; rw [q1, q2, r1, r2]; exact hbyte
    have k1 := fun j t (ht : t = 1 ∨ t = -1) al g =>
      sparse_update_keeps b.cfg hta x hx j t ht _ al g ho t0 b0
    have k2 := fun j j' al g al2 g2 =>
      sparse_update_keeps b.cfg hta x hx j (-1) (Or.inr rfl)
        (sClauseUpdate b.cfg x j' 1 (sBudgetGate b.cfg (sSetClause b.cfg x c)) al2 g2).1 al g
        (k1 j' 1 (Or.inl rfl) al2 g2).2.2.2.2 (k1 j' 1 (Or.inl rfl) al2 g2).2.2.1 (k1 j' 1 (Or.inl rfl) al2 g2).2.2.2.1
    have hkeep : (∀ l, On c.pos l → l ∈ x → On (sTrainClause b.cfg x fb (sSetClause b.cfg x c) al' g').1.pos l) ∧
        (∀ l, On c.neg l → l ∉ x → On (sTrainClause b.cfg x fb (sSetClause b.cfg x c) al' g').1.neg l) := by
      rw [q1, r1, q2, r2] at k1
      unfold sTrainClause sUpdateWith
      dsimp only
      split
      · split
        · exact ⟨fun l h hx => (k2 _ _ _ _ _ _).1 l ((k1 _ _ (Or.inl rfl) _ _).1 l h hx) hx,
            fun l h hx => (k2 _ _ _ _ _ _).2.1 l ((k1 _ _ (Or.inl rfl) _ _).2.1 l h hx) hx⟩
        · exact ⟨(k1 _ _ (Or.inl rfl) _ _).1, (k1 _ _ (Or.inl rfl) _ _).2.1⟩
      · split
        · exact ⟨(k1 _ _ (Or.inr rfl) _ _).1, (k1 _ _ (Or.inr rfl) _ _).2.1⟩
        · dsimp only
          rw [q1, r1, q2, r2]
          exact ⟨fun _ h _ => h, fun _ h _ => h⟩
    intro z hz
    exact ⟨fun t ht => hz.1 t (hkeep.1 t ht (hs.1 t ht)), fun t ht => hz.2 t (hkeep.2 t ht (hs.2 t ht))⟩

/-- C97 is false of sparse machines as stated: a clause that three training steps from a fresh block reach is trained on an
example it does not match, and afterwards no longer matches an example it matched before. -/
theorem C97_sparse_rejected_without_matching :
    ∃ ops c c', (sRun (exSBlock exSCfg3) ops).clauses = [c] ∧
      ((sRun (exSBlock exSCfg3) ops).trainStep [] ⟨1, 0, 0, 1⟩).clauses = [c'] ∧
      ¬ SHolds c [] ∧ SHolds c [0] ∧ ¬ SHolds c' [0] := by
  refine ⟨exStep [0, 5] 0 1 1 ++ exStep [5] 1 0 0 ++ exStep [] 1 0 0, ⟨[(0, 0), (5, -1)], [(5, -1)], [0, 0], 1, 0⟩,
    ⟨[(0, 0), (5, 0)], [(5, -1)], [-1, 0], 1, 1⟩, by decide +kernel, by decide +kernel, ?_, ?_, ?_⟩
  · intro h
    have := h.1 0 ⟨0, by simp, by decide⟩
    simp at this
  · constructor
    · rintro t ⟨v, hv, h0⟩
      simp at hv
      rcases hv with ⟨rfl, rfl⟩ | ⟨rfl, rfl⟩
      · simp
      · omega
    · rintro t ⟨v, hv, h0⟩
      simp at hv
      omega
  · intro h
    have := h.1 5 ⟨0, by simp, by decide⟩
    simp at this

/-! ### The hypotheses are met -/

example : Binary [1, 0, 0] ∧ Shaped 3 exClause ∧ InRange exClause.pos ∧ InRange exClause.neg ∧
    (evalOutClause [1, 0, 0] exClause).out = 1 ∧ (evalOutClause [1, 1, 0] exClause).out = 0 ∧
    FitsBudget (some 3) exClause ∧ ¬ FitsBudget (some 1) exClause := by
  refine ⟨by decide, by simp [Shaped, exClause], by unfold InRange; decide, by unfold InRange; decide, by decide, by decide,
    ?_, ?_⟩
  · intro m hm; cases hm; decide
  · intro h; exact absurd (h 1 rfl) (by decide)

/-- One training step really narrows and really widens: a clause that matches `[1, 0]` and `[1, 1]` is rejected on `[1, 0]`
and then matches neither; trained on `[0, 0]`, which it does not match, it forgets its only literal. -/
example : ((⟨2, 2, exCfg, [⟨[0, -1], [-1, -1], [-4, 1], 0, 0⟩], [0, 0], exRng, exRng⟩ : DBlock).trainStep [1, 0]
      ⟨0, 1, 1, 0⟩).clauses = [⟨[0, 0], [0, -1], [-3, 1], 1, 1⟩] ∧
    ((⟨2, 2, exCfg, [⟨[0, -1], [-1, -1], [4, -1], 0, 0⟩], [0, 0], exRng, exRng⟩ : DBlock).trainStep [0, 0]
      ⟨0, 1, 1, 0⟩).clauses = [⟨[-1, -2], [-1, -1], [4, -1], 0, 0⟩] := by constructor <;> decide +kernel

example : Tidy exSCfg3 ⟨[(0, 3), (4, -2)], [(1, -1)], [2, -1], 1, 0⟩ ∧
    ByteStates ⟨[(0, 3), (4, -2)], [(1, -1)], [2, -1], 1, 0⟩ ∧ SortedEx [0, 2] ∧ exSCfg3.lowerTA ≤ 0 ∧
    SHolds ⟨[(0, 3), (4, -2)], [(1, -1)], [2, -1], 1, 0⟩ [0, 2] ∧
    (sSetClause exSCfg3 [2] ⟨[(0, 3), (4, -2)], [(1, -1)], [2, -1], 1, 0⟩).out ≠ 1 := by
  refine ⟨by decide, by unfold ByteStates; decide, by decide, by decide, ⟨?_, ?_⟩, by decide⟩
  · rintro t ⟨v, hv, h0⟩
    simp at hv
    rcases hv with ⟨rfl, rfl⟩ | ⟨rfl, rfl⟩
    · simp
    · omega
  · rintro t ⟨v, hv, h0⟩
    simp at hv
    omega

end GT

import Verif.Lemmas.Conv

/-! # Convolutional clause blocks (C41) -/

namespace GT
open Spec

/-- C41, evaluation: a clause outputs 1 iff it is non-empty and some patch satisfies all its literals, otherwise 0;
states, weights and active patch stay as they are. -/
theorem C41_eval_output (b : ConvBlock) (x : List Nat) (hx : Binary x) (hl : x.length = b.nPatches * b.nLits)
    (i : Nat) (c : ConvClause) (hi : b.clauses[i]? = some c) (hc : Shaped b.nLits c.base) :
    ∃ c', (b.apply (.evalExample x)).clauses[i]? = some c' ∧
      (c'.base.out = 1 ↔ ¬ EmptyClause c.base.pos c.base.neg ∧ ∃ k, k < b.nPatches ∧ HoldsIn c.base b.nLits x k) ∧
      (c'.base.out = 0 ∨ c'.base.out = 1) ∧ c' = { c with base := { c.base with out := c'.base.out } } := by
  refine ⟨convEvalClause b.nLits b.nPatches x c, by simp [ConvBlock.apply, hi], ?_, (anyPatch_spec _ _ _).2, rfl⟩
  have ht : ∀ k, k < b.nPatches → (convEvalPatch c.base.pos c.base.neg (patchAt b.nLits x k) = true ↔
      ¬ EmptyClause c.base.pos c.base.neg ∧ HoldsIn c.base b.nLits x k) := by
    intro k hk
    rw [patchAt_eq hl hk]
    exact convEvalPatch_spec c.base _ (patchLits_binary hx k) (by rw [patchLits_length]; exact hc)
  show anyPatch _ 0 b.nPatches = 1 ↔ _
  rw [(anyPatch_spec _ _ _).1]
  constructor
  · rintro ⟨k, _, hk, h⟩
    rw [Nat.zero_add] at hk
    exact ⟨((ht k hk).mp h).1, k, hk, ((ht k hk).mp h).2⟩
  · rintro ⟨he, k, hk, h⟩
    exact ⟨k, Nat.zero_le _, by omega, (ht k hk).mpr ⟨he, h⟩⟩

/-- C41, training: a clause outputs 1 iff some patch satisfies all its literals, otherwise 0; when it outputs 1, the
patch used for feedback is one of those; states and weights stay as they are. -/
theorem C41_train_output (b : ConvBlock) (x : List Nat) (hx : Binary x) (hl : x.length = b.nPatches * b.nLits)
    (i : Nat) (c : ConvClause) (hi : b.clauses[i]? = some c) (hc : Shaped b.nLits c.base) :
    ∃ c', (b.apply (.trainExample x)).clauses[i]? = some c' ∧
      (c'.base.out = 1 ↔ ∃ k, k < b.nPatches ∧ HoldsIn c.base b.nLits x k) ∧
      (c'.base.out = 0 ∨ c'.base.out = 1) ∧
      (c'.base.out = 1 → c'.patch < b.nPatches ∧ HoldsIn c.base b.nLits x c'.patch) ∧
      c'.base.pos = c.base.pos ∧ c'.base.neg = c.base.neg ∧ c'.base.w = c.base.w := by
  obtain ⟨counts', g', e⟩ := convSetClauses_get b.cfg b.nLits b.nPatches x b.clauses b.counts b.rng i c hi
  obtain ⟨h1, h2, h3, -, h4⟩ := convSetClause_spec b.cfg b.nLits b.nPatches x hx hl c hc counts' g'
  exact ⟨_, e, h1, h2, h3, h4⟩

/-- C41: each of the patches that satisfy the clause can be the one used for feedback, for a suitable draw. -/
theorem C41_every_patch_possible (cfg : Cfg) (n np : Nat) (x : List Nat) (hx : Binary x) (hl : x.length = np * n)
    (c : ConvClause) (hc : Shaped n c.base) (counts : Nat → Nat) (k : Nat) (hk : k < np) (hh : HoldsIn c.base n x k) :
    ∃ g : Rng, 0 ≤ g.next.1 ∧ g.next.1 < 1 ∧ (convSetClause cfg n np x c counts g).1.patch = k := by
  have ht := (convSetLoop_spec cfg.budget.isSome c.base _ (patchLits_binary hx k)
    (by rw [patchLits_length (n := n)]; exact hc)).1.mpr hh
  rw [← patchAt_eq hl hk] at ht
  have h1 := (convScan_spec np
    (fun k => convSetLoop cfg.budget.isSome c.base.pos c.base.neg (patchAt n x k) 0) counts).1
  have hm : k ∈ (convScan np
      (fun k => convSetLoop cfg.budget.isSome c.base.pos c.base.neg (patchAt n x k) 0) counts).storage := by
    rw [h1, List.mem_filter]
    exact ⟨List.mem_range.mpr hk, ht⟩
  simp only [convSetClause, convSelect]
  generalize (convScan np
    (fun k => convSetLoop cfg.budget.isSome c.base.pos c.base.neg (patchAt n x k) 0) counts) = s at hm
  obtain ⟨r, hr, e⟩ := List.mem_iff_getElem.mp hm
  have hL : (0 : Rat) < (s.storage.length : Rat) := by exact_mod_cast Nat.lt_of_le_of_lt (Nat.zero_le r) hr
  refine ⟨⟨fun _ => (r : Rat) / s.storage.length, 0⟩, ?_, ?_, ?_⟩
  · exact div_nonneg (by exact_mod_cast Nat.zero_le r) hL.le
  · show (r : Rat) / s.storage.length < 1
    rw [div_lt_one hL]
    exact_mod_cast hr
  · rw [if_neg (by omega)]
    have hf : ((r : Rat) / s.storage.length * (s.storage.length : Rat)).floor.toNat = r := by
      rw [div_mul_cancel₀ _ hL.ne']
      rw [show (r : Rat) = ((r : Int) : Rat) by simp, Rat.floor_intCast]; rfl
    show s.storage.getD (min (s.storage.length - 1)
      ((r : Rat) / s.storage.length * (s.storage.length : Rat)).floor.toNat) 0 = k
    rw [hf, Nat.min_eq_right (by omega), List.getD_eq_getElem?_getD, List.getElem?_eq_getElem hr, e]
    rfl

/-- C41, literal count. With a budget, a clause that holds in every patch (in particular a firing clause of a block
with one patch) records the number of literals it includes. Missing: the other clauses, see `C41_count_is_stale`. -/
theorem C41_count_partial (cfg : Cfg) (hb : cfg.budget ≠ none) (n np : Nat) (x : List Nat) (hx : Binary x)
    (hl : x.length = np * n) (hnp : 0 < np) (c : ConvClause) (hc : Shaped n c.base) (counts : Nat → Nat) (g : Rng)
    (hall : ∀ k, k < np → HoldsIn c.base n x k) :
    (convSetClause cfg n np x c counts g).1.base.cnt = numIncluded c.base.pos + numIncluded c.base.neg := by
  have hs : cfg.budget.isSome = true := by
    cases h : cfg.budget with
    | none => exact absurd h hb
    | some _ => rfl
  have ht : ∀ k, k < np → (convSetLoop cfg.budget.isSome c.base.pos c.base.neg (patchAt n x k) 0).1 = true ∧
      (convSetLoop cfg.budget.isSome c.base.pos c.base.neg (patchAt n x k) 0).2 =
        numIncluded c.base.pos + numIncluded c.base.neg := by
    intro k hk
    rw [patchAt_eq hl hk]
    have h := convSetLoop_spec cfg.budget.isSome c.base _ (patchLits_binary hx k)
      (by rw [patchLits_length (n := n)]; exact hc)
    exact ⟨h.1.mpr (hall k hk), h.2 hs (h.1.mpr (hall k hk))⟩
  obtain ⟨h1, -, h3⟩ := convScan_spec np
    (fun k => convSetLoop cfg.budget.isSome c.base.pos c.base.neg (patchAt n x k) 0) counts
  have hlen : (convScan np (fun k => convSetLoop cfg.budget.isSome c.base.pos c.base.neg (patchAt n x k) 0)
      counts).storage.length = np := by
    rw [h1, List.filter_eq_self.mpr, List.length_range]
    intro k hk
    exact (ht k (List.mem_range.mp hk)).1
  simp only [convSetClause, convSelect]
  rw [if_neg (by omega)]
  simp only [hs, if_true] at h3 ht ⊢
  rw [h3]
  have hr : ∀ m : Nat, min (np - 1) m < np := by intro m; omega
  have hr := hr (g.next.1 * (np : Rat)).floor.toNat
  simp only [hs] at hlen
  simp only [Rng.pick, hlen]
  rw [if_pos ⟨hr, (ht _ hr).1⟩, (ht _ hr).2]

/-! Two patches of three literals; the first clause (one literal) holds in patch 0 only, the second (two literals) in
patch 1 only; the budget is 1. -/

def exConvCfg : Cfg := ⟨some 1, false, 1 / 3, 2 / 3⟩
def exConvA : ConvClause := ⟨⟨[5, -1, -1], [-1, -1, -1], [1, 1], 0, 0⟩, 0⟩
def exConvB : ConvClause := ⟨⟨[-1, 5, 5], [-1, -1, -1], [1, 1], 0, 0⟩, 0⟩
def exConvX : List Nat := [1, 0, 0, 0, 1, 1]
def exConvBlock : ConvBlock := ⟨3, 2, 2, exConvCfg, [exConvA, exConvB], fun _ => 0, [0, 0], exRng, exRng⟩

example : Binary exConvX ∧ exConvX.length = 2 * 3 ∧ Shaped 3 exConvA.base ∧ Shaped 3 exConvB.base ∧
    patchLits 3 exConvX 0 = [1, 0, 0] ∧ patchLits 3 exConvX 1 = [0, 1, 1] := by
  refine ⟨by decide, rfl, ⟨rfl, rfl⟩, ⟨rfl, rfl⟩, rfl, rfl⟩
example : (exConvBlock.apply (.trainExample exConvX)).clauses.map (fun c => (c.base.out, c.patch)) = [(1, 0), (1, 1)] := by
  decide +kernel
example : (exConvBlock.apply (.evalExample [0, 1, 1, 0, 0, 1])).clauses.map (fun c => c.base.out) = [0, 1] := by
  decide +kernel

example : ∀ k, k < 2 → HoldsIn exConvA.base 3 [1, 0, 0, 1, 1, 0] k := by
  intro k hk
  refine (convSetLoop_spec true exConvA.base _ (patchLits_binary (by decide) k) ⟨rfl, rfl⟩).1.mp ?_
  match k, hk with
  | 0, _ => decide
  | 1, _ => decide

/-- C41, the literal count, is false in general: the code looks the count up at the position of the patch in the list
of satisfying patches instead of at the patch. Clause B holds in patch 1 only, fires, and records whatever was stored
for patch 0 before. -/
theorem C41_count_is_stale (v : Nat) :
    let c' := (convSetClause exConvCfg 3 2 exConvX exConvB (fun _ => v) exRng).1
    c'.base.out = 1 ∧ c'.patch = 1 ∧ c'.base.cnt = v := by
  have e1 : convSetLoop true [-1, 5, 5] [-1, -1, -1] (patchAt 3 exConvX 0) 0 = (false, 0) := by decide
  have e2 : convSetLoop true [-1, 5, 5] [-1, -1, -1] (patchAt 3 exConvX 1) 0 = (true, 2) := by decide
  simp [convSetClause, convSelect, convScan, List.range_succ, Scan.step, exConvB, exConvCfg, e1, e2, Rng.pick]

/-- As a consequence the literal budget is not kept: clause B includes two literals, the budget is one, and still, in
a training step from a block without garbage in it, its weight is increased and a literal state is raised (compare
C11). -/
theorem C41_budget_not_enforced :
    ∃ fb : Feedback, OverBudget exConvBlock.cfg.budget exConvB.base ∧
      ∃ c', (exConvBlock.trainStep exConvX fb).clauses[1]? = some c' ∧ c'.base.w = [2, 1] ∧ c'.base.pos[1]? = some 6 := by
  refine ⟨⟨0, 1, 1, 0⟩, ⟨1, rfl, by decide⟩, ⟨⟨⟨[-2, 6, 6], [-1, -1, -1], [2, 1], 1, 1⟩, 1⟩, ?_⟩⟩
  decide +kernel

/-! ### Feedback -/

/-- C41: the feedback of a firing clause is the dense feedback on its active patch alone, so that C08 - C12 apply to
that patch; the feedback of a silent clause is the dense feedback on any example `y` whatever (its stale or
uninitialised active patch is not read). -/
theorem C41_feedback_is_dense (b : ConvBlock) (x : List Nat) (hl : x.length = b.nPatches * b.nLits) (fb : Feedback)
    (i : Nat) (c : ConvClause) (hi : b.clauses[i]? = some c) (y : List Nat)
    (hy : c.base.out = 1 → c.patch < b.nPatches ∧ y = patchLits b.nLits x c.patch) :
    ∃ fast rng c', (b.apply (.trainUpdate x fb)).clauses[i]? = some c' ∧ c'.patch = c.patch ∧
      ((soloBlock b.nLits b.nClasses b.cfg c.base fast rng).apply (.trainUpdate y fb)).clauses = [c'.base] := by
  obtain ⟨f', g', e⟩ := convTrainClauses_get b.cfg b.nLits x fb b.clauses b.fast b.rng i c hi
  refine ⟨f', g', _, e, rfl, ?_⟩
  show [(trainClause b.cfg y fb c.base f' g').1] = [(trainClause b.cfg (patchAt b.nLits x c.patch) fb c.base f' g').1]
  by_cases ho : c.base.out = 1
  · obtain ⟨h1, rfl⟩ := hy ho
    rw [patchAt_eq hl h1]
  · rw [trainClause_silent_example b.cfg y (patchAt b.nLits x c.patch) fb c.base f' g' ho]

/-- C41: literal states stay within [-127, 127] in every history of calls. -/
theorem C41_states_in_range (b : ConvBlock) (ops : List BlockOp)
    (hb : ∀ c ∈ b.clauses, InRange c.base.pos ∧ InRange c.base.neg) :
    ∀ c ∈ (b.run ops).clauses, InRange c.base.pos ∧ InRange c.base.neg := by
  induction ops generalizing b with
  | nil => exact hb
  | cons op ops ih =>
    refine ih (b.apply op) ?_
    intro c' hc'
    obtain ⟨i, hi, rfl⟩ := List.mem_iff_getElem.mp hc'
    cases op with
    | trainExample x =>
      have hi' : i < b.clauses.length := by
        simpa [ConvBlock.apply, convSetClauses_length] using hi
      obtain ⟨k, g, e⟩ := convSetClauses_get b.cfg b.nLits b.nPatches x b.clauses b.counts b.rng i _
        (List.getElem?_eq_getElem hi')
      have e' : (b.apply (.trainExample x)).clauses[i]? = _ := e
      rw [List.getElem?_eq_getElem hi, Option.some.injEq] at e'
      rw [e']
      exact hb b.clauses[i] (List.getElem_mem hi')
    | evalExample x =>
      have hi' : i < b.clauses.length := by simpa [ConvBlock.apply] using hi
      have e' : (b.apply (.evalExample x)).clauses[i] = convEvalClause b.nLits b.nPatches x b.clauses[i] := by
        simp [ConvBlock.apply]
      rw [e']
      exact hb b.clauses[i] (List.getElem_mem hi')
    | trainUpdate x fb =>
      have hi' : i < b.clauses.length := by
        simpa [ConvBlock.apply, convTrainClauses_length] using hi
      obtain ⟨f, g, e⟩ := convTrainClauses_get b.cfg b.nLits x fb b.clauses b.fast b.rng i _
        (List.getElem?_eq_getElem hi')
      have e' : (b.apply (.trainUpdate x fb)).clauses[i]? = _ := e
      rw [List.getElem?_eq_getElem hi, Option.some.injEq] at e'
      rw [e']
      have := hb _ (List.getElem_mem hi')
      exact trainClause_inRange _ _ _ _ _ _ this.1 this.2

/-- C41: a block is only usable once a positive number of patches (and a non-zero seed) is given. -/
theorem C41_needs_patches (nLits nClauses nClasses : Nat) (np : Int) (cfg : Cfg) (fastOf rngOf : Nat → Rng)
    (junk junkPatch junkCounts : Nat → Nat) (seed : Nat) :
    (∃ b, initConv nLits nClauses nClasses np cfg fastOf rngOf junk junkPatch junkCounts seed = some b ∧
      (b.nPatches : Int) = np) ↔ seed ≠ 0 ∧ 0 < np := by
  unfold initConv initTM
  by_cases h0 : seed = 0
  · simp [h0]
  · by_cases hp : 0 < np
    · simp [h0, hp, Int.toNat_of_nonneg hp.le]
    · simp [h0, hp]

/-! ### AVX2 -/

/-- C41 (and C07): in training, with a budget, the AVX2 block makes every clause output, every active patch, every
literal count and every draw the same as the portable block that holds the same states, whatever the padding. -/
theorem C41_avx2_train (cfg : VCfg) (scalar : Cfg) (hcfg : scalar.budget = cfg.budget) (hb : cfg.budget ≠ none)
    (np : Nat) (lits : Mem) (hn : 0 < cfg.nLits) (hx : Binary (unpadExample (np * cfg.nLits) lits))
    (cs : List VConvClause) (counts : Nat → Nat) (g : Rng) :
    let v := avxConvSetClauses cfg np lits cs counts g
    (v.1.map (unpadConv cfg.nLits), v.2) =
      convSetClauses scalar cfg.nLits np (unpadExample (np * cfg.nLits) lits) (cs.map (unpadConv cfg.nLits)) counts g := by
  induction cs generalizing counts g with
  | nil => rfl
  | cons c cs ih =>
    have h := avxConvSetClause_unpad cfg scalar hcfg hb np lits hn hx c counts g
    dsimp only at h ih ⊢
    simp only [avxConvSetClauses, convSetClauses, List.map_cons]
    rw [← h, ← ih]

/-- C41 (and C07): the same for evaluation. -/
theorem C41_avx2_eval (cfg : VCfg) (np : Nat) (lits : Mem) (hn : 0 < cfg.nLits)
    (hx : Binary (unpadExample (np * cfg.nLits) lits)) (c : VConvClause) :
    unpadConv cfg.nLits (avxConvEvalClause cfg np lits c) =
      convEvalClause cfg.nLits np (unpadExample (np * cfg.nLits) lits) (unpadConv cfg.nLits c) := by
  have hout : anyPatch (fun k => avxConvEvalPatch cfg c.base.row (shiftMem lits (k * cfg.nLits))) 0 np =
      anyPatch (fun k => convEvalPatch (unpad cfg.nLits c.base).pos (unpad cfg.nLits c.base).neg
        (patchAt cfg.nLits (unpadExample (np * cfg.nLits) lits) k)) 0 np := by
    have hc : ∀ (r k : Nat) (t t' : Nat → Bool), (∀ j, k ≤ j → j < k + r → t j = t' j) →
        anyPatch t k r = anyPatch t' k r := by
      intro r
      induction r with
      | zero => intros; rfl
      | succ r ih =>
        intro k t t' h
        simp only [anyPatch]
        rw [h k (by omega) (by omega), ih (k + 1) t t' (fun j h1 h2 => h j (by omega) (by omega))]
    refine hc np 0 _ _ (fun k _ hk => ?_)
    rw [Nat.zero_add] at hk
    have hbin := binary_patch cfg.nLits np lits k hk hx
    rw [avxConvEvalPatch_eq, C07_eval_output cfg _ c.base hn hbin, patchAt_unpad _ _ _ _ hk]
    simp only [convEvalPatch, convEvalLoop_eq, evalOutClause]
    split <;> simp
  simp only [avxConvEvalClause, convEvalClause, unpadConv]
  rw [hout]
  rfl

example : 0 < exVCfg.nLits ∧ exVCfg.budget ≠ none ∧ Binary (unpadExample (2 * exVCfg.nLits) fun a => if a < 3 then 1#8 else 0#8) := by
  refine ⟨by decide, by decide, by decide +kernel⟩

end GT

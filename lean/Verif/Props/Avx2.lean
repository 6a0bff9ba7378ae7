import Verif.Lemmas.Avx2
import Verif.Props.Dense

/-!
# Properties of the AVX2 dense backend (C07, and the AVX2 side of C08 - C13)
-/

namespace GT
open Spec

/-! A concrete padded clause of three literals: the padding lanes hold included-looking garbage. -/

def exVRow : Mem := fun a => if a = 0 then 5#8 else if a = 33 then 0#8 else
  if a < 3 ∨ (32 ≤ a ∧ a < 35) then 0xFD#8 else 77#8
def exVClause : VClause := ⟨exVRow, [4, -1], 1, 99⟩
def exVCfg : VCfg := ⟨3, some 1, true, 0x80#8⟩
def exLits : Mem := fun a => if a = 0 then 1#8 else if a < 3 then 0#8 else 201#8

/-! ## C07 -/

/-- C07: training output. For every number of literals, whatever the padding lanes of the row and of the
example buffer contain, the AVX2 clause outputs what the portable clause outputs, and when it fires and a
budget is in use, records the same literal count. -/
theorem C07_train_output (cfg : VCfg) (scalar : Cfg) (hcfg : scalar.budget = cfg.budget) (lits : Mem)
    (c : VClause) (hn : 0 < cfg.nLits) (hx : Binary (unpadExample cfg.nLits lits)) :
    (avxSetClause cfg lits c).out =
      (setOutClause scalar (unpadExample cfg.nLits lits) (unpad cfg.nLits c)).out ∧
    (cfg.budget ≠ none → (avxSetClause cfg lits c).out = 1 →
      (avxSetClause cfg lits c).cnt =
        (setOutClause scalar (unpadExample cfg.nLits lits) (unpad cfg.nLits c)).cnt) := by
  have h1 := avxSetClause_spec cfg lits c hn
  have h2 := C06_train_output scalar _ _ hx (unpad_shaped cfg.nLits c lits)
  have h3 := okRange_iff_satisfied c hx
  have hout : (avxSetClause cfg lits c).out =
      (setOutClause scalar (unpadExample cfg.nLits lits) (unpad cfg.nLits c)).out := by
    have e : (avxSetClause cfg lits c).out = 1 ↔
        (setOutClause scalar (unpadExample cfg.nLits lits) (unpad cfg.nLits c)).out = 1 := by
      rw [h1.2.1, h3, h2.1]
    rcases h1.1 with a | a <;> rcases h2.2.1 with b | b <;> omega
  refine ⟨hout, fun hb ho => ?_⟩
  have hs : cfg.budget.isSome = true := by
    cases h : cfg.budget with
    | none => exact absurd h hb
    | some _ => rfl
  rw [h1.2.2.1 hs ho, h2.2.2 (by rw [hcfg]; exact hb) (by rw [← hout]; exact ho),
    incCount_eq_numIncluded, incCount_eq_numIncluded]
  simp only [Nat.zero_add]
  rfl

/-- C07: evaluation output. -/
theorem C07_eval_output (cfg : VCfg) (lits : Mem) (c : VClause) (hn : 0 < cfg.nLits)
    (hx : Binary (unpadExample cfg.nLits lits)) :
    (avxEvalClause cfg lits c).out =
      (evalOutClause (unpadExample cfg.nLits lits) (unpad cfg.nLits c)).out := by
  have h1 := avxEvalClause_spec cfg lits c hn
  have h2 := C05_eval_output _ _ hx (unpad_shaped cfg.nLits c lits)
  have e : (avxEvalClause cfg lits c).out = 1 ↔
      (evalOutClause (unpadExample cfg.nLits lits) (unpad cfg.nLits c)).out = 1 := by
    rw [h1.2.1, okRange_iff_satisfied c hx, h2.1, nonempty_unpad]
    exact and_comm
  rcases h1.1 with a | a <;> rcases h2.2 with b | b <;> omega

/-- C07 for whole blocks: the outputs of all clauses and the votes of the AVX2 block and of the portable
block holding the same states and weights coincide, in training and in evaluation. -/
theorem C07_block_outputs_and_votes (b : VBlock) (d : DBlock) (lits : Mem) (hn : 0 < b.cfg.nLits)
    (hx : Binary (unpadExample b.cfg.nLits lits)) (hcls : d.nClasses = b.nClasses)
    (hbud : d.cfg.budget = b.cfg.budget) (hcl : d.clauses = b.clauses.map (unpad b.cfg.nLits)) :
    ((b.apply (.trainExample lits)).votes =
        (d.apply (.trainExample (unpadExample b.cfg.nLits lits))).votes ∧
      (b.apply (.trainExample lits)).clauses.map VClause.out =
        (d.apply (.trainExample (unpadExample b.cfg.nLits lits))).clauses.map Clause.out) ∧
    ((b.apply (.evalExample lits)).votes =
        (d.apply (.evalExample (unpadExample b.cfg.nLits lits))).votes ∧
      (b.apply (.evalExample lits)).clauses.map VClause.out =
        (d.apply (.evalExample (unpadExample b.cfg.nLits lits))).clauses.map Clause.out) := by
  have hv : ∀ (f : VClause → VClause) (g : Clause → Clause) (cs : List VClause),
      (∀ c ∈ cs, (f c).out = (g (unpad b.cfg.nLits c)).out) →
      (∀ c ∈ cs, (f c).w = c.w ∧ (g (unpad b.cfg.nLits c)).w = c.w) →
      avxCountVotes b.nClasses (cs.map f) =
        countVotes b.nClasses ((cs.map (unpad b.cfg.nLits)).map g) ∧
      (cs.map f).map VClause.out = ((cs.map (unpad b.cfg.nLits)).map g).map Clause.out := by
    intro f g cs ho hw
    refine ⟨?_, ?_⟩
    · unfold avxCountVotes countVotes
      generalize List.replicate b.nClasses (0 : Int) = v
      induction cs generalizing v with
      | nil => rfl
      | cons c cs ih =>
        simp only [List.map_cons, List.foldl_cons]
        rw [ho c (by simp), (hw c (by simp)).1, (hw c (by simp)).2]
        exact ih (fun c hc => ho c (by simp [hc])) (fun c hc => hw c (by simp [hc])) _
    · simp only [List.map_map]
      apply List.map_congr_left
      intro c hc
      exact ho c hc
  simp only [VBlock.apply, DBlock.apply, DBlock.countVotes, DBlock.trainSetOutput,
    DBlock.evalSetOutput, hcl, hcls]
  refine ⟨hv _ _ _ (fun c _ => (C07_train_output b.cfg d.cfg hbud lits c hn hx).1) (fun c _ => ?_),
    hv _ _ _ (fun c _ => C07_eval_output b.cfg lits c hn hx) (fun c _ => ?_)⟩
  · exact ⟨(avxSetClause_spec b.cfg lits c hn).2.2.2.2, rfl⟩
  · exact ⟨(avxEvalClause_spec b.cfg lits c hn).2.2.2.1, rfl⟩

/-- C07: over every history of training and evaluation steps, the padding lanes of the clause rows, the
bytes after the literals in the example buffers and the initial contents of the literal counters have no
influence on literal states, weights, outputs and votes: two blocks that differ only there stay equal
everywhere else, and also consume the same random draws. -/
theorem C07_padding_is_invisible (b d : VBlock) (hn : 0 < b.cfg.nLits) (hcfg : d.cfg = b.cfg)
    (hcls : d.nClasses = b.nClasses) (hf : d.fast = b.fast) (hg : d.vrng = b.vrng)
    (hvo : d.votes = b.votes)
    (hv : b.clauses.map (visible b.cfg.nLits) = d.clauses.map (visible b.cfg.nLits))
    (steps steps' : List Step) (hlen : steps.length = steps'.length)
    (hs : ∀ (i : Nat) (s s' : Step), steps[i]? = some s → steps'[i]? = some s' →
      s.Agree b.cfg.nLits s') :
    (steps.foldl vstep b).clauses.map (visible b.cfg.nLits) =
      (steps'.foldl vstep d).clauses.map (visible b.cfg.nLits) ∧
    (steps.foldl vstep b).votes = (steps'.foldl vstep d).votes ∧
    (steps.foldl vstep b).fast = (steps'.foldl vstep d).fast ∧
    (steps.foldl vstep b).vrng = (steps'.foldl vstep d).vrng := by
  induction steps generalizing b d steps' with
  | nil =>
    cases steps' with
    | nil => exact ⟨hv, hvo.symm, hf.symm, hg.symm⟩
    | cons s ss => simp at hlen
  | cons s ss ih =>
    cases steps' with
    | nil => simp at hlen
    | cons s' ss' =>
      have h0 := hs 0 s s' rfl rfl
      simp only [List.foldl_cons]
      have hrest : ∀ (i : Nat) (t t' : Step), ss[i]? = some t → ss'[i]? = some t' →
          t.Agree b.cfg.nLits t' := fun i t t' h1 h2 => hs (i + 1) t t' (by simpa) (by simpa)
      have hlen' : ss.length = ss'.length := by simpa using hlen
      cases s with
      | train l fb =>
        cases s' with
        | eval l' => exact absurd h0 (by simp [Step.Agree])
        | train l' fb' =>
          obtain ⟨hl, rfl⟩ := h0
          have e := avxTrain_visible hn hl fb b.clauses d.clauses b.fast b.vrng hv
          have hset := map_set_visible (lits := l) (lits' := l') avxSetClause
            (fun c d h => (avxSet_visible hn hl h).1) b.clauses d.clauses hv
          exact ih (vstep b (.train l fb)) (vstep d (.train l' fb)) hn hcfg hcls
            (by simp only [vstep, VBlock.apply, hcfg, hf, hg]; rw [e.2])
            (by simp only [vstep, VBlock.apply, hcfg, hf, hg]; rw [e.2])
            (by simp only [vstep, VBlock.apply, hcls, hcfg]; rw [avxCountVotes_congr _ _ _ _ hset])
            (by simp only [vstep, VBlock.apply, hcfg, hf, hg]; exact e.1)
            ss' hlen' hrest
      | eval l =>
        cases s' with
        | train l' fb' => exact absurd h0 (by simp [Step.Agree])
        | eval l' =>
          have hset := map_set_visible (lits := l) (lits' := l') avxEvalClause
            (fun c d h => avxEval_visible hn h0 h) b.clauses d.clauses hv
          exact ih (vstep b (.eval l)) (vstep d (.eval l')) hn hcfg hcls hf hg
            (by simp only [vstep, VBlock.apply, hcls, hcfg]; rw [avxCountVotes_congr _ _ _ _ hset])
            (by simp only [vstep, VBlock.apply, hcfg]; exact hset)
            ss' hlen' hrest

example : 0 < exVCfg.nLits ∧ Binary (unpadExample exVCfg.nLits exLits) ∧
    (unpad 3 exVClause).pos = [5, -3, -3] ∧ (unpad 3 exVClause).neg = [-3, 0, -3] ∧
    (avxSetClause exVCfg exLits exVClause).out = 1 ∧ (avxSetClause exVCfg exLits exVClause).cnt = 2 ∧
    (avxEvalClause exVCfg exLits exVClause).out = 1 := by
  refine ⟨by decide, by decide +kernel, by decide, by decide, by decide +kernel, by decide +kernel,
    by decide +kernel⟩
example : visible 3 exVClause =
      visible 3 { exVClause with row := fun a => if a < 3 ∨ a ≥ 32 ∧ a < 35 then exVRow a else 0#8 } ∧
    (Step.eval exLits).Agree 3 (.eval (fun a => if a = 0 then 1#8 else 0#8)) := by
  refine ⟨by decide, ?_⟩
  intro i hi
  match i, hi with
  | 0, _ | 1, _ | 2, _ => rfl

/-! ## C08 on AVX2 -/

/-- C08: the rejecting feedback of the AVX2 backend is, literal for literal and weight for weight, the one
of the portable backend, whatever the padding contains. -/
theorem C08_avx2_same_as_portable (cfg : VCfg) (scalar : Cfg) (lits : Mem) (j : Nat) (target : Int)
    (c : VClause) (g : VRng) (g' : Rng) (hw : WronglyFiring (unpad cfg.nLits c) j target) :
    unpad cfg.nLits (avxClauseUpdate cfg lits j target c g).1 =
      (clauseUpdate scalar (unpadExample cfg.nLits lits) j target (unpad cfg.nLits c) g').1 ∧
    (avxClauseUpdate cfg lits j target c g).2 = g := by
  have hout : c.out = 1 := hw.1
  have hs : ∃ sign : Int, (if c.w.getD j 0 ≥ 0 then (1 : Int) else -1) = sign ∧
      ¬ target * sign > 0 ∧ target * sign < 0 := by
    rcases hw.2 with ⟨rfl, h⟩ | ⟨rfl, h⟩
    · exact ⟨-1, by rw [if_neg]; exact Int.not_le.mpr h, by decide, by decide⟩
    · exact ⟨1, by rw [if_pos]; exact h, by decide, by decide⟩
  obtain ⟨sign, hsign, h1, h2⟩ := hs
  have hmem := (avxMem_div cfg.nLits).2
  have hsc : clauseUpdate scalar (unpadExample cfg.nLits lits) j target (unpad cfg.nLits c) g' =
      ({ unpad cfg.nLits c with
          w := c.w.set j (wrap16 (c.w.getD j 0 - sign)),
          pos := (t2 (unpad cfg.nLits c).pos (unpad cfg.nLits c).neg (unpadExample cfg.nLits lits)).1,
          neg := (t2 (unpad cfg.nLits c).pos (unpad cfg.nLits c).neg (unpadExample cfg.nLits lits)).2 },
        g') := by
    unfold clauseUpdate
    simp only [show (unpad cfg.nLits c).w = c.w from rfl, show (unpad cfg.nLits c).out = c.out from rfl,
      hsign, h1, if_false, h2, hout, and_self, if_true]
  rw [hsc]
  unfold avxClauseUpdate
  simp only [hsign, h1, if_false, h2, hout, and_self, if_true, avxT2_eq, and_true]
  unfold unpad
  simp only [Clause.mk.injEq, and_true, hout]
  have hget := fun i (hi : i < cfg.nLits) => t2_get (unpad cfg.nLits c).pos (unpad cfg.nLits c).neg
    (unpadExample cfg.nLits lits) (by simp [unpad, unpadExample]) (by simp [unpad, unpadExample]) i
    (p := (c.row i).toInt) (q := (c.row (avxMem cfg.nLits + i)).toInt) (x := (lits i).toNat)
    (by simp [unpad, hi]) (by simp [unpad, hi]) (unpadExample_get _ _ _ hi)
  have hlen := t2_length (unpad cfg.nLits c).pos (unpad cfg.nLits c).neg (unpadExample cfg.nLits lits)
  have hz : ∀ i, ((lits i == 0#8) = true ↔ (lits i).toNat = 0) := by
    intro i
    simp only [beq_iff_eq]
    exact ⟨fun h => by rw [h]; rfl, fun h => BitVec.eq_of_toNat_eq (by simpa using h)⟩
  constructor
  · apply List.ext_getElem?
    intro i
    by_cases hi : i < cfg.nLits
    · have := (hget i hi).1
      simp only [unpad] at this
      rw [this]
      simp only [List.getElem?_map, List.getElem?_range hi, Option.map_some]
      rw [if_pos (by omega), t2Lane_toInt]
      simp only [hz]
    · have h1 : ((List.range cfg.nLits).map fun i => (c.row i).toInt).length = cfg.nLits := by simp
      rw [List.getElem?_eq_none (by simp; omega), List.getElem?_eq_none]
      have := hlen.1
      simp only [unpad] at this
      rw [this]; simp; omega
  · apply List.ext_getElem?
    intro i
    by_cases hi : i < cfg.nLits
    · have := (hget i hi).2
      simp only [unpad] at this
      rw [this]
      simp only [List.getElem?_map, List.getElem?_range hi, Option.map_some]
      rw [if_neg (by omega), if_pos (by omega), t2Lane_toInt, Nat.add_sub_cancel_left]
      have : (!(lits i == 0#8)) = true ↔ (lits i).toNat ≠ 0 := by
        rw [Bool.not_eq_true', ← Bool.not_eq_true, hz]
      simp only [this]
    · rw [List.getElem?_eq_none (by simp; omega), List.getElem?_eq_none]
      have := hlen.2
      simp only [unpad] at this
      rw [this]; simp; omega

example : WronglyFiring (unpad 3 exVClause) 0 (-1) := ⟨rfl, Or.inr ⟨rfl, by decide⟩⟩

/-! ## C09, C10 on AVX2 -/

/-- C09 on AVX2, exactly: literal `i` of a rightly firing clause, with `r1`, `r2` the random bytes of its
lane in the two vectors drawn for its chunk. A literal that is true in the example rises by one (saturating)
unless its byte is below the threshold (always, when boosting); a false literal falls by one (saturating)
if its byte is below the threshold. -/
theorem C09_avx2_exact (cfg : VCfg) (lits : Mem) (j : Nat) (target : Int) (c : VClause) (g : VRng)
    (hw : RightlyFiring (unpad cfg.nLits c) j target) (i : Nat) (hi : i < cfg.nLits)
    (p q r1 r2 : Int) (hp : p = (c.row i).toInt) (hq : q = (c.row (avxMem cfg.nLits + i)).toInt)
    (hr1 : r1 = (g.draw (g.pos + 2 * (i / 32)) (i % 32)).toInt)
    (hr2 : r2 = (g.draw (g.pos + 2 * (i / 32) + 1) (i % 32)).toInt) :
    ((avxClauseUpdate cfg lits j target c g).1.row i).toInt =
      (if lits i = 1#8 then (if cfg.boost = true ∨ ¬ r1 < cfg.cmpS.toInt then min 127 (p + 1) else p)
       else (if r1 < cfg.cmpS.toInt then max (-128) (p - 1) else p)) ∧
    ((avxClauseUpdate cfg lits j target c g).1.row (avxMem cfg.nLits + i)).toInt =
      (if lits i = 1#8 then (if r2 < cfg.cmpS.toInt then max (-128) (q - 1) else q)
       else (if cfg.boost = true ∨ ¬ r2 < cfg.cmpS.toInt then min 127 (q + 1) else q)) := by
  have hout : c.out = 1 := hw.1
  have hs : ∃ sign : Int, (if c.w.getD j 0 ≥ 0 then (1 : Int) else -1) = sign ∧ target * sign > 0 := by
    rcases hw.2 with ⟨rfl, h⟩ | ⟨rfl, h⟩
    · exact ⟨1, by rw [if_pos]; exact h, by decide⟩
    · exact ⟨-1, by rw [if_neg]; exact Int.not_le.mpr h, by decide⟩
  obtain ⟨sign, hsign, h1⟩ := hs
  have hmem := (avxMem_div cfg.nLits).2
  unfold avxClauseUpdate
  simp only [hsign, h1, if_true, hout, avxT1a_eq]
  constructor
  · rw [if_pos (by omega), t1aLane_toInt, ← hp, ← hr1]
    simp only [beq_iff_eq]
  · rw [if_neg (by omega), if_pos (by omega), t1aLane_toInt, ← hq, Nat.add_sub_cancel_left, ← hr2]
    by_cases h : lits i = 1#8 <;> simp [h]

/-- C09 on AVX2: the bounds of the property. A literal true in the example rises by 0 or 1, a false one
falls by 0 or 1, and with boosting the positive literal of a 1 rises by exactly one below the cap. -/
theorem C09_avx2_bounds (cfg : VCfg) (lits : Mem) (j : Nat) (target : Int) (c : VClause) (g : VRng)
    (hw : RightlyFiring (unpad cfg.nLits c) j target) (i : Nat) (hi : i < cfg.nLits)
    (p q p' q' : Int) (hp : p = (c.row i).toInt) (hq : q = (c.row (avxMem cfg.nLits + i)).toInt)
    (hp' : p' = ((avxClauseUpdate cfg lits j target c g).1.row i).toInt)
    (hq' : q' = ((avxClauseUpdate cfg lits j target c g).1.row (avxMem cfg.nLits + i)).toInt) :
    (lits i = 1#8 → (p ≤ p' ∧ p' ≤ p + 1) ∧ (q - 1 ≤ q' ∧ q' ≤ q) ∧
      (cfg.boost = true → p < 127 → p' = p + 1)) ∧
    (lits i = 0#8 → (p - 1 ≤ p' ∧ p' ≤ p) ∧ (q ≤ q' ∧ q' ≤ q + 1)) := by
  obtain ⟨e1, e2⟩ := C09_avx2_exact cfg lits j target c g hw i hi p q _ _ hp hq rfl rfl
  rw [← hp'] at e1
  rw [← hq'] at e2
  have h1 := byte_range (c.row i)
  have h2 := byte_range (c.row (avxMem cfg.nLits + i))
  rw [← hp] at h1
  rw [← hq] at h2
  constructor
  · intro hl
    simp only [hl, if_true] at e1 e2
    refine ⟨?_, ?_, ?_⟩
    · split at e1 <;> omega
    · split at e2 <;> omega
    · intro hb hlt
      rw [if_pos (Or.inl hb)] at e1
      omega
  · intro hl
    have : ¬ lits i = 1#8 := by rw [hl]; decide
    simp only [this, if_false] at e1 e2
    constructor
    · split at e1 <;> omega
    · split at e2 <;> omega

/-- Difference between the backends: with boosting the AVX2 backend also raises the negated literals of
zeros with certainty; the portable backend still draws for them. -/
theorem C09_avx2_boosts_negated_literals :
    (∀ (cfg : VCfg) (lits : Mem) (j : Nat) (target : Int) (c : VClause) (g : VRng), cfg.boost = true →
      RightlyFiring (unpad cfg.nLits c) j target → ∀ i, i < cfg.nLits → lits i = 0#8 →
      ((avxClauseUpdate cfg lits j target c g).1.row (avxMem cfg.nLits + i)).toInt =
        min 127 ((c.row (avxMem cfg.nLits + i)).toInt + 1)) ∧
    (∃ (cfg : Cfg) (x : List Nat) (c : Clause) (g : Rng), cfg.boost = true ∧ RightlyFiring c 0 1 ∧
      x = [0] ∧ c.neg = [-3] ∧ (clauseUpdate cfg x 0 1 c g).1.neg = [-3]) := by
  refine ⟨?_, ?_⟩
  · intro cfg lits j target c g hb hw i hi hl
    have := (C09_avx2_exact cfg lits j target c g hw i hi _ _ _ _ rfl rfl rfl rfl).2
    rw [this, if_neg (by rw [hl]; decide), if_pos (Or.inl hb)]
  · exact ⟨exCfg, [0], ⟨[-3], [-3], [1], 1, 0⟩, ⟨fun _ => 1, 0⟩, rfl,
      ⟨rfl, Or.inl ⟨rfl, by decide⟩⟩, rfl, rfl, by decide +kernel⟩

example : RightlyFiring (unpad 3 exVClause) 0 1 := ⟨rfl, Or.inl ⟨rfl, by decide⟩⟩

/-- C10 on AVX2, exactly: an update of a clause that does not fire either changes nothing or lowers by one
(saturating) exactly the literals whose random byte is below the threshold. -/
theorem C10_avx2_exact (cfg : VCfg) (lits : Mem) (j : Nat) (target : Int) (c : VClause) (g : VRng)
    (ho : c.out ≠ 1) (i : Nat) (hi : i < cfg.nLits) (p q p' q' : Int)
    (hp : p = (c.row i).toInt) (hq : q = (c.row (avxMem cfg.nLits + i)).toInt)
    (hp' : p' = ((avxClauseUpdate cfg lits j target c g).1.row i).toInt)
    (hq' : q' = ((avxClauseUpdate cfg lits j target c g).1.row (avxMem cfg.nLits + i)).toInt) :
    (p - 1 ≤ p' ∧ p' ≤ p ∧ -128 ≤ p' ∧ q - 1 ≤ q' ∧ q' ≤ q ∧ -128 ≤ q') ∧
    ((p' = p ∧ q' = q) ∨
      (p' = (if (g.draw (g.pos + 2 * (i / 32)) (i % 32)).toInt < cfg.cmpS.toInt
        then max (-128) (p - 1) else p) ∧
       q' = (if (g.draw (g.pos + 2 * (i / 32) + 1) (i % 32)).toInt < cfg.cmpS.toInt
        then max (-128) (q - 1) else q))) := by
  have h1 := byte_range (c.row i)
  have h2 := byte_range (c.row (avxMem cfg.nLits + i))
  rw [← hp] at h1
  rw [← hq] at h2
  have hmem := (avxMem_div cfg.nLits).2
  rcases avxClauseUpdate_silent cfg lits j target c g ho with e | e
  · rw [e, ← hp] at hp'
    rw [e, ← hq] at hq'
    subst hp' hq'
    exact ⟨by omega, Or.inl ⟨rfl, rfl⟩⟩
  · rw [e, avxT1b_eq] at hp' hq'
    simp only at hp' hq'
    rw [if_pos (by omega), t1bLane_toInt, ← hp] at hp'
    rw [if_neg (by omega), if_pos (by omega), t1bLane_toInt, ← hq, Nat.add_sub_cancel_left] at hq'
    refine ⟨?_, Or.inr ⟨hp', hq'⟩⟩
    split at hp' <;> split at hq' <;> omega

/-- Difference between the backends: the AVX2 counter saturates at -128, the portable one stops at -127. -/
theorem C10_avx2_floor_is_lower :
    ((avxClauseUpdate ⟨1, none, false, 0x7E#8⟩ (fun _ => 0#8) 0 1 ⟨fun _ => 0x81#8, [1], 0, 0⟩
      ⟨fun _ _ => 0#8, 0⟩).1.row 0).toInt = -128 ∧ decState (-127) = -127 := by
  constructor <;> decide +kernel

example : (⟨fun _ => 0x81#8, [1], 0, 0⟩ : VClause).out ≠ 1 := by decide

/-! ## C11, C12, C13 on AVX2 -/

/-- C11 on AVX2: a clause above its budget keeps its weights and no byte of its row rises in a training
step. -/
theorem C11_avx2_over_budget_only_forgets (b : VBlock) (lits : Mem) (fb : Feedback)
    (hn : 0 < b.cfg.nLits) (i : Nat)
    (c : VClause) (hc : b.clauses[i]? = some c)
    (ho : OverBudget b.cfg.budget (unpad b.cfg.nLits c)) :
    ∃ c', (vstep b (.train lits fb)).clauses[i]? = some c' ∧ c'.w = c.w ∧
      ∀ a, (c'.row a).toInt ≤ (c.row a).toInt := by
  have hs := avxSetClause_spec b.cfg lits c hn
  have hc1 : (b.apply (.trainExample lits)).clauses[i]? = some (avxSetClause b.cfg lits c) := by
    simp [VBlock.apply, hc]
  obtain ⟨g', e⟩ := avxTrainClauses_get b.cfg lits fb _ b.fast b.vrng i _ hc1
  refine ⟨_, e, ?_⟩
  have hsil : (avxBudgetGate b.cfg (avxSetClause b.cfg lits c)).out ≠ 1 := by
    rw [Ne, (avxBudgetGate_facts _ _).1]
    rintro ⟨h1, h2⟩
    obtain ⟨m, hm, hlt⟩ := ho
    have := h2 m hm
    rw [hs.2.2.1 (by simp [hm]) h1, incCount_eq_numIncluded, incCount_eq_numIncluded] at this
    simp only [Nat.zero_add] at this
    simp only [unpad] at hlt
    omega
  have := avxTrainClause_silent b.cfg lits fb _ { b.fast with pos := b.fast.pos + 2 * i } g' hsil
  rw [hs.2.2.2.2, hs.2.2.2.1] at this
  exact this

/-- C12 on AVX2: one training step changes the weights of every clause exactly as it does in the portable
backend holding the same states, weights and update draws. -/
theorem C12_avx2_same_weights (b : VBlock) (d : DBlock) (lits : Mem) (fb : Feedback)
    (hn : 0 < b.cfg.nLits) (hx : Binary (unpadExample b.cfg.nLits lits))
    (hbud : d.cfg.budget = b.cfg.budget) (hcl : d.clauses = b.clauses.map (unpad b.cfg.nLits))
    (hf : d.fast = b.fast) :
    (vstep b (.train lits fb)).clauses.map VClause.w =
      (d.trainStep (unpadExample b.cfg.nLits lits) fb).clauses.map Clause.w := by
  apply List.ext_getElem?
  intro i
  simp only [List.getElem?_map]
  cases hc : b.clauses[i]? with
  | none =>
    have hlen : b.clauses.length ≤ i := by simpa using hc
    rw [List.getElem?_eq_none, List.getElem?_eq_none]
    · rfl
    · simp only [DBlock.trainStep, DBlock.apply, DBlock.trainUpdate, trainClauses_length,
        DBlock.countVotes, DBlock.trainSetOutput, List.length_map, hcl]
      exact hlen
    · simp only [vstep, VBlock.apply, avxTrainClauses_length, List.length_map]
      exact hlen
  | some c =>
    have hc1 : (b.apply (.trainExample lits)).clauses[i]? = some (avxSetClause b.cfg lits c) := by
      simp [VBlock.apply, hc]
    have hd1 : (d.apply (.trainExample (unpadExample b.cfg.nLits lits))).clauses[i]? =
        some (setOutClause d.cfg (unpadExample b.cfg.nLits lits) (unpad b.cfg.nLits c)) := by
      simp [DBlock.apply, DBlock.countVotes, DBlock.trainSetOutput, hcl, hc]
    obtain ⟨g1, e1⟩ := avxTrainClauses_get b.cfg lits fb _ b.fast b.vrng i _ hc1
    obtain ⟨g2, e2⟩ := trainClauses_get d.cfg (unpadExample b.cfg.nLits lits) fb _ d.fast d.rng i _ hd1
    have e1' : (vstep b (.train lits fb)).clauses[i]? = _ := e1
    have e2' : (d.trainStep (unpadExample b.cfg.nLits lits) fb).clauses[i]? = _ := e2
    rw [e1', e2', Option.map_some, Option.map_some, avxTrainClause_w, trainClause_w, hf]
    obtain ⟨ho, hcnt⟩ := C07_train_output b.cfg d.cfg hbud lits c hn hx
    have hgate : (avxBudgetGate b.cfg (avxSetClause b.cfg lits c)).out = 1 ↔
        (budgetGate d.cfg (setOutClause d.cfg (unpadExample b.cfg.nLits lits)
          (unpad b.cfg.nLits c))).out = 1 := by
      rw [(avxBudgetGate_facts _ _).1, budgetGate_out, hbud, ← ho]
      apply and_congr_right
      intro h1
      apply forall_congr'
      intro m
      apply imp_congr_right
      intro hm
      rw [hcnt (by rw [hm]; simp) h1]
    have hw : (avxSetClause b.cfg lits c).w = c.w := (avxSetClause_spec b.cfg lits c hn).2.2.2.2
    have hw2 : (setOutClause d.cfg (unpadExample b.cfg.nLits lits) (unpad b.cfg.nLits c)).w = c.w := rfl
    simp only [hgate, hw, hw2]

example : OverBudget exVCfg.budget (unpad exVCfg.nLits exVClause) := ⟨1, rfl, by decide⟩

end GT

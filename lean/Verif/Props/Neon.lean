import Verif.Lemmas.NeonEval
import Verif.Props.Avx2

/-!
# Properties of the NEON dense backend (C42, and the NEON side of C08 - C12)
-/

namespace GT
open Spec Neon

/-! A concrete padded clause of three literals: the padding lanes hold included-looking garbage. -/

def exNRow : Mem := fun a => if a = 0 then 5#8 else if a = 17 then 0#8 else
  if a < 3 ∨ (16 ≤ a ∧ a < 19) then 0xFD#8 else 77#8
def exNClause : VClause := ⟨exNRow, [4, -1], 1, 99⟩
/-- A clause that includes no literal at all. -/
def exNEmpty : VClause := ⟨fun a => if a < 3 ∨ (16 ≤ a ∧ a < 19) then 0xFD#8 else 77#8, [1, 3], 1, 0⟩
def exNBlock (cs : List VClause) (budget : Option Nat) : NBlock :=
  ⟨2, ⟨3, budget, true, 0x80#8⟩, cs, [], ⟨fun _ => 0, 0⟩, ⟨fun _ _ => 0#8, 0⟩⟩

/-! ## C42 -/

/-- C42, training: one NEON clause outputs what the portable clause outputs for every number of literals and
every content of the padding lanes, and when it fires and a budget is in use, records the same count. -/
theorem C42_train_clause (cfg : VCfg) (scalar : Cfg) (hcfg : scalar.budget = cfg.budget) (lits : Mem)
    (c : VClause) (hn : 0 < cfg.nLits) (hx : Binary (unpadExample cfg.nLits lits)) :
    (neonSetClause cfg lits c).out =
      (setOutClause scalar (unpadExample cfg.nLits lits) (neonUnpad cfg.nLits c)).out ∧
    (cfg.budget ≠ none → (neonSetClause cfg lits c).out = 1 →
      (neonSetClause cfg lits c).cnt =
        (setOutClause scalar (unpadExample cfg.nLits lits) (neonUnpad cfg.nLits c)).cnt) := by
  have h1 := neonSetClause_spec cfg lits c hn
  have h2 := C06_train_output scalar _ _ hx (Neon.unpad_shaped cfg.nLits c lits)
  have h3 := Neon.okRange_iff_satisfied c hx
  have hout : (neonSetClause cfg lits c).out =
      (setOutClause scalar (unpadExample cfg.nLits lits) (neonUnpad cfg.nLits c)).out := by
    have e : (neonSetClause cfg lits c).out = 1 ↔
        (setOutClause scalar (unpadExample cfg.nLits lits) (neonUnpad cfg.nLits c)).out = 1 := by
      rw [h1.2.1, h3, h2.1]
    rcases h1.1 with a | a <;> rcases h2.2.1 with b | b <;> omega
  refine ⟨hout, fun hb ho => ?_⟩
  have hs : cfg.budget.isSome = true := by
    cases h : cfg.budget with
    | none => exact absurd h hb
    | some _ => rfl
  rw [h1.2.2.1 hs ho, h2.2.2 (by rw [hcfg]; exact hb) (by rw [← hout]; exact ho),
    incCount_eq_numIncluded, incCount_eq_numIncluded]
  simp only [Nat.zero_add]
  rfl

/-- C42, training, for blocks with a literal budget: every clause of the NEON block outputs what the portable
block holding the same states and weights outputs, whatever clauses precede it, and the votes are the same. -/
theorem C42_train_with_budget_partial (b : NBlock) (d : DBlock) (lits : Mem) (hn : 0 < b.cfg.nLits)
    (hx : Binary (unpadExample b.cfg.nLits lits)) (hbudget : b.cfg.budget ≠ none)
    (hcls : d.nClasses = b.nClasses) (hbud : d.cfg.budget = b.cfg.budget)
    (hcl : d.clauses = b.clauses.map (neonUnpad b.cfg.nLits)) :
    ∃ b', b.apply (.trainExample lits) = some b' ∧
      b'.votes = (d.apply (.trainExample (unpadExample b.cfg.nLits lits))).votes ∧
      b'.clauses.map VClause.out =
        (d.apply (.trainExample (unpadExample b.cfg.nLits lits))).clauses.map Clause.out := by
  have hset : neonSetClauses b.cfg lits b.clauses = some (b.clauses.map (neonSetClause b.cfg lits)) := by
    unfold neonSetClauses
    rw [if_neg (fun h => hbudget h.2)]
  refine ⟨{ b with clauses := b.clauses.map (neonSetClause b.cfg lits),
                   votes := neonCountVotes b.nClasses (b.clauses.map (neonSetClause b.cfg lits)) },
    by simp [NBlock.apply, hset], ?_, ?_⟩
  · simp only [DBlock.apply, DBlock.countVotes, DBlock.trainSetOutput, hcl, hcls]
    unfold neonCountVotes countVotes
    generalize List.replicate b.nClasses (0 : Int) = v
    generalize b.clauses = cs
    induction cs generalizing v with
    | nil => rfl
    | cons c cs ih =>
      simp only [List.map_cons, List.foldl_cons]
      rw [(C42_train_clause b.cfg d.cfg hbud lits c hn hx).1,
        (neonSetClause_spec b.cfg lits c hn).2.2.2.2]
      exact ih _
  · simp only [DBlock.apply, DBlock.countVotes, DBlock.trainSetOutput, hcl, List.map_map]
    apply List.map_congr_left
    intro c _
    exact (C42_train_clause b.cfg d.cfg hbud lits c hn hx).1

/-- C42 fails for every block without a literal budget: the first training example crashes the process, so no
output is produced at all. -/
theorem C42_train_without_budget_crashes (b : NBlock) (lits : Mem) (fb : Feedback) (h : b.clauses ≠ [])
    (hb : b.cfg.budget = none) :
    b.apply (.trainExample lits) = none ∧ neonStep b (.train lits fb) = none := by
  have : b.apply (.trainExample lits) = none := by simp [NBlock.apply, neonSetClauses, h, hb]
  exact ⟨this, by simp [neonStep, this]⟩

/-- C42, evaluation: clause `i` of a NEON block outputs what the portable clause outputs if it includes a
literal, or if no clause before it does. (The property wants this whatever clauses precede it.) -/
theorem C42_eval_partial (b : NBlock) (lits : Mem) (hn : 0 < b.cfg.nLits)
    (hx : Binary (unpadExample b.cfg.nLits lits)) (i : Nat) (c : VClause) (hc : b.clauses[i]? = some c)
    (h : ¬ EmptyClause (neonUnpad b.cfg.nLits c).pos (neonUnpad b.cfg.nLits c).neg ∨
      ∀ (j : Nat) (e : VClause), j < i → b.clauses[j]? = some e →
        EmptyClause (neonUnpad b.cfg.nLits e).pos (neonUnpad b.cfg.nLits e).neg) :
    ∃ b' c', b.apply (.evalExample lits) = some b' ∧ b'.clauses[i]? = some c' ∧
      c'.out = (evalOutClause (unpadExample b.cfg.nLits lits) (neonUnpad b.cfg.nLits c)).out := by
  obtain ⟨a, h1, h2, _⟩ := neonEval_get b.cfg lits false b.clauses hn i c hc
  refine ⟨_, _, rfl, h1, (neon_eval_clause b.cfg lits a c hn hx).1 ?_⟩
  rcases h with h | h
  · exact Or.inl h
  · right
    cases a with
    | false => rfl
    | true =>
      rcases h2 rfl with h' | ⟨j, e, hj, he, hne⟩
      · exact absurd h' (by simp)
      · exact absurd (h j e hj he) hne

/-- C42, evaluation, whole blocks: when every clause includes a literal, the outputs and the votes are the
portable ones. -/
theorem C42_eval_block_partial (b : NBlock) (d : DBlock) (lits : Mem) (hn : 0 < b.cfg.nLits)
    (hx : Binary (unpadExample b.cfg.nLits lits)) (hcls : d.nClasses = b.nClasses)
    (hcl : d.clauses = b.clauses.map (neonUnpad b.cfg.nLits))
    (h : ∀ c ∈ b.clauses, ¬ EmptyClause (neonUnpad b.cfg.nLits c).pos (neonUnpad b.cfg.nLits c).neg) :
    ∃ b', b.apply (.evalExample lits) = some b' ∧
      b'.votes = (d.apply (.evalExample (unpadExample b.cfg.nLits lits))).votes ∧
      b'.clauses.map VClause.out =
        (d.apply (.evalExample (unpadExample b.cfg.nLits lits))).clauses.map Clause.out := by
  refine ⟨_, rfl, ?_, ?_⟩
  · simp only [DBlock.apply, DBlock.countVotes, DBlock.evalSetOutput, hcl, hcls]
    unfold neonCountVotes countVotes
    generalize List.replicate b.nClasses (0 : Int) = v
    revert h
    generalize false = act
    generalize b.clauses = cs
    induction cs generalizing v act with
    | nil => intro _; rfl
    | cons c cs ih =>
      intro h
      simp only [List.map_cons, List.foldl_cons, neonEvalClauses]
      rw [(neon_eval_clause b.cfg lits act c hn hx).1 (Or.inl (h c (by simp))),
        (neonEvalClause_spec b.cfg lits act c hn).2.2.2.1]
      exact ih _ _ (fun c hc => h c (by simp [hc]))
  · simp only [DBlock.apply, DBlock.countVotes, DBlock.evalSetOutput, hcl, List.map_map]
    revert h
    generalize false = act
    generalize b.clauses = cs
    induction cs generalizing act with
    | nil => intro _; rfl
    | cons c cs ih =>
      intro h
      simp only [List.map_cons, neonEvalClauses, Function.comp_apply]
      rw [(neon_eval_clause b.cfg lits act c hn hx).1 (Or.inl (h c (by simp))),
        ih _ (fun c hc => h c (by simp [hc]))]

/-- C42 fails: an empty clause after a clause that fires is counted as firing too, on every example. The
portable backend never lets an empty clause vote in evaluation. -/
theorem C42_empty_clause_fires (b : NBlock) (lits : Mem) (hn : 0 < b.cfg.nLits)
    (hx : Binary (unpadExample b.cfg.nLits lits)) (i j : Nat) (c e : VClause) (hji : j < i)
    (hc : b.clauses[i]? = some c) (he : b.clauses[j]? = some e)
    (hempty : EmptyClause (neonUnpad b.cfg.nLits c).pos (neonUnpad b.cfg.nLits c).neg)
    (hfire : (evalOutClause (unpadExample b.cfg.nLits lits) (neonUnpad b.cfg.nLits e)).out = 1) :
    (∃ b' c', b.apply (.evalExample lits) = some b' ∧ b'.clauses[i]? = some c' ∧ c'.out = 1) ∧
    (evalOutClause (unpadExample b.cfg.nLits lits) (neonUnpad b.cfg.nLits c)).out = 0 := by
  obtain ⟨a, h1, _, h3⟩ := neonEval_get b.cfg lits false b.clauses hn i c hc
  obtain ⟨a', h1', _, _⟩ := neonEval_get b.cfg lits false b.clauses hn j e he
  have hce := C05_eval_output _ _ hx (Neon.unpad_shaped b.cfg.nLits e lits)
  have hcc := C05_eval_output _ _ hx (Neon.unpad_shaped b.cfg.nLits c lits)
  have hne := (hce.1.mp hfire).1
  have hoe : (neonEvalClause b.cfg lits a' e).1.out = 1 := by
    rw [(neon_eval_clause b.cfg lits a' e hn hx).1 (Or.inl hne)]; exact hfire
  have ha := h3 (Or.inr ⟨j, _, hji, h1', hoe⟩)
  refine ⟨⟨_, _, rfl, h1, (neon_eval_clause b.cfg lits a c hn hx).2 ha hempty⟩, ?_⟩
  rcases hcc.2 with h | h
  · exact h
  · exact absurd hempty (hcc.1.mp h).1

/-- The same on a concrete block of two clauses: the votes differ from the portable ones. -/
theorem C42_votes_differ :
    ((exNBlock [exNClause, exNEmpty] (some 5)).apply (.evalExample exLits)).map NBlock.votes =
      some [5, 2] ∧
    countVotes 2 ([exNClause, exNEmpty].map fun c => evalOutClause (unpadExample 3 exLits) (neonUnpad 3 c)) =
      [4, -1] := by
  constructor <;> decide +kernel

example : (unpadExample 3 exLits) = [1, 0, 0] ∧ Binary (unpadExample 3 exLits) ∧
    ¬ EmptyClause (neonUnpad 3 exNClause).pos (neonUnpad 3 exNClause).neg ∧
    EmptyClause (neonUnpad 3 exNEmpty).pos (neonUnpad 3 exNEmpty).neg ∧
    (evalOutClause (unpadExample 3 exLits) (neonUnpad 3 exNClause)).out = 1 ∧
    (exNBlock [exNClause] (some 5)).cfg.budget ≠ none ∧
    ((exNBlock [exNClause] (some 5)).apply (.trainExample exLits)).map NBlock.votes = some [4, -1] := by
  refine ⟨by decide +kernel, by decide +kernel, ?_, ?_, by decide +kernel, by decide, by decide +kernel⟩
  · intro h
    exact h.1 0 ⟨5, by decide +kernel, by decide⟩
  · constructor <;> rintro i ⟨v, h, hv⟩ <;> match i with
    | 0 | 1 | 2 => simp [neonUnpad, exNEmpty, neonMem] at h; subst h; revert hv; decide
    | i + 3 => simp [neonUnpad] at h
example : (exNBlock [exNClause] none).clauses ≠ [] ∧ (exNBlock [exNClause] none).cfg.budget = none := by
  simp [exNBlock]

/-! ## C08 - C12 on NEON -/

/-- C08: the rejecting feedback of the NEON backend is, literal for literal and weight for weight, the one
of the portable backend, whatever the padding contains. -/
theorem C08_neon_same_as_portable (cfg : VCfg) (scalar : Cfg) (lits : Mem) (j : Nat) (target : Int)
    (c : VClause) (g : VRng) (g' : Rng) (hw : WronglyFiring (neonUnpad cfg.nLits c) j target) :
    neonUnpad cfg.nLits (neonClauseUpdate cfg lits j target c g).1 =
      (clauseUpdate scalar (unpadExample cfg.nLits lits) j target (neonUnpad cfg.nLits c) g').1 ∧
    (neonClauseUpdate cfg lits j target c g).2 = g := by
  have hout : c.out = 1 := hw.1
  have hs : ∃ sign : Int, (if c.w.getD j 0 ≥ 0 then (1 : Int) else -1) = sign ∧
      ¬ target * sign > 0 ∧ target * sign < 0 := by
    rcases hw.2 with ⟨rfl, h⟩ | ⟨rfl, h⟩
    · exact ⟨-1, by rw [if_neg]; exact Int.not_le.mpr h, by decide, by decide⟩
    · exact ⟨1, by rw [if_pos]; exact h, by decide, by decide⟩
  obtain ⟨sign, hsign, h1, h2⟩ := hs
  have hmem := (neonMem_div cfg.nLits).2
  have hsc : clauseUpdate scalar (unpadExample cfg.nLits lits) j target (neonUnpad cfg.nLits c) g' =
      ({ neonUnpad cfg.nLits c with
          w := c.w.set j (wrap16 (c.w.getD j 0 - sign)),
          pos := (t2 (neonUnpad cfg.nLits c).pos (neonUnpad cfg.nLits c).neg (unpadExample cfg.nLits lits)).1,
          neg := (t2 (neonUnpad cfg.nLits c).pos (neonUnpad cfg.nLits c).neg (unpadExample cfg.nLits lits)).2 },
        g') := by
    unfold clauseUpdate
    simp only [show (neonUnpad cfg.nLits c).w = c.w from rfl, show (neonUnpad cfg.nLits c).out = c.out from rfl,
      hsign, h1, if_false, h2, hout, and_self, if_true]
  rw [hsc]
  unfold neonClauseUpdate
  simp only [hsign, h1, if_false, h2, hout, and_self, if_true, neonT2_eq, and_true]
  unfold neonUnpad
  simp only [Clause.mk.injEq, and_true, hout]
  have hget := fun i (hi : i < cfg.nLits) => t2_get (neonUnpad cfg.nLits c).pos (neonUnpad cfg.nLits c).neg
    (unpadExample cfg.nLits lits) (by simp [neonUnpad, unpadExample]) (by simp [neonUnpad, unpadExample]) i
    (p := (c.row i).toInt) (q := (c.row (neonMem cfg.nLits + i)).toInt) (x := (lits i).toNat)
    (by simp [neonUnpad, hi]) (by simp [neonUnpad, hi]) (unpadExample_get _ _ _ hi)
  have hlen := t2_length (neonUnpad cfg.nLits c).pos (neonUnpad cfg.nLits c).neg (unpadExample cfg.nLits lits)
  have hz : ∀ i, ((lits i == 0#8) = true ↔ (lits i).toNat = 0) := by
    intro i
    simp only [beq_iff_eq]
    exact ⟨fun h => by rw [h]; rfl, fun h => BitVec.eq_of_toNat_eq (by simpa using h)⟩
  constructor
  · apply List.ext_getElem?
    intro i
    by_cases hi : i < cfg.nLits
    · have := (hget i hi).1
      simp only [neonUnpad] at this
      rw [this]
      simp only [List.getElem?_map, List.getElem?_range hi, Option.map_some]
      rw [if_pos (by omega), t2Lane_toInt]
      simp only [hz]
    · have h1 : ((List.range cfg.nLits).map fun i => (c.row i).toInt).length = cfg.nLits := by simp
      rw [List.getElem?_eq_none (by simp; omega), List.getElem?_eq_none]
      have := hlen.1
      simp only [neonUnpad] at this
      rw [this]; simp; omega
  · apply List.ext_getElem?
    intro i
    by_cases hi : i < cfg.nLits
    · have := (hget i hi).2
      simp only [neonUnpad] at this
      rw [this]
      simp only [List.getElem?_map, List.getElem?_range hi, Option.map_some]
      rw [if_neg (by omega), if_pos (by omega), t2Lane_toInt, Nat.add_sub_cancel_left]
      have : (!(lits i == 0#8)) = true ↔ (lits i).toNat ≠ 0 := by
        rw [Bool.not_eq_true', ← Bool.not_eq_true, hz]
      simp only [this]
    · rw [List.getElem?_eq_none (by simp; omega), List.getElem?_eq_none]
      have := hlen.2
      simp only [neonUnpad] at this
      rw [this]; simp; omega

/-- C09 on NEON, exactly: literal `i` of a rightly firing clause, with `r1`, `r2` the random bytes of its
lane in the two vectors drawn for its chunk. A literal that is true in the example rises by one (saturating)
unless its byte is below the threshold; when boosting the positive literal of a 1 always rises, the negated
literals still draw, as on the portable backend; a false literal falls by one (saturating)
if its byte is below the threshold. -/
theorem C09_neon_exact (cfg : VCfg) (lits : Mem) (j : Nat) (target : Int) (c : VClause) (g : VRng)
    (hw : RightlyFiring (neonUnpad cfg.nLits c) j target) (i : Nat) (hi : i < cfg.nLits)
    (p q r1 r2 : Int) (hp : p = (c.row i).toInt) (hq : q = (c.row (neonMem cfg.nLits + i)).toInt)
    (hr1 : r1 = (g.draw (g.pos + 2 * (i / 16)) (i % 16)).toInt)
    (hr2 : r2 = (g.draw (g.pos + 2 * (i / 16) + 1) (i % 16)).toInt) :
    ((neonClauseUpdate cfg lits j target c g).1.row i).toInt =
      (if lits i = 1#8 then (if cfg.boost = true ∨ ¬ r1 < cfg.cmpS.toInt then min 127 (p + 1) else p)
       else (if r1 < cfg.cmpS.toInt then max (-128) (p - 1) else p)) ∧
    ((neonClauseUpdate cfg lits j target c g).1.row (neonMem cfg.nLits + i)).toInt =
      (if lits i = 1#8 then (if r2 < cfg.cmpS.toInt then max (-128) (q - 1) else q)
       else (if ¬ r2 < cfg.cmpS.toInt then min 127 (q + 1) else q)) := by
  have hout : c.out = 1 := hw.1
  have hs : ∃ sign : Int, (if c.w.getD j 0 ≥ 0 then (1 : Int) else -1) = sign ∧ target * sign > 0 := by
    rcases hw.2 with ⟨rfl, h⟩ | ⟨rfl, h⟩
    · exact ⟨1, by rw [if_pos]; exact h, by decide⟩
    · exact ⟨-1, by rw [if_neg]; exact Int.not_le.mpr h, by decide⟩
  obtain ⟨sign, hsign, h1⟩ := hs
  have hmem := (neonMem_div cfg.nLits).2
  unfold neonClauseUpdate
  simp only [hsign, h1, if_true, hout, neonT1a_eq]
  constructor
  · rw [if_pos (by omega), t1aLane_toInt, ← hp, ← hr1]
    simp only [beq_iff_eq]
  · rw [if_neg (by omega), if_pos (by omega), t1aLane_toInt, ← hq, Nat.add_sub_cancel_left, ← hr2]
    by_cases h : lits i = 1#8 <;> simp [h]

/-- C10 on NEON, exactly: an update of a clause that does not fire either changes nothing or lowers by one
(saturating) exactly the literals whose random byte is below the threshold. -/
theorem C10_neon_exact (cfg : VCfg) (lits : Mem) (j : Nat) (target : Int) (c : VClause) (g : VRng)
    (ho : c.out ≠ 1) (i : Nat) (hi : i < cfg.nLits) (p q p' q' : Int)
    (hp : p = (c.row i).toInt) (hq : q = (c.row (neonMem cfg.nLits + i)).toInt)
    (hp' : p' = ((neonClauseUpdate cfg lits j target c g).1.row i).toInt)
    (hq' : q' = ((neonClauseUpdate cfg lits j target c g).1.row (neonMem cfg.nLits + i)).toInt) :
    (p - 1 ≤ p' ∧ p' ≤ p ∧ -128 ≤ p' ∧ q - 1 ≤ q' ∧ q' ≤ q ∧ -128 ≤ q') ∧
    ((p' = p ∧ q' = q) ∨
      (p' = (if (g.draw (g.pos + 2 * (i / 16)) (i % 16)).toInt < cfg.cmpS.toInt
        then max (-128) (p - 1) else p) ∧
       q' = (if (g.draw (g.pos + 2 * (i / 16) + 1) (i % 16)).toInt < cfg.cmpS.toInt
        then max (-128) (q - 1) else q))) := by
  have h1 := byte_range (c.row i)
  have h2 := byte_range (c.row (neonMem cfg.nLits + i))
  rw [← hp] at h1
  rw [← hq] at h2
  have hmem := (neonMem_div cfg.nLits).2
  rcases neonClauseUpdate_silent cfg lits j target c g ho with e | e
  · rw [e, ← hp] at hp'
    rw [e, ← hq] at hq'
    subst hp' hq'
    exact ⟨by omega, Or.inl ⟨rfl, rfl⟩⟩
  · rw [e, neonT1b_eq] at hp' hq'
    simp only at hp' hq'
    rw [if_pos (by omega), t1bLane_toInt, ← hp] at hp'
    rw [if_neg (by omega), if_pos (by omega), t1bLane_toInt, ← hq, Nat.add_sub_cancel_left] at hq'
    refine ⟨?_, Or.inr ⟨hp', hq'⟩⟩
    split at hp' <;> split at hq' <;> omega

example : WronglyFiring (neonUnpad 3 exNClause) 0 (-1) := ⟨rfl, Or.inr ⟨rfl, by decide⟩⟩
example : RightlyFiring (neonUnpad 3 exNClause) 0 1 := ⟨rfl, Or.inl ⟨rfl, by decide⟩⟩

/-- C11 on NEON (blocks with a budget): a clause above its budget keeps its weights and no byte of its row
rises in a training step. -/
theorem C11_neon_over_budget_only_forgets (b : NBlock) (lits : Mem) (fb : Feedback)
    (hn : 0 < b.cfg.nLits) (i : Nat) (c : VClause) (hc : b.clauses[i]? = some c)
    (ho : OverBudget b.cfg.budget (neonUnpad b.cfg.nLits c)) :
    ∃ b' c', neonStep b (.train lits fb) = some b' ∧ b'.clauses[i]? = some c' ∧ c'.w = c.w ∧
      ∀ a, (c'.row a).toInt ≤ (c.row a).toInt := by
  have hs := neonSetClause_spec b.cfg lits c hn
  obtain ⟨m, hm, hlt⟩ := ho
  have hset : neonSetClauses b.cfg lits b.clauses = some (b.clauses.map (neonSetClause b.cfg lits)) := by
    unfold neonSetClauses
    rw [if_neg (by rw [hm]; simp)]
  have hc1 : (b.clauses.map (neonSetClause b.cfg lits))[i]? = some (neonSetClause b.cfg lits c) := by
    simp [hc]
  obtain ⟨g', e⟩ := neonTrainClauses_get b.cfg lits fb _ b.fast b.vrng i _ hc1
  refine ⟨_, _, by simp only [neonStep, NBlock.apply, hset, Option.map_some, Option.bind_some]; rfl, e, ?_⟩
  have hsil : (neonBudgetGate b.cfg (neonSetClause b.cfg lits c)).out ≠ 1 := by
    rw [Ne, (neonBudgetGate_facts _ _).1]
    rintro ⟨h1, h2⟩
    have := h2 m hm
    rw [hs.2.2.1 (by simp [hm]) h1, incCount_eq_numIncluded, incCount_eq_numIncluded] at this
    simp only [Nat.zero_add] at this
    simp only [neonUnpad] at hlt
    omega
  have := neonTrainClause_silent b.cfg lits fb _ { b.fast with pos := b.fast.pos + 2 * i } g' hsil
  rw [hs.2.2.2.2, hs.2.2.2.1] at this
  exact this

/-- C12 on NEON (blocks with a budget): one training step changes the weights of every clause exactly as it
does in the portable backend holding the same states, weights and update draws. -/
theorem C12_neon_same_weights (b : NBlock) (d : DBlock) (lits : Mem) (fb : Feedback)
    (hn : 0 < b.cfg.nLits) (hx : Binary (unpadExample b.cfg.nLits lits)) (hbudget : b.cfg.budget ≠ none)
    (hbud : d.cfg.budget = b.cfg.budget) (hcl : d.clauses = b.clauses.map (neonUnpad b.cfg.nLits))
    (hf : d.fast = b.fast) :
    ∃ b', neonStep b (.train lits fb) = some b' ∧
      b'.clauses.map VClause.w =
        (d.trainStep (unpadExample b.cfg.nLits lits) fb).clauses.map Clause.w := by
  have hset : neonSetClauses b.cfg lits b.clauses = some (b.clauses.map (neonSetClause b.cfg lits)) := by
    unfold neonSetClauses
    rw [if_neg (fun h => hbudget h.2)]
  refine ⟨_, by simp only [neonStep, NBlock.apply, hset, Option.map_some, Option.bind_some]; rfl, ?_⟩
  dsimp only
  apply List.ext_getElem?
  intro i
  simp only [List.getElem?_map]
  cases hc : b.clauses[i]? with
  | none =>
    have hlen : b.clauses.length ≤ i := by simpa using hc
    rw [List.getElem?_eq_none, List.getElem?_eq_none]
    · rfl
    · simp only [DBlock.trainStep, DBlock.apply, DBlock.trainUpdate, trainClauses_length,
        DBlock.countVotes, DBlock.trainSetOutput, List.length_map, hcl]
      exact hlen
    · simp only [neonTrainClauses_length, List.length_map]
      exact hlen
  | some c =>
    have hc1 : (b.clauses.map (neonSetClause b.cfg lits))[i]? = some (neonSetClause b.cfg lits c) := by
      simp [hc]
    have hd1 : (d.apply (.trainExample (unpadExample b.cfg.nLits lits))).clauses[i]? =
        some (setOutClause d.cfg (unpadExample b.cfg.nLits lits) (neonUnpad b.cfg.nLits c)) := by
      simp [DBlock.apply, DBlock.countVotes, DBlock.trainSetOutput, hcl, hc]
    obtain ⟨g1, e1⟩ := neonTrainClauses_get b.cfg lits fb _ b.fast b.vrng i _ hc1
    obtain ⟨g2, e2⟩ := trainClauses_get d.cfg (unpadExample b.cfg.nLits lits) fb _ d.fast d.rng i _ hd1
    have e2' : (d.trainStep (unpadExample b.cfg.nLits lits) fb).clauses[i]? = _ := e2
    rw [e1, e2', Option.map_some, Option.map_some, neonTrainClause_w, trainClause_w, hf]
    obtain ⟨ho, hcnt⟩ := C42_train_clause b.cfg d.cfg hbud lits c hn hx
    have hgate : (neonBudgetGate b.cfg (neonSetClause b.cfg lits c)).out = 1 ↔
        (budgetGate d.cfg (setOutClause d.cfg (unpadExample b.cfg.nLits lits)
          (neonUnpad b.cfg.nLits c))).out = 1 := by
      rw [(neonBudgetGate_facts _ _).1, budgetGate_out, hbud, ← ho]
      apply and_congr_right
      intro h1
      apply forall_congr'
      intro m
      apply imp_congr_right
      intro hm
      rw [hcnt (by rw [hm]; simp) h1]
    have hw : (neonSetClause b.cfg lits c).w = c.w := (neonSetClause_spec b.cfg lits c hn).2.2.2.2
    have hw2 : (setOutClause d.cfg (unpadExample b.cfg.nLits lits) (neonUnpad b.cfg.nLits c)).w = c.w := rfl
    simp only [hgate, hw, hw2]

example : OverBudget (some 1) (neonUnpad 3 exNClause) := ⟨1, rfl, by decide⟩

end GT

import Verif.Lemmas.Dense

/-!
# Properties of the portable dense backend (C04, C05, C06, C08 - C13)
-/

namespace GT
open Spec

/-! A small concrete block used for the non-vacuity checks. -/

def exRng : Rng := ⟨fun n => if n % 2 = 0 then 0 else 1, 0⟩
def exCfg : Cfg := { budget := some 1, boost := true, sInv := 1 / 3, sMin1Inv := 2 / 3 }
def exClause : Clause := ⟨[5, -3, -127], [-2, 0, 127], [4, -1], 0, 0⟩
def exBlock : DBlock := ⟨3, 2, exCfg, [exClause], [0, 0], exRng, exRng⟩

/-! ## C04 -/

/-- C04: whatever calls are made on a dense block, in whatever order, with whatever examples, classes,
probabilities and random streams, all literal states stay in [-127, 127] if they start there. -/
theorem C04_states_stay_in_range (b : DBlock) (ops : List BlockOp)
    (h : ∀ c ∈ b.clauses, InRange c.pos ∧ InRange c.neg) :
    ∀ c ∈ (b.run ops).clauses, InRange c.pos ∧ InRange c.neg := by
  induction ops generalizing b with
  | nil => exact h
  | cons op ops ih =>
    apply ih
    intro c hc
    cases op with
    | trainExample x =>
      simp only [DBlock.apply, DBlock.countVotes, DBlock.trainSetOutput, List.mem_map] at hc
      obtain ⟨d, hd, rfl⟩ := hc
      exact h d hd
    | evalExample x =>
      simp only [DBlock.apply, DBlock.countVotes, DBlock.evalSetOutput, List.mem_map] at hc
      obtain ⟨d, hd, rfl⟩ := hc
      exact h d hd
    | trainUpdate x fb =>
      obtain ⟨d, hd, f, g, rfl⟩ := trainClauses_mem _ _ _ _ _ _ _ hc
      exact trainClause_inRange _ _ _ _ _ _ (h d hd).1 (h d hd).2

/-- C04: a fresh block exists for every non-zero seed; it has the requested shape, its states are -1 or
0 and its weights are 1 or -1. -/
theorem C04_fresh_block (nLits nClauses nClasses : Nat) (cfg : Cfg) (fastOf rngOf : Nat → Rng)
    (junk : Nat → Nat) (seed : Nat) (hs : seed ≠ 0) :
    ∃ b, initTM nLits nClauses nClasses cfg fastOf rngOf junk seed = some b ∧
      b.clauses.length = nClauses ∧
      ∀ c ∈ b.clauses, Shaped nLits c ∧ c.w.length = nClasses ∧
        (∀ v ∈ c.pos, v = -1 ∨ v = 0) ∧ (∀ v ∈ c.neg, v = -1 ∨ v = 0) ∧
        (∀ v ∈ c.w, v = 1 ∨ v = -1) := by
  unfold initTM
  simp only [hs, if_false]
  refine ⟨_, rfl, ?_, ?_⟩
  · simp [(initRows_spec _ _ _).1, (initAllWeights_spec _ _ _).1]
  · intro c hc
    simp only [List.mem_mapIdx] at hc
    obtain ⟨i, hi, rfl⟩ := hc
    have hm : ((initRows nLits nClauses (rngOf seed)).1.zip
      (initAllWeights nClasses nClauses (fastOf seed)).1)[i] ∈ _ := List.getElem_mem hi
    have h1 := (initRows_spec nLits nClauses (rngOf seed)).2 _ (List.of_mem_zip hm).1
    have h2 := (initAllWeights_spec nClasses nClauses (fastOf seed)).2 _ (List.of_mem_zip hm).2
    exact ⟨⟨h1.1, h1.2.1⟩, h2.1, h1.2.2.1, h1.2.2.2, h2.2⟩

/-- C04: in every history that starts with a fresh initialisation all states are in range. -/
theorem C04_every_history_in_range (nLits nClauses nClasses : Nat) (cfg : Cfg)
    (fastOf rngOf : Nat → Rng) (junk : Nat → Nat) (seed : Nat) (b : DBlock)
    (hb : initTM nLits nClauses nClasses cfg fastOf rngOf junk seed = some b)
    (ops : List BlockOp) :
    ∀ c ∈ (b.run ops).clauses, InRange c.pos ∧ InRange c.neg := by
  by_cases hs : seed = 0
  · simp [initTM, hs] at hb
  obtain ⟨b', hb', _, h⟩ := C04_fresh_block nLits nClauses nClasses cfg fastOf rngOf junk seed hs
  rw [hb] at hb'
  cases hb'
  apply C04_states_stay_in_range
  intro c hc
  have := h c hc
  constructor <;> intro v hv
  · have := this.2.2.1 v hv; omega
  · have := this.2.2.2.1 v hv; omega

-- non-vacuity: a block with states at both ends of the range, and a fresh block
example : ∀ c ∈ exBlock.clauses, InRange c.pos ∧ InRange c.neg := by
  simp [exBlock, exClause]
example : ∃ b, initTM 3 2 2 exCfg (fun _ => exRng) (fun _ => exRng) (fun _ => 7) 42 = some b :=
  ⟨_, rfl⟩

/-! ## C05 -/

/-- C05: at evaluation a clause outputs 1 iff it is non-empty and its conjunction holds; otherwise 0. -/
theorem C05_eval_output (x : List Nat) (c : Clause) (hx : Binary x) (hc : Shaped x.length c) :
    ((evalOutClause x c).out = 1 ↔ ¬ EmptyClause c.pos c.neg ∧ Satisfied c.pos c.neg x) ∧
    ((evalOutClause x c).out = 0 ∨ (evalOutClause x c).out = 1) := by
  have h := evalOutLoop_spec c.pos c.neg x true hc.1 hc.2 hx
  simp only [evalOutClause]
  split <;> rename_i hr
  · refine ⟨?_, by simp⟩
    simp only [Nat.zero_ne_one, false_iff]
    intro hh
    exact hh.1 ((h.2.2 (h.2.1.mpr hh.2)).mp hr).2
  · refine ⟨?_, h.1⟩
    rw [h.2.1]
    constructor
    · intro hs
      refine ⟨fun he => hr ((h.2.2 (h.2.1.mpr hs)).mpr ⟨rfl, he⟩), hs⟩
    · exact fun hh => hh.2

/-- C05 for a whole block: clause `i`, on every example. -/
theorem C05_block_eval_output (b : DBlock) (x : List Nat) (hx : Binary x)
    (hb : ∀ c ∈ b.clauses, Shaped x.length c) (i : Nat) (c : Clause) (hc : b.clauses[i]? = some c) :
    ∃ c', (b.apply (.evalExample x)).clauses[i]? = some c' ∧
      (c'.out = 1 ↔ ¬ EmptyClause c.pos c.neg ∧ Satisfied c.pos c.neg x) ∧
      (c'.out = 0 ∨ c'.out = 1) := by
  refine ⟨evalOutClause x c, ?_, C05_eval_output x c hx (hb c (List.mem_of_getElem? hc))⟩
  simp [DBlock.apply, DBlock.countVotes, DBlock.evalSetOutput, hc]

example : Binary [1, 0, 0] ∧ Shaped 3 exClause ∧ (evalOutClause [1, 0, 0] exClause).out = 1 ∧
    (evalOutClause [0, 0, 0] exClause).out = 0 := by
  refine ⟨by simp [Binary], by simp [Shaped, exClause], by decide, by decide⟩

/-! ## C06 -/

/-- C06: in training a clause outputs 1 iff its conjunction holds (the empty clause fires), otherwise 0;
and when a literal budget is in use and the output is 1, the recorded count is the number of included
literals. -/
theorem C06_train_output (cfg : Cfg) (x : List Nat) (c : Clause) (hx : Binary x)
    (hc : Shaped x.length c) :
    ((setOutClause cfg x c).out = 1 ↔ Satisfied c.pos c.neg x) ∧
    ((setOutClause cfg x c).out = 0 ∨ (setOutClause cfg x c).out = 1) ∧
    (cfg.budget ≠ none → (setOutClause cfg x c).out = 1 →
      (setOutClause cfg x c).cnt = numIncluded c.pos + numIncluded c.neg) := by
  have h := setOutLoop_spec cfg.budget.isSome c.pos c.neg x 0 0 hc.1 hc.2 hx
  refine ⟨h.2.1, h.1, ?_⟩
  intro hb ho
  have hs : cfg.budget.isSome = true := by
    cases hcb : cfg.budget with
    | none => exact absurd hcb hb
    | some b => simp
  have := h.2.2 hs ho
  simp only [setOutClause, hs, if_true] at this ⊢
  omega

/-- C06: in particular the empty clause fires on every example in training. -/
theorem C06_empty_clause_fires (cfg : Cfg) (x : List Nat) (c : Clause) (hx : Binary x)
    (hc : Shaped x.length c) (he : EmptyClause c.pos c.neg) : (setOutClause cfg x c).out = 1 :=
  (C06_train_output cfg x c hx hc).1.mpr
    ⟨fun i h => absurd h (he.1 i), fun i h => absurd h (he.2 i)⟩

example : (setOutClause exCfg [1, 0, 0] exClause).out = 1 ∧
    (setOutClause exCfg [1, 0, 0] exClause).cnt = 3 ∧
    (setOutClause exCfg [1, 1, 0] exClause).out = 0 := by decide
example : EmptyClause [-1, -5] [-127, -1] := by
  refine ⟨?_, ?_⟩ <;> rintro (_ | _ | i) ⟨v, h, hv⟩ <;> simp at h <;> omega

/-! ## C08 -/

/-- C08: literal by literal, the rejecting feedback raises by one exactly the excluded literals that the
example contradicts, and changes nothing else; no draw is consumed. -/
theorem C08_type2_exact (cfg : Cfg) (x : List Nat) (j : Nat) (target : Int) (c : Clause) (g : Rng)
    (hw : WronglyFiring c j target) (hc : Shaped x.length c)
    (hrp : InRange c.pos) (hrn : InRange c.neg) (i : Nat) (p q : Int) (l : Nat)
    (hp : c.pos[i]? = some p) (hq : c.neg[i]? = some q) (hl : x[i]? = some l) :
    (clauseUpdate cfg x j target c g).1.pos[i]? = some (if l = 0 ∧ p < 0 then p + 1 else p) ∧
    (clauseUpdate cfg x j target c g).1.neg[i]? = some (if l ≠ 0 ∧ q < 0 then q + 1 else q) ∧
    (clauseUpdate cfg x j target c g).2 = g := by
  obtain ⟨e1, e2, e3⟩ := clauseUpdate_t2 cfg x j target c g hw
  rw [e1, e2]
  have := t2_get c.pos c.neg x hc.1 hc.2 i hp hq hl
  have hpr := hrp p (List.mem_of_getElem? hp)
  have hqr := hrn q (List.mem_of_getElem? hq)
  refine ⟨this.1.trans ?_, this.2.trans ?_, e3⟩ <;> unfold wrap8 <;> split <;> simp <;> omega

/-- C08: consequences for any literal: the state never falls, an included literal is untouched, an
excluded one never rises above 0. -/
theorem C08_type2_monotone (cfg : Cfg) (x : List Nat) (j : Nat) (target : Int) (c : Clause) (g : Rng)
    (hw : WronglyFiring c j target) (hc : Shaped x.length c)
    (hrp : InRange c.pos) (hrn : InRange c.neg) (i : Nat) (hi : i < x.length) :
    ∃ p q p' q', c.pos[i]? = some p ∧ c.neg[i]? = some q ∧
      (clauseUpdate cfg x j target c g).1.pos[i]? = some p' ∧
      (clauseUpdate cfg x j target c g).1.neg[i]? = some q' ∧
      p ≤ p' ∧ q ≤ q' ∧ (0 ≤ p → p' = p) ∧ (0 ≤ q → q' = q) ∧
      (p < 0 → p' ≤ 0) ∧ (q < 0 → q' ≤ 0) := by
  have h1 := List.getElem?_eq_getElem (show i < c.pos.length by rw [hc.1]; exact hi)
  have h2 := List.getElem?_eq_getElem (show i < c.neg.length by rw [hc.2]; exact hi)
  have h3 : x[i]? = some x[i] := List.getElem?_eq_getElem hi
  have h := C08_type2_exact cfg x j target c g hw hc hrp hrn i _ _ _ h1 h2 h3
  refine ⟨_, _, _, _, h1, h2, h.1, h.2.1, ?_⟩
  grind

/-- C08: after at least 127 repetitions the clause rejects the example (for examples with at least one
literal), whatever its states were. -/
theorem C08_type2_eventually_rejects (x : List Nat) (pos neg : List Int) (k : Nat) (hk : 127 ≤ k)
    (hx : Binary x) (hne : x ≠ []) (hp : pos.length = x.length) (hq : neg.length = x.length)
    (hrp : InRange pos) (hrn : InRange neg) :
    ¬ Satisfied (repeatT2 x k (pos, neg)).1 (repeatT2 x k (pos, neg)).2 x := by
  match x, pos, neg, hne, hp, hq with
  | l :: x, p :: pos, q :: neg, _, _, _ =>
    rw [inRange_cons] at hrp hrn
    obtain ⟨ps', qs', e⟩ := repeatT2_head k p q pos neg l x hrp.1 hrn.1
    rw [e, satisfied_cons]
    rw [binary_cons] at hx
    intro h
    rcases hx.1 with rfl | rfl
    · have h1 := h.1
      simp only [true_and] at h1
      split at h1 <;> omega
    · have h1 := h.2.1
      simp at h1
      split at h1 <;> omega

/-- The bound 127 of the previous theorem is tight: 126 repetitions do not suffice. -/
theorem C08_bound_is_tight :
    Satisfied (repeatT2 [0] 126 ([-127], [-127])).1 (repeatT2 [0] 126 ([-127], [-127])).2 [0] := by
  have : repeatT2 [0] 126 ([-127], [-127]) = ([-1], [-127]) := by decide +kernel
  rw [this]
  constructor <;> rintro (_ | i) ⟨v, h, hv⟩ <;> simp at h <;> omega

example : WronglyFiring ⟨[5, -3, -127], [-2, 0, 127], [4, -1], 1, 3⟩ 0 (-1) := by
  refine ⟨rfl, Or.inr ⟨rfl, by decide⟩⟩

/-! ## C09 -/

/-- C09: for every literal of a rightly firing clause and all draws: a literal true in the example (the
positive literal of a 1, the negated literal of a 0) rises by 0 or 1, a literal false in the example
falls by 0 or 1; with boosting the positive literal of a 1 rises by exactly 1 below the cap. -/
theorem C09_type1a (cfg : Cfg) (x : List Nat) (j : Nat) (target : Int) (c : Clause) (g : Rng)
    (hw : RightlyFiring c j target) (hc : Shaped x.length c)
    (hrp : InRange c.pos) (hrn : InRange c.neg) (i : Nat) (p q : Int) (l : Nat)
    (hp : c.pos[i]? = some p) (hq : c.neg[i]? = some q) (hl : x[i]? = some l) :
    ∃ p' q', (clauseUpdate cfg x j target c g).1.pos[i]? = some p' ∧
      (clauseUpdate cfg x j target c g).1.neg[i]? = some q' ∧
      (l = 1 → (p ≤ p' ∧ p' ≤ p + 1) ∧ (q - 1 ≤ q' ∧ q' ≤ q) ∧
        (cfg.boost = true → p < 127 → p' = p + 1)) ∧
      (l = 0 → (p - 1 ≤ p' ∧ p' ≤ p) ∧ (q ≤ q' ∧ q' ≤ q + 1)) := by
  obtain ⟨e1, e2⟩ := clauseUpdate_t1a cfg x j target c g hw
  rw [e1, e2]
  obtain ⟨p', q', h1, h2, hP, hQ⟩ := t1a_get cfg c.pos c.neg x g hc.1 hc.2 i hp hq hl
  have hpr := hrp p (List.mem_of_getElem? hp)
  have hqr := hrn q (List.mem_of_getElem? hq)
  refine ⟨p', q', h1, h2, ?_, ?_⟩
  · rintro rfl
    simp only [T1aPos, T1aNeg, if_true, incState, decState, wrap8] at hP hQ
    grind
  · rintro rfl
    simp [T1aPos, T1aNeg, incState, decState, wrap8] at hP hQ
    grind

/-- C09, exactly: which draws move literal `i` of a rightly firing clause and how. With `o` the position of
the first draw for literal `i`: the positive literal of a 1 rises if boosting or if draw `o` is at most
(s-1)/s and the negated one falls if the next draw is at most 1/s; the positive literal of a 0 falls if draw
`o` is at most 1/s and the negated one rises if draw `o+1` is at most (s-1)/s. -/
theorem C09_type1a_exact (base : Cfg) (s : Rat) (x : List Nat) (j : Nat) (target : Int) (c : Clause) (g : Rng)
    (hw : RightlyFiring c j target) (hc : Shaped x.length c)
    (hrp : InRange c.pos) (hrn : InRange c.neg) (i : Nat) (p q : Int) (l o : Nat)
    (hp : c.pos[i]? = some p) (hq : c.neg[i]? = some q) (hl : x[i]? = some l)
    (ho : o = g.pos + drawsBefore base.boost x i) :
    (clauseUpdate (base.setS s) x j target c g).1.pos[i]? = some (
      if l = 1 then (if base.boost = true ∨ g.draw o ≤ (s - 1) / s then min 127 (p + 1) else p)
      else (if g.draw o ≤ 1 / s then max (-127) (p - 1) else p)) ∧
    (clauseUpdate (base.setS s) x j target c g).1.neg[i]? = some (
      if l = 1 then
        (if g.draw (if base.boost then o else o + 1) ≤ 1 / s then max (-127) (q - 1) else q)
      else (if g.draw (o + 1) ≤ (s - 1) / s then min 127 (q + 1) else q)) := by
  subst ho
  obtain ⟨e1, e2⟩ := clauseUpdate_t1a (base.setS s) x j target c g hw
  rw [e1, e2]
  have hpr := hrp p (List.mem_of_getElem? hp)
  have hqr := hrn q (List.mem_of_getElem? hq)
  have h := t1a_draws (base.setS s) c.pos c.neg x g hc.1 hc.2 i hp hq hl
  rw [incState_min hpr, decState_max hpr, incState_min hqr, decState_max hqr] at h
  cases hb : base.boost <;> simpa [Cfg.setS, hb] using h

example : RightlyFiring ⟨[5, -3, -127], [-2, 0, 127], [4, -1], 1, 3⟩ 0 1 ∧
    RightlyFiring ⟨[5, -3, -127], [-2, 0, 127], [4, -1], 1, 3⟩ 1 (-1) := by
  refine ⟨⟨rfl, Or.inl ⟨rfl, by decide⟩⟩, ⟨rfl, Or.inr ⟨rfl, by decide⟩⟩⟩

/-! ## C10 -/

/-- C10: an update of a clause that does not fire lowers each literal state by 0 or 1, never below -127,
and raises none. -/
theorem C10_type1b (cfg : Cfg) (x : List Nat) (j : Nat) (target : Int) (c : Clause) (g : Rng)
    (ho : c.out ≠ 1) (hlen : c.pos.length = c.neg.length)
    (hrp : InRange c.pos) (hrn : InRange c.neg) (i : Nat) (p q : Int)
    (hp : c.pos[i]? = some p) (hq : c.neg[i]? = some q) :
    ∃ p' q', (clauseUpdate cfg x j target c g).1.pos[i]? = some p' ∧
      (clauseUpdate cfg x j target c g).1.neg[i]? = some q' ∧
      p - 1 ≤ p' ∧ p' ≤ p ∧ -127 ≤ p' ∧ q - 1 ≤ q' ∧ q' ≤ q ∧ -127 ≤ q' := by
  have hpr := hrp p (List.mem_of_getElem? hp)
  have hqr := hrn q (List.mem_of_getElem? hq)
  rcases clauseUpdate_silent cfg x j target c g ho with e | e
  · rw [e]; exact ⟨p, q, hp, hq, by omega, by omega, by omega, by omega, by omega, by omega⟩
  · rw [e]
    obtain ⟨p', q', h1, h2, hP, hQ⟩ := t1b_get cfg c.pos c.neg g hlen i hp hq
    refine ⟨p', q', h1, h2, ?_⟩
    simp only [T1bMove, decState, wrap8] at hP hQ
    grind

/-- C10, exactly: an update of a clause that does not fire either changes no state or lowers exactly the
literals whose draw is at most 1/s (positive literal `i`: draw `2i`, negated: draw `2i+1`). -/
theorem C10_type1b_exact (base : Cfg) (s : Rat) (x : List Nat) (j : Nat) (target : Int) (c : Clause) (g : Rng)
    (ho : c.out ≠ 1) (hlen : c.pos.length = c.neg.length)
    (hrp : InRange c.pos) (hrn : InRange c.neg) :
    (clauseUpdate (base.setS s) x j target c g).1 = c ∨
    ∀ (i : Nat) (p q : Int), c.pos[i]? = some p → c.neg[i]? = some q →
      (clauseUpdate (base.setS s) x j target c g).1.pos[i]? =
        some (if g.draw (g.pos + 2 * i) ≤ 1 / s then max (-127) (p - 1) else p) ∧
      (clauseUpdate (base.setS s) x j target c g).1.neg[i]? =
        some (if g.draw (g.pos + 2 * i + 1) ≤ 1 / s then max (-127) (q - 1) else q) := by
  rcases clauseUpdate_silent (base.setS s) x j target c g ho with e | e
  · exact Or.inl e
  · right
    intro i p q hp hq
    rw [e]
    have h := t1b_draws (base.setS s) c.pos c.neg g hlen i hp hq
    rw [decState_max (hrp p (List.mem_of_getElem? hp)), decState_max (hrn q (List.mem_of_getElem? hq))] at h
    exact h

example : exClause.out ≠ 1 ∧ exClause.pos.length = exClause.neg.length ∧ InRange exClause.pos := by
  refine ⟨by decide, by decide, by simp [exClause]⟩

/-! ## C13 -/

/-- C13: the vote of class `k` is the sum of the firing clauses' weights for `k`, modulo 2^16. -/
theorem C13_votes_mod (n : Nat) (cs : List Clause) (hw : ∀ c ∈ cs, c.w.length = n) (k : Nat)
    (hk : k < n) : (countVotes n cs)[k]? = some (wrap16 (voteSum cs k)) := by
  have := countVotes_aux cs (List.replicate n 0) n k hk (by simp) hw 0 (by simp [hk, wrap16])
  simpa [countVotes] using this

/-- C13: it is exactly that sum whenever the sum fits in 16 bits (even if partial sums do not). -/
theorem C13_votes_exact (n : Nat) (cs : List Clause) (hw : ∀ c ∈ cs, c.w.length = n) (k : Nat)
    (hk : k < n) (h1 : -32768 ≤ voteSum cs k) (h2 : voteSum cs k ≤ 32767) :
    (countVotes n cs)[k]? = some (voteSum cs k) := by
  rw [C13_votes_mod n cs hw k hk, wrap16_id h1 h2]

/-- C13: one vote per class. -/
theorem C13_votes_length (n : Nat) (cs : List Clause) (hw : ∀ c ∈ cs, c.w.length = n) :
    (countVotes n cs).length = n := by
  unfold countVotes
  suffices h : ∀ v : List Int, v.length = n →
      (cs.foldl (fun v c => if c.out = 1 then addVotes v c.w else v) v).length = n from
    h _ (by simp)
  induction cs with
  | nil => intro v hv; simpa using hv
  | cons c cs ih =>
    intro v hv
    simp only [List.foldl_cons]
    apply ih (fun d hd => hw d (by simp [hd]))
    split
    · rw [addVotes_length v c.w (by rw [hw c (by simp), hv]), hv]
    · exact hv

example : countVotes 2 [⟨[], [], [4, -1], 1, 0⟩, ⟨[], [], [9, 9], 0, 0⟩, ⟨[], [], [-6, 3], 1, 0⟩]
    = [-2, 2] := by decide

/-! ## C12 -/

/-- C12: exact effect of one training step on one weight. Clause `i` of any block, class `j`, weight
strictly inside the 16-bit range: the weight goes up by one if `j` is the positive class and down by one if
it is the negative class, each only if the clause's conjunction holds, the clause is within its literal
budget and its draw is below the update probability; otherwise it is unchanged. -/
theorem C12_training_step (b : DBlock) (x : List Nat) (fb : Feedback) (hx : Binary x)
    (hb : ∀ c ∈ b.clauses, Shaped x.length c) (i : Nat) (c : Clause) (hc : b.clauses[i]? = some c)
    (j : Nat) (w : Int) (hw : c.w[j]? = some w) (h1 : -32768 < w) (h2 : w < 32767) :
    ∃ c', (b.trainStep x fb).clauses[i]? = some c' ∧
      ∃ up down : Int, c'.w[j]? = some (w + up - down) ∧
        (up = 0 ∨ up = 1) ∧ (down = 0 ∨ down = 1) ∧
        (up = 1 ↔ j = fb.posClass ∧ Satisfied c.pos c.neg x ∧ ¬ OverBudget b.cfg.budget c ∧
          b.fast.draw (b.fast.pos + 2 * i) < fb.posProb) ∧
        (down = 1 ↔ j = fb.negClass ∧ Satisfied c.pos c.neg x ∧ ¬ OverBudget b.cfg.budget c ∧
          b.fast.draw (b.fast.pos + 2 * i + 1) < fb.negProb) := by
  have hsh := hb c (List.mem_of_getElem? hc)
  have hO := C06_train_output b.cfg x c hx hsh
  have hc1 : ((b.apply (.trainExample x)).clauses)[i]? = some (setOutClause b.cfg x c) := by
    simp [DBlock.apply, DBlock.countVotes, DBlock.trainSetOutput, hc]
  obtain ⟨g', e⟩ := trainClauses_get b.cfg x fb _ b.fast b.rng i _ hc1
  refine ⟨_, e, ?_⟩
  have hfire : (budgetGate b.cfg (setOutClause b.cfg x c)).out = 1 ↔
      Satisfied c.pos c.neg x ∧ ¬ OverBudget b.cfg.budget c := by
    rw [budgetGate_out, hO.1]
    constructor
    · rintro ⟨hs, hbud⟩
      refine ⟨hs, ?_⟩
      rintro ⟨m, hm, hlt⟩
      have := hbud m hm
      rw [hO.2.2 (by rw [hm]; simp) (hO.1.mpr hs)] at this
      omega
    · rintro ⟨hs, hbud⟩
      refine ⟨hs, ?_⟩
      intro m hm
      rw [hO.2.2 (by rw [hm]; simp) (hO.1.mpr hs)]
      by_cases hlt : m < numIncluded c.pos + numIncluded c.neg
      · exact absurd ⟨m, hm, hlt⟩ hbud
      · omega
  have hw' := trainClause_w b.cfg x fb (setOutClause b.cfg x c)
    { b.fast with pos := b.fast.pos + 2 * i } g'
  rw [hw']
  refine ⟨_, _, bump2_get _ j fb.posClass fb.negClass w _ _ hw h1 h2, ?_, ?_, ?_, ?_⟩
  · split <;> simp
  · split <;> simp
  · grind
  · grind

/-- The 16-bit boundary is real: a weight of 32767 that is reinforced becomes -32768. -/
theorem C12_weight_wraps_at_boundary :
    (clauseUpdate exCfg [] 0 1 ⟨[], [], [32767], 1, 0⟩ exRng).1.w = [-32768] := by decide

example : Binary [1, 0, 0] ∧ (∀ c ∈ exBlock.clauses, Shaped 3 c) ∧
    exBlock.clauses[0]? = some exClause ∧ exClause.w[1]? = some (-1) := by
  refine ⟨by simp [Binary], by simp [exBlock, Shaped, exClause], rfl, rfl⟩

/-! ## C11 -/

/-- C11: a clause that includes more literals than its budget keeps all its weights and has no literal
state raised in the training step, whatever the example, the feedback and the draws. -/
theorem C11_over_budget_only_forgets (b : DBlock) (x : List Nat) (fb : Feedback) (hx : Binary x)
    (hb : ∀ c ∈ b.clauses, Shaped x.length c ∧ InRange c.pos ∧ InRange c.neg)
    (i : Nat) (c : Clause) (hc : b.clauses[i]? = some c) (ho : OverBudget b.cfg.budget c) :
    ∃ c', (b.trainStep x fb).clauses[i]? = some c' ∧ c'.w = c.w ∧
      NoRise c.pos c'.pos ∧ NoRise c.neg c'.neg := by
  obtain ⟨hsh, hrp, hrn⟩ := hb c (List.mem_of_getElem? hc)
  have hO := C06_train_output b.cfg x c hx hsh
  have hc1 : ((b.apply (.trainExample x)).clauses)[i]? = some (setOutClause b.cfg x c) := by
    simp [DBlock.apply, DBlock.countVotes, DBlock.trainSetOutput, hc]
  obtain ⟨g', e⟩ := trainClauses_get b.cfg x fb _ b.fast b.rng i _ hc1
  refine ⟨_, e, ?_⟩
  apply trainClause_silent_noRise
  · rw [Ne, budgetGate_out]
    rintro ⟨h1, h2⟩
    obtain ⟨m, hm, hlt⟩ := ho
    have := h2 m hm
    rw [hO.2.2 (by rw [hm]; simp) h1] at this
    omega
  · exact hsh.1.trans hsh.2.symm
  · exact hrp
  · exact hrn

/-- C11 over histories: as long as clause `i` is above its budget at the start of every step, the set of
literals it includes only shrinks and its weights stay as they were. -/
theorem C11_history_only_drops (n : Nat) (b : DBlock) (h : List (List Nat × Feedback))
    (hx : ∀ e ∈ h, Binary e.1 ∧ e.1.length = n)
    (hb : ∀ c ∈ b.clauses, Shaped n c ∧ InRange c.pos ∧ InRange c.neg)
    (i : Nat) (c : Clause) (hc : b.clauses[i]? = some c)
    (hover : ∀ h1 h2 d, h = h1 ++ h2 → h2 ≠ [] →
      (trainHistory b h1).clauses[i]? = some d → OverBudget b.cfg.budget d) :
    ∃ c', (trainHistory b h).clauses[i]? = some c' ∧ c'.w = c.w ∧
      (∀ l, Included c'.pos l → Included c.pos l) ∧ (∀ l, Included c'.neg l → Included c.neg l) := by
  induction h generalizing b c with
  | nil => exact ⟨c, hc, rfl, fun _ h => h, fun _ h => h⟩
  | cons e h ih =>
    have hn := (hx e (by simp)).2
    obtain ⟨c1, h1, hw1, hp1, hq1⟩ := C11_over_budget_only_forgets b e.1 e.2 (hx e (by simp)).1
      (by rw [hn]; exact hb) i c hc (hover [] (e :: h) c rfl (by simp) hc)
    have hk := trainStep_keeps_shape b e.1 e.2 n hb
    obtain ⟨c2, h2, hw2, hp2, hq2⟩ := ih (b.trainStep e.1 e.2)
      (fun e' he' => hx e' (by simp [he'])) hk.2 c1 h1 (by
        intro l1 l2 d hl hne hd
        rw [hk.1]
        exact hover (e :: l1) l2 d (by simp [hl]) hne hd)
    exact ⟨c2, h2, by rw [hw2, hw1], fun l hl => hp1.included l (hp2 l hl),
      fun l hl => hq1.included l (hq2 l hl)⟩

example : OverBudget exBlock.cfg.budget exClause :=
  ⟨1, rfl, by decide⟩

end GT

import Verif.Lemmas.SparseFeedback
import Verif.Lemmas.Dense

/-!
# Lemmas about sparse training: which feedback a clause gets, and its weights
-/

namespace GT
open Spec

theorem sClauseUpdate_reward (cfg : SCfg) (x : List Nat) (j : Nat) (target : Int) (c : SClause)
    (al : List Nat × Nat) (g : Rng) (h : SRightlyFiring c j target) :
    sClauseUpdate cfg x j target c al g =
      ({ c with w := c.w.set j (wrap16 (c.w.getD j 0 + target)),
                pos := prune cfg.lowerTA (sT1a cfg x c.pos c.neg al g).1,
                neg := prune cfg.lowerTA (sT1a cfg x c.pos c.neg al g).2.1 },
       (sT1a cfg x c.pos c.neg al g).2.2.1, (sT1a cfg x c.pos c.neg al g).2.2.2) := by
  obtain ⟨ho, ⟨rfl, hw⟩ | ⟨rfl, hw⟩⟩ := h
  · unfold sClauseUpdate
    simp only [ho, ge_iff_le, hw, if_true]
    rw [if_pos (by decide)]
  · unfold sClauseUpdate
    have : ¬ (0 ≤ c.w.getD j 0) := by omega
    simp only [ho, ge_iff_le, this, if_true, if_false]
    rw [if_pos (by decide)]

theorem sClauseUpdate_forget (cfg : SCfg) (x : List Nat) (j : Nat) (target : Int) (c : SClause)
    (al : List Nat × Nat) (g : Rng) (h : SWronglySilent c j target) :
    sClauseUpdate cfg x j target c al g =
      ({ c with pos := prune cfg.lowerTA (sT1b cfg c.pos c.neg g).1,
                neg := prune cfg.lowerTA (sT1b cfg c.pos c.neg g).2.1 },
       al, (sT1b cfg c.pos c.neg g).2.2) := by
  obtain ⟨ho, ⟨rfl, hw⟩ | ⟨rfl, hw⟩⟩ := h
  · unfold sClauseUpdate
    simp only [ho, ge_iff_le, hw, if_true]
    rw [if_pos (by decide), if_neg (by decide)]
  · unfold sClauseUpdate
    have : ¬ (0 ≤ c.w.getD j 0) := by omega
    simp only [ho, ge_iff_le, this, if_true, if_false]
    rw [if_pos (by decide), if_neg (by decide)]

theorem sClauseUpdate_reject (cfg : SCfg) (x : List Nat) (j : Nat) (target : Int) (c : SClause)
    (al : List Nat × Nat) (g : Rng) (h : SWronglyFiring c j target) :
    sClauseUpdate cfg x j target c al g =
      ({ c with w := c.w.set j (wrap16 (c.w.getD j 0 + target)),
                pos := sortHalf (sT2 cfg x c.pos c.neg al.1 g).1,
                neg := sortHalf (sT2 cfg x c.pos c.neg al.1 g).2 }, al, g) := by
  obtain ⟨ho, ⟨rfl, hw⟩ | ⟨rfl, hw⟩⟩ := h
  · unfold sClauseUpdate
    have : ¬ (0 ≤ c.w.getD j 0) := by omega
    simp only [ho, ge_iff_le, this, if_false]
    rw [if_neg (by decide), if_pos (by decide)]
    simp [Int.sub_eq_add_neg]
  · unfold sClauseUpdate
    simp only [ho, ge_iff_le, hw, if_true]
    rw [if_neg (by decide), if_pos (by decide)]
    simp [Int.sub_eq_add_neg]

theorem sClauseUpdate_w (cfg : SCfg) (x : List Nat) (j : Nat) (t : Int) (c : SClause) (al : List Nat × Nat)
    (g : Rng) (ht : t = 1 ∨ t = -1) :
    (sClauseUpdate cfg x j t c al g).1.w = if c.out = 1 then bump j t c.w else c.w := by
  unfold sClauseUpdate bump
  dsimp only
  generalize c.w.getD j 0 = w
  rcases ht with rfl | rfl <;> by_cases ho : c.out = 1 <;> by_cases h0 : c.out = 0 <;> by_cases hw : w ≥ 0 <;>
    simp [ho, h0, hw, Int.sub_eq_add_neg]

theorem sClauseUpdate_out (cfg : SCfg) (x : List Nat) (j : Nat) (t : Int) (c : SClause) (al : List Nat × Nat)
    (g : Rng) : (sClauseUpdate cfg x j t c al g).1.out = c.out ∧ (sClauseUpdate cfg x j t c al g).1.cnt = c.cnt := by
  unfold sClauseUpdate
  dsimp only
  generalize c.w.getD j 0 = w
  repeat' split
  all_goals simp

theorem t1aLits_later (cfg : SCfg) (x : List Nat) (pos neg : Half) (al : List Nat × Nat) (g : Rng) :
    Later g (t1aLits cfg x pos neg al g).2.2.2 := by
  induction x generalizing pos neg al g with
  | nil => exact Later.refl g
  | cons l ls ih =>
    unfold t1aLits
    dsimp only
    exact ((updFirst_later (stepUp cfg) (fwd_up cfg) l pos g).trans
      (updFirst_later (stepDown cfg) (fwd_down cfg) l neg _)).trans (ih _ _ _ _)

theorem sClauseUpdate_later (cfg : SCfg) (x : List Nat) (j : Nat) (t : Int) (c : SClause) (al : List Nat × Nat)
    (g : Rng) : Later g (sClauseUpdate cfg x j t c al g).2.2 := by
  unfold sClauseUpdate
  dsimp only
  generalize c.w.getD j 0 = w
  repeat' split
  all_goals first
    | exact Later.refl g
    | (unfold sT1a
       exact ((t1aLits_later cfg x c.pos c.neg al g).trans
        (updAll_later _ _ (fwd_down cfg) _ _)).trans (updAll_later _ _ (fwd_up cfg) _ _))
    | (unfold sT1b
       exact (updAll_later _ _ (fwd_forget cfg) _ _).trans (updAll_later _ _ (fwd_forget cfg) _ _))

/-- Exact effect of one clause's update step on its weights; the second decision is a later draw. -/
theorem sTrainClause_w (cfg : SCfg) (x : List Nat) (fb : Feedback) (c : SClause) (al : AL) (g : Rng) :
    ∃ i, g.pos < i ∧ (sTrainClause cfg x fb c al g).1.w =
      (let w1 := if (sBudgetGate cfg c).out = 1 ∧ g.draw g.pos < fb.posProb
                 then bump fb.posClass 1 c.w else c.w
       if (sBudgetGate cfg c).out = 1 ∧ g.draw i < fb.negProb then bump fb.negClass (-1) w1 else w1) := by
  have hw := (sBudgetGate_rows cfg c).2.2
  unfold sTrainClause sUpdateWith
  simp only [show g.next.1 = g.draw g.pos from rfl]
  by_cases h1 : g.draw g.pos < fb.posProb
  · simp only [h1, if_true]
    have hl := sClauseUpdate_later cfg x fb.posClass 1 (sBudgetGate cfg c) (al.getD fb.posClass ([], 0)) g.next.2
    have e1 := sClauseUpdate_w cfg x fb.posClass 1 (sBudgetGate cfg c) (al.getD fb.posClass ([], 0)) g.next.2
      (Or.inl rfl)
    have e2 := sClauseUpdate_out cfg x fb.posClass 1 (sBudgetGate cfg c) (al.getD fb.posClass ([], 0)) g.next.2
    generalize sClauseUpdate cfg x fb.posClass 1 (sBudgetGate cfg c) (al.getD fb.posClass ([], 0)) g.next.2 = a
      at hl e1 e2 ⊢
    refine ⟨a.2.2.pos, ?_, ?_⟩
    · have := hl.2
      simp only [Rng.next] at this
      exact this
    · have hd : a.2.2.next.1 = g.draw a.2.2.pos := by
        have := hl.1
        simp only [Rng.next] at this ⊢
        rw [this]
      rw [hd]
      by_cases h2 : g.draw a.2.2.pos < fb.negProb
      · simp only [h2, if_true, sClauseUpdate_w, or_true, e2.1, e1, hw, and_true]
      · simp only [h2, if_false, e1, hw, and_true, and_false]
  · simp only [h1, if_false]
    refine ⟨g.pos + 1, by omega, ?_⟩
    rw [show g.next.2.next.1 = g.draw (g.pos + 1) from rfl]
    by_cases h2 : g.draw (g.pos + 1) < fb.negProb
    · simp only [h2, if_true, sClauseUpdate_w, or_true, hw, and_true, and_false, if_false]
    · simp only [h2, if_false, hw, and_false]

theorem sBudgetGate_out (cfg : SCfg) (c : SClause) :
    (sBudgetGate cfg c).out = 1 ↔ c.out = 1 ∧ ∀ b, cfg.budget = some b → c.cnt ≤ b := by
  unfold sBudgetGate
  split
  · rename_i b hb
    split
    · simp [hb]; omega
    · simp [hb]; omega
  · rename_i hb
    simp [hb]

theorem sTrainClause_later (cfg : SCfg) (x : List Nat) (fb : Feedback) (c : SClause) (al : AL) (g : Rng) :
    Later g (sTrainClause cfg x fb c al g).2.2 := by
  unfold sTrainClause sUpdateWith
  dsimp only
  have h1 : ∀ a : SClause × AL × Rng, Later g a.2.2 → Later g (if a.2.2.next.1 < fb.negProb then
      ((sClauseUpdate cfg x fb.negClass (-1) a.1 (a.2.1.getD fb.negClass ([], 0)) a.2.2.next.2).1,
        a.2.1.set fb.negClass (sClauseUpdate cfg x fb.negClass (-1) a.1 (a.2.1.getD fb.negClass ([], 0))
          a.2.2.next.2).2.1,
        (sClauseUpdate cfg x fb.negClass (-1) a.1 (a.2.1.getD fb.negClass ([], 0)) a.2.2.next.2).2.2)
      else (a.1, a.2.1, a.2.2.next.2)).2.2 := by
    intro a ha
    split
    · exact (ha.trans (later_next _)).trans (sClauseUpdate_later _ _ _ _ _ _ _)
    · exact ha.trans (later_next _)
  apply h1
  split
  · exact (later_next g).trans (sClauseUpdate_later _ _ _ _ _ _ _)
  · exact later_next g

theorem sTrainClauses_get (cfg : SCfg) (x : List Nat) (fb : Feedback) (cs : List SClause) (al : AL) (g : Rng)
    (i : Nat) (c : SClause) (hc : cs[i]? = some c) :
    ∃ al' g', Later g g' ∧ (sTrainClauses cfg x fb cs al g).1[i]? = some (sTrainClause cfg x fb c al' g').1 := by
  induction cs generalizing al g i with
  | nil => simp at hc
  | cons d cs ih =>
    unfold sTrainClauses
    dsimp only
    cases i with
    | zero =>
      simp at hc
      subst hc
      exact ⟨al, g, Later.refl g, by simp⟩
    | succ i =>
      obtain ⟨al', g', hl, he⟩ := ih (sTrainClause cfg x fb d al g).2.1 (sTrainClause cfg x fb d al g).2.2 i
        (by simpa using hc)
      exact ⟨al', g', (sTrainClause_later cfg x fb d al g).trans hl, by simpa using he⟩

/-- Every state of the new half is at most the old state of the same literal. -/
def NoGain (old new : Half) : Prop := ∀ t v', (t, v') ∈ new → ∃ v, (t, v) ∈ old ∧ v' ≤ v

theorem NoGain.refl (h : Half) : NoGain h h := fun _ v' hm => ⟨v', hm, Int.le_refl _⟩

theorem NoGain.trans {a b c : Half} (h : NoGain a b) (h' : NoGain b c) : NoGain a c := by
  intro t v' hm
  obtain ⟨v, hm, hv⟩ := h' t v' hm
  obtain ⟨u, hm, hu⟩ := h t v hm
  exact ⟨u, hm, by omega⟩

theorem sink_le (p u : Rat) (v : Int) : sink p u v ≤ v := by unfold sink; split <;> omega

theorem wrap8_le (v : Int) (h : -127 < v) : wrap8 (v - 1) ≤ v := by unfold wrap8; omega

theorem updAll_forget_noGain (cfg : SCfg) (h : Half) (g : Rng) :
    NoGain h (updAll (fun _ => true) (stepForget cfg) h g).1 := by
  induction h generalizing g with
  | nil => intro t v' hm; simp [updAll] at hm
  | cons e h ih =>
    intro t v' hm
    unfold updAll at hm
    simp only [if_true] at hm
    rcases List.mem_cons.mp hm with hm | hm
    · obtain ⟨rfl, rfl⟩ := Prod.mk.inj hm
      refine ⟨e.2, by simp, ?_⟩
      unfold stepForget
      split
      · rename_i h; exact wrap8_le _ h.2
      · exact Int.le_refl _
    · obtain ⟨v, h1, h2⟩ := ih _ t v' hm
      exact ⟨v, List.mem_cons_of_mem _ h1, h2⟩

theorem sClauseUpdate_silent (cfg : SCfg) (x : List Nat) (j : Nat) (t : Int) (c : SClause) (al : List Nat × Nat)
    (g : Rng) (ho : c.out ≠ 1) :
    NoGain c.pos (sClauseUpdate cfg x j t c al g).1.pos ∧ NoGain c.neg (sClauseUpdate cfg x j t c al g).1.neg ∧
    (sClauseUpdate cfg x j t c al g).1.w = c.w ∧ (sClauseUpdate cfg x j t c al g).2.1 = al := by
  have hp : ∀ (h : Half) (g : Rng),
      NoGain h (prune cfg.lowerTA (updAll (fun _ => true) (stepForget cfg) h g).1) := fun h g t v' hm =>
    updAll_forget_noGain cfg h g t v' ((prune_sublist _ _).subset hm)
  unfold sClauseUpdate
  dsimp only
  generalize c.w.getD j 0 = w
  simp only [ho, if_false, and_false]
  repeat' split
  all_goals first
    | exact ⟨NoGain.refl _, NoGain.refl _, rfl, rfl⟩
    | exact ⟨hp _ _, hp _ _, rfl, rfl⟩

theorem list_set_getD (al : AL) (j : Nat) : al.set j (al.getD j ([], 0)) = al := by
  apply List.ext_getElem?
  intro i
  rw [List.getElem?_set]
  split
  · rename_i h
    subst h
    split
    · rename_i h; simp [List.getD, h]
    · rename_i h; simp [h]
  · rfl

theorem sTrainClause_silent (cfg : SCfg) (x : List Nat) (fb : Feedback) (c : SClause) (al : AL) (g : Rng)
    (ho : (sBudgetGate cfg c).out ≠ 1) :
    NoGain c.pos (sTrainClause cfg x fb c al g).1.pos ∧ NoGain c.neg (sTrainClause cfg x fb c al g).1.neg ∧
    (sTrainClause cfg x fb c al g).1.w = c.w ∧ (sTrainClause cfg x fb c al g).2.1 = al := by
  have hr := sBudgetGate_rows cfg c
  unfold sTrainClause sUpdateWith
  dsimp only
  generalize hA : (if g.next.1 < fb.posProb then
      ((sClauseUpdate cfg x fb.posClass 1 (sBudgetGate cfg c) (al.getD fb.posClass ([], 0)) g.next.2).1,
        al.set fb.posClass (sClauseUpdate cfg x fb.posClass 1 (sBudgetGate cfg c) (al.getD fb.posClass ([], 0))
          g.next.2).2.1,
        (sClauseUpdate cfg x fb.posClass 1 (sBudgetGate cfg c) (al.getD fb.posClass ([], 0)) g.next.2).2.2)
      else (sBudgetGate cfg c, al, g.next.2)) = a
  have h1 : NoGain c.pos a.1.pos ∧ NoGain c.neg a.1.neg ∧ a.1.w = c.w ∧ a.2.1 = al ∧ a.1.out ≠ 1 := by
    subst hA
    split
    · obtain ⟨a, b, d, e⟩ := sClauseUpdate_silent cfg x fb.posClass 1 (sBudgetGate cfg c)
        (al.getD fb.posClass ([], 0)) g.next.2 ho
      dsimp only
      rw [hr.1] at a
      rw [hr.2.1] at b
      rw [hr.2.2] at d
      refine ⟨a, b, d, ?_, ?_⟩
      · rw [e, list_set_getD]
      · rw [(sClauseUpdate_out _ _ _ _ _ _ _).1]; exact ho
    · dsimp only
      rw [hr.1, hr.2.1, hr.2.2]
      exact ⟨NoGain.refl _, NoGain.refl _, rfl, rfl, ho⟩
  obtain ⟨i1, i2, i3, i4, i5⟩ := h1
  split
  · obtain ⟨a1, a2, a3, a4⟩ := sClauseUpdate_silent cfg x fb.negClass (-1) a.1
        (a.2.1.getD fb.negClass ([], 0)) a.2.2.next.2 i5
    refine ⟨i1.trans a1, i2.trans a2, a3.trans i3, ?_⟩
    dsimp only
    rw [a4, list_set_getD, i4]
  · exact ⟨i1, i2, i3, i4⟩

theorem sCountVotes_dense (n m : Nat) (cs : List SClause) :
    sCountVotes n cs = countVotes n (cs.map (denseClause m)) := by
  unfold sCountVotes countVotes
  rw [List.foldl_map]
  rfl

theorem sVoteSum_dense (m : Nat) (cs : List SClause) (k : Nat) :
    voteSum (cs.map (denseClause m)) k = sVoteSum cs k := by
  unfold voteSum sVoteSum
  rw [List.filter_map, List.map_map]
  rfl

theorem t1aLits_al_eq (cfg : SCfg) (x : List Nat) (pos neg : Half) (al : List Nat × Nat) (g : Rng) :
    (t1aLits cfg x pos neg al g).2.2.1 =
      (x.filter (fun l => !decide (l ∈ pos.map (·.1)))).foldl (updateAL cfg) al := by
  induction x generalizing pos neg al g with
  | nil => rfl
  | cons l ls ih =>
    unfold t1aLits
    dsimp only
    rw [ih, updFirst_lits, List.filter_cons]
    have := updFirst_found (stepUp cfg) l pos g
    by_cases hm : l ∈ pos.map (·.1)
    · rw [if_pos (this.mpr hm)]
      simp only [hm, decide_true, Bool.not_true]
      rfl
    · rw [if_neg (fun h => hm (this.mp h))]
      simp only [hm, decide_false, Bool.not_false, if_true]
      rfl

theorem track_room (cfg : SCfg) (l : Nat) (h : Half) :
    l ∈ (track cfg l h).map (·.1) ∨ cfg.clauseSize ≤ (track cfg l h).length := by
  unfold track
  split
  · left; assumption
  · split
    · left; simp
    · right; omega

theorem t2Active_room (cfg : SCfg) (x as : List Nat) (pos neg : Half) (a : Nat) (ha : a ∈ as) :
    (a ∉ x → a ∈ (t2Active cfg x as pos neg).1.map (·.1) ∨ cfg.clauseSize ≤ (t2Active cfg x as pos neg).1.length) ∧
    (a ∈ x → a ∈ (t2Active cfg x as pos neg).2.map (·.1) ∨ cfg.clauseSize ≤ (t2Active cfg x as pos neg).2.length) := by
  induction as generalizing pos neg with
  | nil => simp at ha
  | cons b as ih =>
    unfold t2Active
    by_cases hb : a = b
    · subst hb
      split
      · rename_i hx
        refine ⟨fun h => absurd hx h, fun _ => ?_⟩
        have hs := (t2Active_spec cfg x as pos (track cfg a neg)).2.2.2.2
        rcases track_room cfg a neg with h | h
        · exact Or.inl ((hs.map _).subset h)
        · exact Or.inr (Nat.le_trans h hs.length_le)
      · rename_i hx
        refine ⟨fun _ => ?_, fun h => absurd h hx⟩
        have hs := (t2Active_spec cfg x as (track cfg a pos) neg).2.2.2.1
        rcases track_room cfg a pos with h | h
        · exact Or.inl ((hs.map _).subset h)
        · exact Or.inr (Nat.le_trans h hs.length_le)
    · have ha' := (List.mem_cons.mp ha).resolve_left hb
      split
      · exact ih pos (track cfg b neg) ha'
      · exact ih (track cfg b pos) neg ha'

end GT

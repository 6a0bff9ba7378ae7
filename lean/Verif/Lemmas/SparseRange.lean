import Verif.Lemmas.SparseTrain

/-!
# Lemmas about the range of sparse states
-/

namespace GT
open Spec

/-- All states of the half are between `lo` and 127. -/
def HIn (lo : Int) (h : Half) : Prop := ∀ e ∈ h, lo ≤ e.2 ∧ e.2 ≤ 127

/-- A state update that stays between `lo` and 127. -/
def Stays (lo : Int) (f : Int → Rng → Int × Rng) : Prop :=
  ∀ v g, lo ≤ v ∧ v ≤ 127 → lo ≤ (f v g).1 ∧ (f v g).1 ≤ 127

theorem stays_up (lo : Int) (h1 : -128 ≤ lo) (cfg : SCfg) : Stays lo (stepUp cfg) := by
  rintro v g ⟨a, b⟩
  rw [stepUp_eq cfg v g (by omega)]
  unfold climb
  split <;> omega

theorem stays_down (lo : Int) (h2 : lo ≤ -127) (cfg : SCfg) : Stays lo (stepDown cfg) := by
  rintro v g ⟨a, b⟩
  rw [stepDown_eq cfg v g (by omega)]
  unfold sink
  split <;> omega

theorem stays_forget (lo : Int) (h2 : lo ≤ -127) (cfg : SCfg) : Stays lo (stepForget cfg) := by
  rintro v g ⟨a, b⟩
  rw [stepForget_eq cfg v g (by omega)]
  unfold sink
  split <;> omega

theorem stays_reject (lo : Int) (h1 : -128 ≤ lo) : Stays lo stepReject := by
  rintro v g ⟨a, b⟩
  rw [stepReject_eq v g (by omega)]
  split <;> omega

theorem updFirst_in (lo : Int) (f : Int → Rng → Int × Rng) (hf : Stays lo f) (l : Nat) (h : Half) (g : Rng)
    (hh : HIn lo h) : HIn lo (updFirst f l h g).1 := by
  induction h with
  | nil => exact hh
  | cons e h ih =>
    have h1 := hh e (by simp)
    have h2 : HIn lo h := fun a ha => hh a (List.mem_cons_of_mem _ ha)
    unfold updFirst
    split
    · intro a ha
      rcases List.mem_cons.mp ha with ha | ha
      · subst ha; exact hf _ _ h1
      · exact h2 a ha
    · intro a ha
      rcases List.mem_cons.mp ha with ha | ha
      · subst ha; exact h1
      · exact ih h2 a ha

theorem updAll_in (lo : Int) (p : Nat → Bool) (f : Int → Rng → Int × Rng) (hf : Stays lo f) (h : Half) (g : Rng)
    (hh : HIn lo h) : HIn lo (updAll p f h g).1 := by
  induction h generalizing g with
  | nil => exact hh
  | cons e h ih =>
    have h1 := hh e (by simp)
    have h2 : HIn lo h := fun a ha => hh a (List.mem_cons_of_mem _ ha)
    unfold updAll
    split
    · intro a ha
      rcases List.mem_cons.mp ha with ha | ha
      · subst ha; exact hf _ _ h1
      · exact ih _ h2 a ha
    · intro a ha
      rcases List.mem_cons.mp ha with ha | ha
      · subst ha; exact h1
      · exact ih _ h2 a ha

theorem t1aLits_in (lo : Int) (h1 : -128 ≤ lo) (h2 : lo ≤ -127) (cfg : SCfg) (x : List Nat) (pos neg : Half)
    (al : List Nat × Nat) (g : Rng) (hp : HIn lo pos) (hq : HIn lo neg) :
    HIn lo (t1aLits cfg x pos neg al g).1 ∧ HIn lo (t1aLits cfg x pos neg al g).2.1 := by
  induction x generalizing pos neg al g with
  | nil => exact ⟨hp, hq⟩
  | cons l ls ih =>
    unfold t1aLits
    dsimp only
    exact ih _ _ _ _ (updFirst_in lo _ (stays_up lo h1 cfg) l pos g hp)
      (updFirst_in lo _ (stays_down lo h2 cfg) l neg _ hq)

theorem sClauseUpdate_in (lo : Int) (h1 : -128 ≤ lo) (h2 : lo ≤ -127) (cfg : SCfg)
    (hst : lo ≤ wrap8 (cfg.lowerTA + 5) ∧ wrap8 (cfg.lowerTA + 5) ≤ 127) (x : List Nat) (j : Nat) (t : Int)
    (c : SClause) (al : List Nat × Nat) (g : Rng) (hp : HIn lo c.pos) (hq : HIn lo c.neg) :
    HIn lo (sClauseUpdate cfg x j t c al g).1.pos ∧ HIn lo (sClauseUpdate cfg x j t c al g).1.neg := by
  have hpr : ∀ h, HIn lo h → HIn lo (prune cfg.lowerTA h) := fun h hh e he =>
    hh e ((prune_sublist _ _).subset he)
  unfold sClauseUpdate
  dsimp only
  generalize c.w.getD j 0 = w
  repeat' split
  all_goals first
    | exact ⟨hp, hq⟩
    | skip
  all_goals first
    | (obtain ⟨a, b⟩ := t1aLits_in lo h1 h2 cfg x c.pos c.neg al g hp hq
       exact ⟨hpr _ (updAll_in lo _ _ (stays_down lo h2 cfg) _ _ a),
        hpr _ (updAll_in lo _ _ (stays_up lo h1 cfg) _ _ b)⟩)
    | exact ⟨hpr _ (updAll_in lo _ _ (stays_forget lo h2 cfg) _ _ hp),
        hpr _ (updAll_in lo _ _ (stays_forget lo h2 cfg) _ _ hq)⟩
    | (have p1 := (sortHalf_spec (sT2 cfg x c.pos c.neg al.1 g).1).1
       have p2 := (sortHalf_spec (sT2 cfg x c.pos c.neg al.1 g).2).1
       obtain ⟨_, _, ⟨m1, m2⟩, _⟩ := t2Active_spec cfg x al.1
        (updAll (fun l => !decide (l ∈ x)) stepReject c.pos g).1 (updAll (fun l => decide (l ∈ x)) stepReject c.neg g).1
       constructor
       · intro e he
         rcases m1 e (p1.subset he) with h | h
         · exact updAll_in lo _ _ (stays_reject lo h1) c.pos g hp e h
         · rw [h.2.2]; exact hst
       · intro e he
         rcases m2 e (p2.subset he) with h | h
         · exact updAll_in lo _ _ (stays_reject lo h1) c.neg g hq e h
         · rw [h.2.2]; exact hst)

theorem sTrainClause_in (lo : Int) (h1 : -128 ≤ lo) (h2 : lo ≤ -127) (cfg : SCfg)
    (hst : lo ≤ wrap8 (cfg.lowerTA + 5) ∧ wrap8 (cfg.lowerTA + 5) ≤ 127) (x : List Nat) (fb : Feedback)
    (c : SClause) (al : AL) (g : Rng) (hp : HIn lo c.pos) (hq : HIn lo c.neg) :
    HIn lo (sTrainClause cfg x fb c al g).1.pos ∧ HIn lo (sTrainClause cfg x fb c al g).1.neg := by
  have hr := sBudgetGate_rows cfg c
  unfold sTrainClause sUpdateWith
  dsimp only
  generalize hA : (if g.next.1 < fb.posProb then
      ((sClauseUpdate cfg x fb.posClass 1 (sBudgetGate cfg c) (al.getD fb.posClass ([], 0)) g.next.2).1,
        al.set fb.posClass (sClauseUpdate cfg x fb.posClass 1 (sBudgetGate cfg c) (al.getD fb.posClass ([], 0))
          g.next.2).2.1,
        (sClauseUpdate cfg x fb.posClass 1 (sBudgetGate cfg c) (al.getD fb.posClass ([], 0)) g.next.2).2.2)
      else (sBudgetGate cfg c, al, g.next.2)) = a
  have hc : HIn lo a.1.pos ∧ HIn lo a.1.neg := by
    subst hA
    split
    · exact sClauseUpdate_in lo h1 h2 cfg hst _ _ _ _ _ _ (hr.1 ▸ hp) (hr.2.1 ▸ hq)
    · dsimp only; rw [hr.1, hr.2.1]; exact ⟨hp, hq⟩
  split
  · exact sClauseUpdate_in lo h1 h2 cfg hst _ _ _ _ _ _ hc.1 hc.2
  · exact hc

theorem sTrainClauses_in (lo : Int) (h1 : -128 ≤ lo) (h2 : lo ≤ -127) (cfg : SCfg)
    (hst : lo ≤ wrap8 (cfg.lowerTA + 5) ∧ wrap8 (cfg.lowerTA + 5) ≤ 127) (x : List Nat) (fb : Feedback)
    (cs : List SClause) (al : AL) (g : Rng) (h : ∀ c ∈ cs, HIn lo c.pos ∧ HIn lo c.neg) :
    ∀ c ∈ (sTrainClauses cfg x fb cs al g).1, HIn lo c.pos ∧ HIn lo c.neg := by
  induction cs generalizing al g with
  | nil => intro c hc; simp [sTrainClauses] at hc
  | cons d cs ih =>
    intro c hc
    unfold sTrainClauses at hc
    dsimp only at hc
    rcases List.mem_cons.mp hc with hc | hc
    · subst hc
      have := h d (by simp)
      exact sTrainClause_in lo h1 h2 cfg hst x fb d al g this.1 this.2
    · exact ih _ _ (fun c hc => h c (List.mem_cons_of_mem _ hc)) c hc

theorem apply_in (lo : Int) (h1 : -128 ≤ lo) (h2 : lo ≤ -127) (b : SBlock)
    (hst : lo ≤ wrap8 (b.cfg.lowerTA + 5) ∧ wrap8 (b.cfg.lowerTA + 5) ≤ 127) (op : BlockOp)
    (h : ∀ c ∈ b.clauses, HIn lo c.pos ∧ HIn lo c.neg) :
    ∀ c ∈ (b.apply op).clauses, HIn lo c.pos ∧ HIn lo c.neg := by
  intro c hc
  cases op with
  | trainExample x =>
    simp only [SBlock.apply] at hc
    obtain ⟨c', hc', rfl⟩ := List.mem_map.mp hc
    have hr := sSetClause_rows b.cfg x c'
    rw [hr.1, hr.2.1]; exact h c' hc'
  | evalExample x =>
    simp only [SBlock.apply] at hc
    obtain ⟨c', hc', rfl⟩ := List.mem_map.mp hc
    have hr := sEvalClause_rows x c'
    rw [hr.1, hr.2.1]; exact h c' hc'
  | trainUpdate x fb =>
    exact sTrainClauses_in lo h1 h2 b.cfg hst x fb b.clauses b.al b.fast h c hc

theorem run_in (lo : Int) (h1 : -128 ≤ lo) (h2 : lo ≤ -127) (b : SBlock)
    (hst : lo ≤ wrap8 (b.cfg.lowerTA + 5) ∧ wrap8 (b.cfg.lowerTA + 5) ≤ 127) (ops : List BlockOp)
    (h : ∀ c ∈ b.clauses, HIn lo c.pos ∧ HIn lo c.neg) :
    ∀ c ∈ (sRun b ops).clauses, HIn lo c.pos ∧ HIn lo c.neg := by
  induction ops generalizing b with
  | nil => exact h
  | cons op ops ih =>
    have hcfg : (b.apply op).cfg = b.cfg := by cases op <;> rfl
    exact ih (b.apply op) (by rw [hcfg]; exact hst) (apply_in lo h1 h2 b hst op h)

end GT

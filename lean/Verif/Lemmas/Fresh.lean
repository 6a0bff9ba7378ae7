import Verif.Spec.Fresh
import Verif.Lemmas.Conv
import Verif.Lemmas.AvxFlat

/-! # Lemmas for C75 -/

namespace GT.Fresh
open GT Spec

/-! ### Lists of clauses that look the same -/

theorem map_eq_cons {α β : Type} {f : α → β} {a : α} {as bs : List α} (h : (a :: as).map f = bs.map f) :
    ∃ b bs', bs = b :: bs' ∧ f a = f b ∧ as.map f = bs'.map f := by
  cases bs with
  | nil => simp at h
  | cons b bs =>
    simp only [List.map_cons, List.cons.injEq] at h
    exact ⟨b, bs, rfl, h.1, h.2⟩

theorem map_eq_nil {α β : Type} {f : α → β} {bs : List α} (h : ([] : List α).map f = bs.map f) : bs = [] := by
  cases bs with
  | nil => rfl
  | cons b bs => simp at h

theorem map_congr_of {α β γ : Type} {f : α → β} {F G : α → γ} : ∀ (as bs : List α), as.map f = bs.map f →
    (∀ a b, f a = f b → F a = G b) → as.map F = bs.map G := by
  intro as
  induction as with
  | nil => intro bs h _; rw [map_eq_nil h]; rfl
  | cons a as ih =>
    intro bs h hF
    obtain ⟨b, bs, rfl, h1, h2⟩ := map_eq_cons h
    rw [List.map_cons, List.map_cons, hF a b h1, ih bs h2 hF]

/-! ### The portable block -/

theorem seen_iff (c d : Clause) : shown c = shown d ↔ d = { c with cnt := d.cnt } := by
  obtain ⟨p, q, w, o, n⟩ := c
  obtain ⟨p', q', w', o', n'⟩ := d
  simp only [shown, Clause.mk.injEq, and_true]
  constructor <;> rintro ⟨rfl, rfl, rfl, rfl⟩ <;> exact ⟨rfl, rfl, rfl, rfl⟩

theorem countVotes_seen (n : Nat) : ∀ (cs ds : List Clause), cs.map shown = ds.map shown → countVotes n cs = countVotes n ds := by
  unfold countVotes
  generalize List.replicate n (0 : Int) = v
  intro cs
  induction cs generalizing v with
  | nil => intro ds h; rw [map_eq_nil h]
  | cons c cs ih =>
    intro ds h
    obtain ⟨d, ds, rfl, h1, h2⟩ := map_eq_cons h
    rw [seen_iff] at h1
    rw [List.foldl_cons, List.foldl_cons, h1]
    exact ih _ ds h2

theorem setOut_seen (cfg : Cfg) (x : List Nat) (c d : Clause) (h : shown c = shown d) :
    shown (setOutClause cfg x c) = shown (setOutClause cfg x d) ∧
      (cfg.budget.isSome = true → setOutClause cfg x c = setOutClause cfg x d) := by
  rw [seen_iff] at h
  rw [h]
  refine ⟨rfl, ?_⟩
  intro hb
  simp only [setOutClause, hb, if_true]

theorem evalOut_seen (x : List Nat) (c d : Clause) (h : shown c = shown d) : shown (evalOutClause x c) = shown (evalOutClause x d) := by
  rw [seen_iff] at h
  rw [h]
  rfl

theorem clauseUpdate_cnt (cfg : Cfg) (x : List Nat) (j : Nat) (t : Int) (c : Clause) (g : Rng) (k : Nat) :
    clauseUpdate cfg x j t { c with cnt := k } g =
      ({ (clauseUpdate cfg x j t c g).1 with cnt := k }, (clauseUpdate cfg x j t c g).2) := by
  simp only [clauseUpdate]
  generalize (if c.w.getD j 0 ≥ 0 then (1 : Int) else -1) = sign
  split
  · split <;> rfl
  · split <;> rfl

theorem trainClause_cnt (cfg : Cfg) (hb : cfg.budget = none) (x : List Nat) (fb : Feedback) (c : Clause) (f g : Rng) (k : Nat) :
    trainClause cfg x fb { c with cnt := k } f g =
      ({ (trainClause cfg x fb c f g).1 with cnt := k }, (trainClause cfg x fb c f g).2) := by
  simp only [trainClause, budgetGate, hb]
  by_cases h1 : f.next.1 < fb.posProb
  · simp only [h1, if_true, clauseUpdate_cnt]
    split <;> rfl
  · simp only [h1, if_false, clauseUpdate_cnt]
    split <;> rfl

theorem trainClauses_seen (cfg : Cfg) (hb : cfg.budget = none) (x : List Nat) (fb : Feedback) :
    ∀ (cs ds : List Clause) (f g : Rng), cs.map shown = ds.map shown →
      (trainClauses cfg x fb cs f g).1.map shown = (trainClauses cfg x fb ds f g).1.map shown ∧
      (trainClauses cfg x fb cs f g).2 = (trainClauses cfg x fb ds f g).2 := by
  intro cs
  induction cs with
  | nil => intro ds f g h; rw [map_eq_nil h]; exact ⟨rfl, rfl⟩
  | cons c cs ih =>
    intro ds f g h
    obtain ⟨d, ds, rfl, h1, h2⟩ := map_eq_cons h
    rw [seen_iff] at h1
    have e := trainClause_cnt cfg hb x fb c f g d.cnt
    rw [← h1] at e
    obtain ⟨i1, i2⟩ := ih ds (trainClause cfg x fb c f g).2.1 (trainClause cfg x fb c f g).2.2 h2
    simp only [trainClauses, e, List.map_cons]
    rw [i1, i2]
    exact ⟨rfl, rfl⟩

/-- Two portable blocks that differ at most in their literal counters. -/
structure DLike (b d : DBlock) : Prop where
  nClasses : d.nClasses = b.nClasses
  cfg      : d.cfg = b.cfg
  clauses  : b.clauses.map shown = d.clauses.map shown
  votes    : d.votes = b.votes
  fast     : d.fast = b.fast
  rng      : d.rng = b.rng

theorem dstep_like {b d : DBlock} (h : DLike b d) (s : DStep) : DLike (b.run s.ops) (d.run s.ops) := by
  cases s with
  | eval x =>
    have hc : (b.clauses.map (evalOutClause x)).map shown = (d.clauses.map (evalOutClause x)).map shown := by
      rw [List.map_map, List.map_map]
      exact map_congr_of _ _ h.clauses fun a b hab => evalOut_seen x a b hab
    exact ⟨h.nClasses, h.cfg, hc, by
      show countVotes d.nClasses (d.clauses.map (evalOutClause x)) = countVotes b.nClasses (b.clauses.map (evalOutClause x))
      rw [h.nClasses]; exact (countVotes_seen _ _ _ hc).symm, h.fast, h.rng⟩
  | train x fb =>
    have hc : (b.clauses.map (setOutClause b.cfg x)).map shown = (d.clauses.map (setOutClause b.cfg x)).map shown := by
      rw [List.map_map, List.map_map]
      exact map_congr_of _ _ h.clauses fun a c hab => (setOut_seen b.cfg x a c hab).1
    have hv : countVotes d.nClasses (d.clauses.map (setOutClause d.cfg x)) = countVotes b.nClasses (b.clauses.map (setOutClause b.cfg x)) := by
      rw [h.nClasses, h.cfg]; exact (countVotes_seen _ _ _ hc).symm
    have ht : (trainClauses b.cfg x fb (b.clauses.map (setOutClause b.cfg x)) b.fast b.rng).1.map shown =
        (trainClauses d.cfg x fb (d.clauses.map (setOutClause d.cfg x)) d.fast d.rng).1.map shown ∧
        (trainClauses b.cfg x fb (b.clauses.map (setOutClause b.cfg x)) b.fast b.rng).2 =
        (trainClauses d.cfg x fb (d.clauses.map (setOutClause d.cfg x)) d.fast d.rng).2 := by
      rw [h.cfg, h.fast, h.rng]
      cases hb : b.cfg.budget with
      | none => exact trainClauses_seen b.cfg hb x fb _ _ _ _ hc
      | some v =>
        have : b.clauses.map (setOutClause b.cfg x) = d.clauses.map (setOutClause b.cfg x) :=
          map_congr_of _ _ h.clauses fun a c hab => (setOut_seen b.cfg x a c hab).2 (by simp [hb])
        rw [this]
        exact ⟨rfl, rfl⟩
    exact ⟨h.nClasses, h.cfg, ht.1, hv, congrArg Prod.fst ht.2.symm, congrArg Prod.snd ht.2.symm⟩

theorem run_append (b : DBlock) (p q : List BlockOp) : b.run (p ++ q) = (b.run p).run q := List.foldl_append

theorem dsteps_like : ∀ (ss : List DStep) (b d : DBlock), DLike b d → DLike (b.run (ss.flatMap DStep.ops)) (d.run (ss.flatMap DStep.ops)) := by
  intro ss
  induction ss with
  | nil => intro b d h; exact h
  | cons s ss ih =>
    intro b d h
    rw [List.flatMap_cons, run_append, run_append]
    exact ih _ _ (dstep_like h s)

theorem mapIdx_map_congr {α β γ : Type} (f : β → γ) : ∀ (l : List α) (F G : Nat → α → β), (∀ i a, f (F i a) = f (G i a)) →
    (l.mapIdx F).map f = (l.mapIdx G).map f := by
  intro l
  induction l with
  | nil => intro F G _; rfl
  | cons a l ih =>
    intro F G h
    rw [List.mapIdx_cons, List.mapIdx_cons, List.map_cons, List.map_cons, h, ih _ _ fun i a => h (i + 1) a]

theorem map_mapIdx {α β γ : Type} (f : β → γ) (F : Nat → α → β) (l : List α) : (l.mapIdx F).map f = l.mapIdx fun i a => f (F i a) := by
  apply List.ext_getElem?
  intro i
  simp only [List.getElem?_map, List.getElem?_mapIdx, Option.map_map]
  rfl

theorem initTM_like (nLits nClauses nClasses : Nat) (cfg : Cfg) (fastOf rngOf : Nat → Rng) (junk junk' : Nat → Nat) (seed : Nat)
    (hs : seed ≠ 0) : ∃ b d, initTM nLits nClauses nClasses cfg fastOf rngOf junk seed = some b ∧
      initTM nLits nClauses nClasses cfg fastOf rngOf junk' seed = some d ∧ DLike b d := by
  unfold initTM
  rw [if_neg hs, if_neg hs]
  exact ⟨_, _, rfl, rfl, rfl, rfl, mapIdx_map_congr _ _ _ _ fun _ _ => rfl, rfl, rfl, rfl⟩

/-! ### The sparse block -/

theorem shownS_iff (c d : SClause) : shownS c = shownS d ↔ d = { c with cnt := d.cnt } := by
  obtain ⟨p, q, w, o, n⟩ := c
  obtain ⟨p', q', w', o', n'⟩ := d
  simp only [shownS, SClause.mk.injEq, and_true]
  constructor <;> rintro ⟨rfl, rfl, rfl, rfl⟩ <;> exact ⟨rfl, rfl, rfl, rfl⟩

theorem sCountVotes_seen (n : Nat) : ∀ (cs ds : List SClause), cs.map shownS = ds.map shownS → sCountVotes n cs = sCountVotes n ds := by
  unfold sCountVotes
  generalize List.replicate n (0 : Int) = v
  intro cs
  induction cs generalizing v with
  | nil => intro ds h; rw [map_eq_nil h]
  | cons c cs ih =>
    intro ds h
    obtain ⟨d, ds, rfl, h1, h2⟩ := map_eq_cons h
    rw [shownS_iff] at h1
    rw [List.foldl_cons, List.foldl_cons, h1]
    exact ih _ ds h2

theorem sSet_seen (cfg : SCfg) (x : List Nat) (c d : SClause) (h : shownS c = shownS d) :
    shownS (sSetClause cfg x c) = shownS (sSetClause cfg x d) ∧
      (cfg.budget.isSome = true → sSetClause cfg x c = sSetClause cfg x d) := by
  rw [shownS_iff] at h
  rw [h]
  constructor
  · simp only [sSetClause]
    split <;> rfl
  · intro hb
    simp only [sSetClause, hb, if_true]

theorem sEval_seen (x : List Nat) (c d : SClause) (h : shownS c = shownS d) : shownS (sEvalClause x c) = shownS (sEvalClause x d) := by
  rw [shownS_iff] at h
  rw [h]
  simp only [sEvalClause]
  split <;> rfl

theorem sClauseUpdate_cnt (cfg : SCfg) (x : List Nat) (j : Nat) (t : Int) (c : SClause) (al : List Nat × Nat) (g : Rng) (k : Nat) :
    sClauseUpdate cfg x j t { c with cnt := k } al g =
      ({ (sClauseUpdate cfg x j t c al g).1 with cnt := k }, (sClauseUpdate cfg x j t c al g).2) := by
  simp only [sClauseUpdate]
  generalize (if c.w.getD j 0 ≥ 0 then (1 : Int) else -1) = sign
  split
  · split
    · rfl
    · split <;> rfl
  · split <;> rfl

theorem sTrainClause_cnt (cfg : SCfg) (hb : cfg.budget = none) (x : List Nat) (fb : Feedback) (c : SClause) (al : AL) (g : Rng) (k : Nat) :
    sTrainClause cfg x fb { c with cnt := k } al g =
      ({ (sTrainClause cfg x fb c al g).1 with cnt := k }, (sTrainClause cfg x fb c al g).2) := by
  simp only [sTrainClause, sBudgetGate, hb, sUpdateWith]
  by_cases h1 : g.next.1 < fb.posProb
  · simp only [h1, if_true, sClauseUpdate_cnt]
    split <;> rfl
  · simp only [h1, if_false, sClauseUpdate_cnt]
    split <;> rfl

theorem sTrainClauses_seen (cfg : SCfg) (hb : cfg.budget = none) (x : List Nat) (fb : Feedback) :
    ∀ (cs ds : List SClause) (al : AL) (g : Rng), cs.map shownS = ds.map shownS →
      (sTrainClauses cfg x fb cs al g).1.map shownS = (sTrainClauses cfg x fb ds al g).1.map shownS ∧
      (sTrainClauses cfg x fb cs al g).2 = (sTrainClauses cfg x fb ds al g).2 := by
  intro cs
  induction cs with
  | nil => intro ds al g h; rw [map_eq_nil h]; exact ⟨rfl, rfl⟩
  | cons c cs ih =>
    intro ds al g h
    obtain ⟨d, ds, rfl, h1, h2⟩ := map_eq_cons h
    rw [shownS_iff] at h1
    have e := sTrainClause_cnt cfg hb x fb c al g d.cnt
    rw [← h1] at e
    obtain ⟨i1, i2⟩ := ih ds (sTrainClause cfg x fb c al g).2.1 (sTrainClause cfg x fb c al g).2.2 h2
    simp only [sTrainClauses, e, List.map_cons]
    rw [i1, i2]
    exact ⟨rfl, rfl⟩

/-- Two sparse blocks that differ at most in their literal counters. -/
structure SLike (b d : SBlock) : Prop where
  nClasses : d.nClasses = b.nClasses
  cfg      : d.cfg = b.cfg
  clauses  : b.clauses.map shownS = d.clauses.map shownS
  al       : d.al = b.al
  votes    : d.votes = b.votes
  fast     : d.fast = b.fast

theorem sstep_like {b d : SBlock} (h : SLike b d) (s : DStep) : SLike (s.ops.foldl SBlock.apply b) (s.ops.foldl SBlock.apply d) := by
  cases s with
  | eval x =>
    have hc : (b.clauses.map (sEvalClause x)).map shownS = (d.clauses.map (sEvalClause x)).map shownS := by
      rw [List.map_map, List.map_map]
      exact map_congr_of _ _ h.clauses fun a b hab => sEval_seen x a b hab
    exact ⟨h.nClasses, h.cfg, hc, h.al, by
      show sCountVotes d.nClasses (d.clauses.map (sEvalClause x)) = sCountVotes b.nClasses (b.clauses.map (sEvalClause x))
      rw [h.nClasses]; exact (sCountVotes_seen _ _ _ hc).symm, h.fast⟩
  | train x fb =>
    have hc : (b.clauses.map (sSetClause b.cfg x)).map shownS = (d.clauses.map (sSetClause b.cfg x)).map shownS := by
      rw [List.map_map, List.map_map]
      exact map_congr_of _ _ h.clauses fun a c hab => (sSet_seen b.cfg x a c hab).1
    have hv : sCountVotes d.nClasses (d.clauses.map (sSetClause d.cfg x)) = sCountVotes b.nClasses (b.clauses.map (sSetClause b.cfg x)) := by
      rw [h.nClasses, h.cfg]; exact (sCountVotes_seen _ _ _ hc).symm
    have ht : (sTrainClauses b.cfg x fb (b.clauses.map (sSetClause b.cfg x)) b.al b.fast).1.map shownS =
        (sTrainClauses d.cfg x fb (d.clauses.map (sSetClause d.cfg x)) d.al d.fast).1.map shownS ∧
        (sTrainClauses b.cfg x fb (b.clauses.map (sSetClause b.cfg x)) b.al b.fast).2 =
        (sTrainClauses d.cfg x fb (d.clauses.map (sSetClause d.cfg x)) d.al d.fast).2 := by
      rw [h.cfg, h.fast, h.al]
      cases hb : b.cfg.budget with
      | none => exact sTrainClauses_seen b.cfg hb x fb _ _ _ _ hc
      | some v =>
        have : b.clauses.map (sSetClause b.cfg x) = d.clauses.map (sSetClause b.cfg x) :=
          map_congr_of _ _ h.clauses fun a c hab => (sSet_seen b.cfg x a c hab).2 (by simp [hb])
        rw [this]
        exact ⟨rfl, rfl⟩
    exact ⟨h.nClasses, h.cfg, ht.1, congrArg Prod.fst ht.2.symm, hv, congrArg Prod.snd ht.2.symm⟩

theorem ssteps_like : ∀ (ss : List DStep) (b d : SBlock), SLike b d →
    SLike ((ss.flatMap DStep.ops).foldl SBlock.apply b) ((ss.flatMap DStep.ops).foldl SBlock.apply d) := by
  intro ss
  induction ss with
  | nil => intro b d h; exact h
  | cons s ss ih =>
    intro b d h
    rw [List.flatMap_cons, List.foldl_append, List.foldl_append]
    exact ih _ _ (sstep_like h s)

theorem initSparse_like (nLits nClauses nClasses : Nat) (cfg : SCfg) (fastOf : Nat → Rng) (junk junk' : Nat → Nat) (seed : Nat)
    (hs : seed ≠ 0) (hb : cfg.budget ≠ some 0) : ∃ b d, initSparse nLits nClauses nClasses cfg fastOf junk seed = some b ∧
      initSparse nLits nClauses nClasses cfg fastOf junk' seed = some d ∧ SLike b d := by
  unfold initSparse
  rw [if_neg hs, if_neg hs, if_neg hb, if_neg hb]
  exact ⟨_, _, rfl, rfl, rfl, rfl, mapIdx_map_congr _ _ _ _ fun _ _ => rfl, rfl, rfl, rfl⟩

/-! ### The NEON block -/

theorem shownV_iff (c d : VClause) : shownV c = shownV d ↔ d = { c with cnt := d.cnt } := by
  obtain ⟨p, w, o, n⟩ := c
  obtain ⟨p', w', o', n'⟩ := d
  simp only [shownV, VClause.mk.injEq, and_true]
  constructor <;> rintro ⟨rfl, rfl, rfl⟩ <;> exact ⟨rfl, rfl, rfl⟩

theorem neonSet_seen (cfg : VCfg) (lits : Mem) (c d : VClause) (h : shownV c = shownV d) :
    neonSetClause cfg lits c = neonSetClause cfg lits d := by
  rw [shownV_iff] at h
  rw [h]
  simp only [neonSetClause]

theorem neonEval_cnt (cfg : VCfg) (lits : Mem) (act : Bool) (c : VClause) (k : Nat) :
    neonEvalClause cfg lits act { c with cnt := k } =
      ({ (neonEvalClause cfg lits act c).1 with cnt := k }, (neonEvalClause cfg lits act c).2) := by
  simp only [neonEvalClause]
  split
  · rfl
  · split <;> rfl

theorem neonEvals_seen (cfg : VCfg) (lits : Mem) : ∀ (cs ds : List VClause) (act : Bool), cs.map shownV = ds.map shownV →
    (neonEvalClauses cfg lits act cs).map shownV = (neonEvalClauses cfg lits act ds).map shownV := by
  intro cs
  induction cs with
  | nil => intro ds act h; rw [map_eq_nil h]
  | cons c cs ih =>
    intro ds act h
    obtain ⟨d, ds, rfl, h1, h2⟩ := map_eq_cons h
    rw [shownV_iff] at h1
    have e := neonEval_cnt cfg lits act c d.cnt
    rw [← h1] at e
    simp only [neonEvalClauses, e, List.map_cons]
    rw [ih ds _ h2]
    rfl

theorem neonCountVotes_seen (n : Nat) : ∀ (cs ds : List VClause), cs.map shownV = ds.map shownV → neonCountVotes n cs = neonCountVotes n ds := by
  unfold neonCountVotes
  generalize List.replicate n (0 : Int) = v
  intro cs
  induction cs generalizing v with
  | nil => intro ds h; rw [map_eq_nil h]
  | cons c cs ih =>
    intro ds h
    obtain ⟨d, ds, rfl, h1, h2⟩ := map_eq_cons h
    rw [shownV_iff] at h1
    rw [List.foldl_cons, List.foldl_cons, h1]
    exact ih _ ds h2

/-- Two NEON blocks that differ at most in their literal counters. -/
structure NLike (b d : NBlock) : Prop where
  nClasses : d.nClasses = b.nClasses
  cfg      : d.cfg = b.cfg
  clauses  : b.clauses.map shownV = d.clauses.map shownV
  votes    : d.votes = b.votes
  fast     : d.fast = b.fast
  vrng     : d.vrng = b.vrng

/-- Both crashed, or two blocks that look the same. -/
def NLike? : Option NBlock → Option NBlock → Prop
  | none, none => True
  | some b, some d => NLike b d
  | _, _ => False

theorem nstep_like {b d : NBlock} (h : NLike b d) (s : Step) : NLike? (neonStep b s) (neonStep d s) := by
  have hnil : b.clauses ≠ [] ↔ d.clauses ≠ [] := by
    have := congrArg List.length h.clauses
    rw [List.length_map, List.length_map] at this
    rw [← List.length_pos_iff, ← List.length_pos_iff, this]
  cases s with
  | eval l =>
    have hc := neonEvals_seen b.cfg l _ _ false h.clauses
    show NLike _ _
    refine ⟨h.nClasses, h.cfg, ?_, ?_, h.fast, h.vrng⟩
    · show (neonEvalClauses b.cfg l false b.clauses).map shownV = (neonEvalClauses d.cfg l false d.clauses).map shownV
      rw [h.cfg]; exact hc
    · show neonCountVotes d.nClasses (neonEvalClauses d.cfg l false d.clauses) = neonCountVotes b.nClasses (neonEvalClauses b.cfg l false b.clauses)
      rw [h.cfg, h.nClasses]; exact (neonCountVotes_seen _ _ _ hc).symm
  | train l fb =>
    have hs : b.clauses.map (neonSetClause b.cfg l) = d.clauses.map (neonSetClause b.cfg l) :=
      map_congr_of _ _ h.clauses fun a c hab => neonSet_seen b.cfg l a c hab
    have he : neonSetClauses d.cfg l d.clauses = neonSetClauses b.cfg l b.clauses := by
      unfold neonSetClauses
      rw [h.cfg, hs]
      by_cases hx : b.clauses ≠ [] ∧ b.cfg.budget = none
      · rw [if_pos hx, if_pos ⟨hnil.mp hx.1, hx.2⟩]
      · rw [if_neg hx, if_neg fun hy => hx ⟨hnil.mpr hy.1, hy.2⟩]
    simp only [neonStep, NBlock.apply, he, h.nClasses]
    cases neonSetClauses b.cfg l b.clauses with
    | none => trivial
    | some cs =>
      show NLike _ _
      refine ⟨rfl, h.cfg, ?_, rfl, ?_, ?_⟩
      · show (neonTrainClauses b.cfg l fb cs b.fast b.vrng).1.map shownV = (neonTrainClauses d.cfg l fb cs d.fast d.vrng).1.map shownV
        rw [h.cfg, h.fast, h.vrng]
      · show (neonTrainClauses d.cfg l fb cs d.fast d.vrng).2.1 = (neonTrainClauses b.cfg l fb cs b.fast b.vrng).2.1
        rw [h.cfg, h.fast, h.vrng]
      · show (neonTrainClauses d.cfg l fb cs d.fast d.vrng).2.2 = (neonTrainClauses b.cfg l fb cs b.fast b.vrng).2.2
        rw [h.cfg, h.fast, h.vrng]

theorem nsteps_like : ∀ (ss : List Step) (b d : NBlock), NLike b d → NLike? (neonSteps b ss) (neonSteps d ss) := by
  intro ss
  induction ss with
  | nil => intro b d h; exact h
  | cons s ss ih =>
    intro b d h
    have := nstep_like h s
    simp only [neonSteps]
    cases hb : neonStep b s with
    | none =>
      cases hd : neonStep d s with
      | none => trivial
      | some d' => rw [hb, hd] at this; exact this.elim
    | some b' =>
      cases hd : neonStep d s with
      | none => rw [hb, hd] at this; exact this.elim
      | some d' => rw [hb, hd] at this; exact ih b' d' this

theorem neonRow_agree (mem : Nat) : ∀ (r k : Nat) (row row' : Mem) (g : Rng),
    (neonInitRow mem k r row g).2 = (neonInitRow mem k r row' g).2 ∧
    ∀ a, (row a = row' a ∨ (k ≤ a ∧ a < k + r) ∨ (k + mem ≤ a ∧ a < k + r + mem)) →
      (neonInitRow mem k r row g).1 a = (neonInitRow mem k r row' g).1 a := by
  intro r
  induction r with
  | zero =>
    intro k row row' g
    refine ⟨rfl, ?_⟩
    intro a ha
    rcases ha with ha | ha | ha
    · exact ha
    · omega
    · omega
  | succ r ih =>
    intro k row row' g
    simp only [neonInitRow]
    refine ⟨(ih _ _ _ _).1, ?_⟩
    intro a ha
    apply (ih _ _ _ _).2
    by_cases h1 : a = k + mem
    · left; simp [h1]
    · by_cases h2 : a = k
      · left; simp [h2]
      · rcases ha with ha | ha | ha
        · left; simp [h1, h2, ha]
        · right; left; omega
        · right; right; omega

theorem neonInitRows_junk (n : Nat) (junk junk' : Nat → Mem) : ∀ (k : Nat) (g : Rng), neonInitRows n junk k g = neonInitRows n junk' k g := by
  intro k
  induction k with
  | zero => intro g; rfl
  | succ k ih =>
    intro g
    have hm : n ≤ neonMem n := by
      unfold neonMem
      split <;> omega
    have h := neonRow_agree (neonMem n) n 0 (fun a => if a < 2 * neonMem n then junk k a else 0#8)
      (fun a => if a < 2 * neonMem n then junk' k a else 0#8) g
    simp only [neonInitRows]
    rw [h.1, ih]
    refine Prod.ext ?_ rfl
    refine congrArg (· :: _) ?_
    funext a
    unfold neonFill
    split
    · rfl
    · split
      · rfl
      · apply h.2
        by_cases ha : a < 2 * neonMem n
        · right; omega
        · left; rw [if_neg ha, if_neg ha]

theorem neonInit_like (nClauses nClasses : Nat) (cfg : VCfg) (fastOf rngOf : Nat → Rng) (vrngOf : Nat → VRng) (junk junk' : Nat → Mem)
    (junkC junkC' : Nat → Nat) (seed : Nat) (hs : seed ≠ 0) :
    ∃ b d, neonInit nClauses nClasses cfg fastOf rngOf vrngOf junk junkC seed = some b ∧
      neonInit nClauses nClasses cfg fastOf rngOf vrngOf junk' junkC' seed = some d ∧ NLike b d := by
  unfold neonInit
  rw [if_neg hs, if_neg hs, neonInitRows_junk cfg.nLits junk junk']
  exact ⟨_, _, rfl, rfl, rfl, rfl, mapIdx_map_congr _ _ _ _ fun _ _ => rfl, rfl, rfl, rfl⟩

/-! ### The AVX2 block -/

theorem avxInitRows_like (n : Nat) (junk junk' : Nat → Mem) : ∀ (k : Nat) (g : Rng),
    (avxInitRows n junk k g).1.length = (avxInitRows n junk' k g).1.length ∧
    (avxInitRows n junk k g).2 = (avxInitRows n junk' k g).2 ∧
    ∀ (i : Nat) (r r' : Mem), (avxInitRows n junk k g).1[i]? = some r → (avxInitRows n junk' k g).1[i]? = some r' →
      ∀ a, a < n → r a = r' a ∧ r (avxMem n + a) = r' (avxMem n + a) := by
  intro k
  induction k with
  | zero => intro g; exact ⟨rfl, rfl, fun i r r' h => by simp [avxInitRows] at h⟩
  | succ k ih =>
    intro g
    have hm := (avxMem_div n).2
    have h := AvxMem.initRow_agree (avxMem n) n 0 (junk k) (junk' k) g
    simp only [avxInitRows]
    rw [← h.1]
    obtain ⟨i1, i2, i3⟩ := ih (avxInitRow (avxMem n) 0 n (junk k) g).2
    refine ⟨by simp [i1], i2, ?_⟩
    intro i r r' hr hr' a ha
    cases i with
    | zero =>
      simp only [List.length_cons, Nat.zero_lt_succ, List.getElem?_eq_getElem, List.getElem_cons_zero, Option.some.injEq] at hr hr'
      subst hr hr'
      unfold avxFill
      constructor
      · rw [if_neg (by omega), if_neg (by omega), if_neg (by omega), if_neg (by omega)]
        exact h.2 a (Or.inr (by omega))
      · rw [if_neg (by omega), if_neg (by omega), if_neg (by omega), if_neg (by omega)]
        exact h.2 _ (Or.inr (by omega))
    | succ i =>
      rw [List.getElem?_cons_succ] at hr hr'
      exact i3 i r r' hr hr' a ha

theorem avx_zip_like (n : Nat) (jc jc' : Nat → Nat) : ∀ (rows rows' : List Mem) (ws : List (List Int)) (o : Nat), rows.length = rows'.length →
    (∀ (i : Nat) (r r' : Mem), rows[i]? = some r → rows'[i]? = some r' → ∀ a, a < n → r a = r' a ∧ r (avxMem n + a) = r' (avxMem n + a)) →
    ((rows.zip ws).mapIdx fun i rw => visible n ⟨rw.1, rw.2, 0, jc (i + o)⟩) =
      ((rows'.zip ws).mapIdx fun i rw => visible n ⟨rw.1, rw.2, 0, jc' (i + o)⟩) := by
  intro rows
  induction rows with
  | nil =>
    intro rows' ws o hl _
    have : rows' = [] := by simpa using hl.symm
    rw [this]
    rfl
  | cons r rows ih =>
    intro rows' ws o hl h
    cases rows' with
    | nil => simp at hl
    | cons r' rows' =>
      cases ws with
      | nil => rfl
      | cons w ws =>
        rw [List.zip_cons_cons, List.zip_cons_cons, List.mapIdx_cons, List.mapIdx_cons]
        have e := ih rows' ws (o + 1) (by simpa using hl) fun i a b h1 h2 => h (i + 1) a b (by simpa using h1) (by simpa using h2)
        simp only [Nat.add_right_comm _ 1 o] at e ⊢
        simp only [Nat.add_assoc] at e ⊢
        rw [e]
        congr 1
        exact (visible_eq_iff _ _ _).mpr ⟨h 0 r r' rfl rfl, rfl, rfl⟩

/-! ### Convolutional blocks -/

theorem seenBase_iff (c d : Clause) (h : shown c = shown d) : c.pos = d.pos ∧ c.neg = d.neg ∧ c.w = d.w ∧ c.out = d.out := by
  rw [seen_iff] at h
  rw [h]
  exact ⟨rfl, rfl, rfl, rfl⟩

/-- Clauses that look the same and, if they fire, agree on the patch and (with a budget) on the literal count. -/
def ConvLike (bud : Bool) (c d : ConvClause) : Prop :=
  shown c.base = shown d.base ∧ (c.base.out = 1 → c.patch = d.patch ∧ (bud = true → c.base.cnt = d.base.cnt))

/-- The literal counts per patch agree wherever they are read: there is no budget, or only one patch, for which a count is stored. -/
theorem scan_like (np : Nat) (bud : Bool) (h1 : bud = false ∨ np = 1) (test : Nat → Bool × Nat) (k k' : Nat → Nat) :
    (convScan np test k).out = (convScan np test k').out ∧ (convScan np test k).storage = (convScan np test k').storage ∧
      ((convScan np test k).out = 1 ↔ (convScan np test k).storage.length ≠ 0) ∧
      ((convScan np test k).out = 0 ∨ (convScan np test k).out = 1) ∧
      (bud = true → (convScan np test k).storage.length ≠ 0 → (convScan np test k).storage.length = 1 ∧ (convScan np test k).counts 0 = (convScan np test k').counts 0) := by
  have hgen : ∀ (l : List Nat) (s s' : Scan), s.out = s'.out → s.storage = s'.storage → (s.out = 1 ↔ s.storage.length ≠ 0) →
      (s.out = 0 ∨ s.out = 1) →
      (l.foldl (Scan.step test) s).out = (l.foldl (Scan.step test) s').out ∧
      (l.foldl (Scan.step test) s).storage = (l.foldl (Scan.step test) s').storage ∧
      ((l.foldl (Scan.step test) s).out = 1 ↔ (l.foldl (Scan.step test) s).storage.length ≠ 0) ∧
      ((l.foldl (Scan.step test) s).out = 0 ∨ (l.foldl (Scan.step test) s).out = 1) := by
    intro l
    induction l with
    | nil => intro s s' a b c d; exact ⟨a, b, c, d⟩
    | cons j l ih =>
      intro s s' a b c d
      rw [List.foldl_cons, List.foldl_cons]
      apply ih
      · unfold Scan.step; split <;> simp [a]
      · unfold Scan.step; split <;> simp [b]
      · unfold Scan.step; split
        · simp
        · exact c
      · unfold Scan.step; split
        · simp
        · exact d
  obtain ⟨a, b, c, d⟩ := hgen (List.range np) ⟨0, [], k⟩ ⟨0, [], k'⟩ rfl rfl (by simp) (Or.inl rfl)
  refine ⟨a, b, c, d, ?_⟩
  intro hb hne
  rcases h1 with h1 | h1
  · rw [h1] at hb; cases hb
  · subst h1
    have e : ∀ k, convScan 1 test k = Scan.step test ⟨0, [], k⟩ 0 := fun _ => rfl
    rw [e] at hne ⊢
    rw [e]
    unfold Scan.step at hne ⊢
    split
    · exact ⟨rfl, rfl⟩
    · next hh => simp [hh] at hne

theorem pick_one (g : Rng) : (g.pick 1).1 = 0 := by
  simp [Rng.pick]

theorem convSet_like (cfg : Cfg) (n np : Nat) (h1 : cfg.budget = none ∨ np = 1) (x : List Nat) (c d : ConvClause) (h : shown c.base = shown d.base)
    (k k' : Nat → Nat) (g : Rng) :
    ConvLike cfg.budget.isSome (convSetClause cfg n np x c k g).1 (convSetClause cfg n np x d k' g).1 ∧
      (convSetClause cfg n np x c k g).2.2 = (convSetClause cfg n np x d k' g).2.2 ∧
      ((convSetClause cfg n np x c k g).1.base.out = 0 ∨ (convSetClause cfg n np x c k g).1.base.out = 1) := by
  obtain ⟨hp, hq, hw, -⟩ := seenBase_iff _ _ h
  have hb : cfg.budget.isSome = false ∨ np = 1 := by
    rcases h1 with h1 | h1
    · left; rw [h1]; rfl
    · right; exact h1
  simp only [convSetClause, ← hp, ← hq]
  obtain ⟨s1, s2, s3, s4, s5⟩ := scan_like np cfg.budget.isSome hb
    (fun k => convSetLoop cfg.budget.isSome c.base.pos c.base.neg (patchAt n x k) 0) k k'
  generalize convScan np (fun k => convSetLoop cfg.budget.isSome c.base.pos c.base.neg (patchAt n x k) 0) k = s at *
  generalize convScan np (fun k => convSetLoop cfg.budget.isSome c.base.pos c.base.neg (patchAt n x k) 0) k' = s' at *
  refine ⟨⟨?_, ?_⟩, ?_, s4⟩
  · simp only [shown, s1, hp, hq, hw]
  · intro ho
    have hne : s.storage.length ≠ 0 := s3.mp ho
    have hne' : s'.storage.length ≠ 0 := by rw [← s2]; exact hne
    simp only [convSelect, if_neg hne, ← s2, true_and]
    intro hbud
    obtain ⟨hl, hc0⟩ := s5 hbud hne
    rw [hbud, hl, pick_one]
    exact hc0
  · by_cases hne : s.storage.length = 0
    · simp only [convSelect, if_pos hne, ← s2]
    · simp only [convSelect, if_neg hne, ← s2]

theorem convSets_like (cfg : Cfg) (n np : Nat) (h1 : cfg.budget = none ∨ np = 1) (x : List Nat) :
    ∀ (cs ds : List ConvClause) (k k' : Nat → Nat) (g : Rng), cs.map (shown ·.base) = ds.map (shown ·.base) →
      List.Forall₂ (fun c d => ConvLike cfg.budget.isSome c d ∧ (c.base.out = 0 ∨ c.base.out = 1))
        (convSetClauses cfg n np x cs k g).1 (convSetClauses cfg n np x ds k' g).1 ∧
      (convSetClauses cfg n np x cs k g).2.2 = (convSetClauses cfg n np x ds k' g).2.2 := by
  intro cs
  induction cs with
  | nil => intro ds k k' g h; rw [map_eq_nil h]; exact ⟨.nil, rfl⟩
  | cons c cs ih =>
    intro ds k k' g h
    obtain ⟨d, ds, rfl, h2, h3⟩ := map_eq_cons h
    obtain ⟨e1, e2, e3⟩ := convSet_like cfg n np h1 x c d h2 k k' g
    simp only [convSetClauses]
    rw [← e2]
    obtain ⟨i1, i2⟩ := ih ds (convSetClause cfg n np x c k g).2.1 (convSetClause cfg n np x d k' g).2.1 (convSetClause cfg n np x c k g).2.2 h3
    exact ⟨.cons ⟨e1, e3⟩ i1, i2⟩

theorem clauseUpdate_out0 (cfg : Cfg) (x y : List Nat) (j : Nat) (t : Int) (c : Clause) (h : c.out = 0) (g : Rng) :
    clauseUpdate cfg x j t c g = clauseUpdate cfg y j t c g ∧ (clauseUpdate cfg y j t c g).1.out = 0 := by
  have hne : ¬ c.out = 1 := by omega
  simp only [clauseUpdate, hne, if_false, and_false]
  generalize (if c.w.getD j 0 ≥ 0 then (1 : Int) else -1) = sign
  split
  · exact ⟨trivial, h⟩
  · exact ⟨trivial, h⟩

theorem trainClause_out0 (cfg : Cfg) (x y : List Nat) (fb : Feedback) (c : Clause) (k : Nat) (h : c.out = 0) (f g : Rng) :
    shown (trainClause cfg x fb c f g).1 = shown (trainClause cfg y fb { c with cnt := k } f g).1 ∧
      (trainClause cfg x fb c f g).2 = (trainClause cfg y fb { c with cnt := k } f g).2 := by
  have hg : budgetGate cfg c = c := by
    unfold budgetGate
    split
    · split
      · obtain ⟨p, q, w, o, n⟩ := c
        simp only at h
        rw [h]
      · rfl
    · rfl
  have hg' : budgetGate cfg { c with cnt := k } = { c with cnt := k } := by
    unfold budgetGate
    split
    · split
      · obtain ⟨p, q, w, o, n⟩ := c
        simp only at h
        rw [h]
      · rfl
    · rfl
  have hu : ∀ (j : Nat) (t : Int) (c : Clause) (g : Rng), c.out = 0 → clauseUpdate cfg x j t c g = clauseUpdate cfg y j t c g :=
    fun j t c g h => (clauseUpdate_out0 cfg x y j t c h g).1
  simp only [trainClause, hg, hg']
  by_cases h1 : f.next.1 < fb.posProb
  · have ho := (clauseUpdate_out0 cfg x y fb.posClass 1 c h g).2
    simp only [h1, if_true, clauseUpdate_cnt, hu _ _ c _ h]
    by_cases h2 : f.next.2.next.1 < fb.negProb
    · simp only [h2, if_true, hu _ _ _ _ ho]
      simp only [shown, and_self]
    · simp only [h2, if_false]
      simp only [shown, and_self]
  · simp only [h1, if_false, clauseUpdate_cnt, hu _ _ c _ h]
    split <;> exact ⟨rfl, rfl⟩

theorem convTrain_like (cfg : Cfg) (n : Nat) (x : List Nat) (fb : Feedback) (c d : ConvClause) (h : ConvLike cfg.budget.isSome c d)
    (ho : c.base.out = 0 ∨ c.base.out = 1) (f g : Rng) :
    shown (convTrainClause cfg n x fb c f g).1.base = shown (convTrainClause cfg n x fb d f g).1.base ∧
      (convTrainClause cfg n x fb c f g).2 = (convTrainClause cfg n x fb d f g).2 := by
  obtain ⟨h1, h2⟩ := h
  rw [seen_iff] at h1
  simp only [convTrainClause]
  rcases ho with ho | ho
  · have := trainClause_out0 cfg (patchAt n x c.patch) (patchAt n x d.patch) fb c.base d.base.cnt ho f g
    rw [← h1] at this
    exact ⟨this.1, by rw [this.2]⟩
  · obtain ⟨h3, h4⟩ := h2 ho
    rw [h3]
    cases hb : cfg.budget with
    | none =>
      have e := trainClause_cnt cfg hb (patchAt n x d.patch) fb c.base f g d.base.cnt
      rw [← h1] at e
      rw [e]
      exact ⟨rfl, rfl⟩
    | some v =>
      have : c.base = d.base := by rw [h1, ← h4 (by rw [hb]; rfl)]
      rw [this]
      exact ⟨rfl, rfl⟩

theorem convTrains_like (cfg : Cfg) (n : Nat) (x : List Nat) (fb : Feedback) : ∀ (cs ds : List ConvClause) (f g : Rng),
    List.Forall₂ (fun c d => ConvLike cfg.budget.isSome c d ∧ (c.base.out = 0 ∨ c.base.out = 1)) cs ds →
    (convTrainClauses cfg n x fb cs f g).1.map (shown ·.base) = (convTrainClauses cfg n x fb ds f g).1.map (shown ·.base) ∧
      (convTrainClauses cfg n x fb cs f g).2 = (convTrainClauses cfg n x fb ds f g).2 := by
  intro cs ds f g h
  induction h generalizing f g with
  | nil => exact ⟨rfl, rfl⟩
  | @cons c d cs ds h _ ih =>
    obtain ⟨e1, e2⟩ := convTrain_like cfg n x fb c d h.1 h.2 f g
    obtain ⟨i1, i2⟩ := ih (convTrainClause cfg n x fb c f g).2.1 (convTrainClause cfg n x fb c f g).2.2
    simp only [convTrainClauses, List.map_cons, ← e2, e1, i1, i2, and_self]

theorem forall_seen {bud : Bool} {cs ds : List ConvClause}
    (h : List.Forall₂ (fun c d => ConvLike bud c d ∧ (c.base.out = 0 ∨ c.base.out = 1)) cs ds) :
    (cs.map (·.base)).map shown = (ds.map (·.base)).map shown := by
  induction h with
  | nil => rfl
  | cons h _ ih => simp only [List.map_cons, h.1.1, ih]

/-- Two convolutional blocks that differ at most in their scratch memory. -/
structure CLike (b d : ConvBlock) : Prop where
  nLits    : d.nLits = b.nLits
  nClasses : d.nClasses = b.nClasses
  nPatches : d.nPatches = b.nPatches
  cfg      : d.cfg = b.cfg
  clauses  : b.clauses.map (shown ·.base) = d.clauses.map (shown ·.base)
  votes    : d.votes = b.votes
  fast     : d.fast = b.fast
  rng      : d.rng = b.rng

theorem cstep_like {b d : ConvBlock} (hb : b.cfg.budget = none ∨ b.nPatches = 1) (h : CLike b d) (s : DStep) :
    CLike (b.run s.ops) (d.run s.ops) ∧ (b.run s.ops).cfg = b.cfg ∧ (b.run s.ops).nPatches = b.nPatches := by
  cases s with
  | eval x =>
    have hc : ((b.clauses.map (convEvalClause b.nLits b.nPatches x)).map (·.base)).map shown =
        ((d.clauses.map (convEvalClause b.nLits b.nPatches x)).map (·.base)).map shown := by
      rw [List.map_map, List.map_map, List.map_map, List.map_map]
      refine map_congr_of _ _ h.clauses fun a c hac => ?_
      obtain ⟨e1, e2, e3, -⟩ := seenBase_iff _ _ hac
      simp only [Function.comp, convEvalClause, shown, e1, e2, e3]
    refine ⟨⟨h.nLits, h.nClasses, h.nPatches, h.cfg, ?_, ?_, h.fast, h.rng⟩, rfl, rfl⟩
    · show (b.clauses.map (convEvalClause b.nLits b.nPatches x)).map (shown ·.base) =
        (d.clauses.map (convEvalClause d.nLits d.nPatches x)).map (shown ·.base)
      rw [h.nLits, h.nPatches]
      rw [List.map_map, List.map_map] at hc ⊢
      rw [List.map_map, List.map_map] at hc
      exact hc
    · show countVotes d.nClasses ((d.clauses.map (convEvalClause d.nLits d.nPatches x)).map (·.base)) =
        countVotes b.nClasses ((b.clauses.map (convEvalClause b.nLits b.nPatches x)).map (·.base))
      rw [h.nLits, h.nPatches, h.nClasses]
      exact (countVotes_seen _ _ _ hc).symm
  | train x fb =>
    obtain ⟨s1, s2⟩ := convSets_like b.cfg b.nLits b.nPatches hb x b.clauses d.clauses b.counts d.counts b.rng h.clauses
    have t := convTrains_like b.cfg b.nLits x fb _ _ b.fast (convSetClauses b.cfg b.nLits b.nPatches x b.clauses b.counts b.rng).2.2 s1
    have e : (d.run (DStep.train x fb).ops) = ((d.apply (.trainExample x)).apply (.trainUpdate x fb)) := rfl
    have e' : (b.run (DStep.train x fb).ops) = ((b.apply (.trainExample x)).apply (.trainUpdate x fb)) := rfl
    rw [e, e']
    refine ⟨⟨h.nLits, h.nClasses, h.nPatches, h.cfg, ?_, ?_, ?_, ?_⟩, rfl, rfl⟩
    · simp only [ConvBlock.apply, h.nLits, h.nPatches, h.cfg, h.fast, h.rng, ← s2]
      exact t.1
    · simp only [ConvBlock.apply, h.nLits, h.nPatches, h.cfg, h.nClasses, h.rng]
      exact (countVotes_seen _ _ _ (forall_seen s1)).symm
    · simp only [ConvBlock.apply, h.nLits, h.nPatches, h.cfg, h.fast, h.rng, ← s2, t.2]
    · simp only [ConvBlock.apply, h.nLits, h.nPatches, h.cfg, h.fast, h.rng, ← s2, t.2]

theorem csteps_like : ∀ (ss : List DStep) (b d : ConvBlock), (b.cfg.budget = none ∨ b.nPatches = 1) → CLike b d →
    CLike (b.run (ss.flatMap DStep.ops)) (d.run (ss.flatMap DStep.ops)) := by
  intro ss
  induction ss with
  | nil => intro b d _ h; exact h
  | cons s ss ih =>
    intro b d hb h
    have e : ∀ b : ConvBlock, b.run ((s :: ss).flatMap DStep.ops) = (b.run s.ops).run (ss.flatMap DStep.ops) := by
      intro b
      rw [List.flatMap_cons]
      exact List.foldl_append
    rw [e, e]
    obtain ⟨h1, h2, h3⟩ := cstep_like hb h s
    exact ih _ _ (by rw [h2, h3]; exact hb) h1

theorem initConv_like (nLits nClauses nClasses : Nat) (np : Int) (cfg : Cfg) (fastOf rngOf : Nat → Rng)
    (j1 j2 j3 j1' j2' j3' : Nat → Nat) (seed : Nat) (hs : seed ≠ 0) (hp : np > 0) :
    ∃ b d, initConv nLits nClauses nClasses np cfg fastOf rngOf j1 j2 j3 seed = some b ∧
      initConv nLits nClauses nClasses np cfg fastOf rngOf j1' j2' j3' seed = some d ∧ CLike b d ∧ b.cfg = cfg ∧ b.nPatches = np.toNat := by
  obtain ⟨b, d, hb, hd, h⟩ := initTM_like nLits nClauses nClasses cfg fastOf rngOf j1 j1' seed hs
  simp only [initConv, hb, hd, hp, if_true]
  refine ⟨_, _, rfl, rfl, ⟨rfl, rfl, rfl, rfl, ?_, h.votes, h.fast, h.rng⟩, rfl, rfl⟩
  have hl : b.clauses.length = d.clauses.length := by
    have := congrArg List.length h.clauses
    simpa using this
  apply List.ext_getElem?
  intro i
  have := congrArg (fun l => l[i]?) h.clauses
  simp only [List.getElem?_map, List.getElem?_mapIdx, Option.map_map] at this ⊢
  exact this

/-! ### Convolutional blocks with a budget nothing exceeds -/

/-- No counter of the block exceeds `v`, and no clause has more than `v` literals. -/
structure Low (v : Nat) (b : ConvBlock) : Prop where
  counts : ∀ i, b.counts i ≤ v
  cnt    : ∀ c ∈ b.clauses, c.base.cnt ≤ v
  len    : ∀ c ∈ b.clauses, c.base.pos.length + c.base.neg.length ≤ v

theorem setLoop_le (bud : Bool) : ∀ (ps qs : List Int) (xs : List Nat) (cnt : Nat),
    (convSetLoop bud ps qs xs cnt).2 ≤ cnt + ps.length + qs.length := by
  intro ps
  induction ps with
  | nil => intro qs xs cnt; simp only [convSetLoop]; omega
  | cons p ps ih =>
    intro qs xs cnt
    cases qs with
    | nil => simp only [convSetLoop]; omega
    | cons q qs =>
      cases xs with
      | nil => simp only [convSetLoop]; omega
      | cons x xs =>
        simp only [convSetLoop, List.length_cons]
        split
        · show cnt ≤ _; omega
        · split
          · dsimp only; split <;> omega
          · refine Nat.le_trans (ih qs xs _) ?_
            split <;> split <;> omega

theorem scan_le (v : Nat) (test : Nat → Bool × Nat) (ht : ∀ k, (test k).2 ≤ v) (np : Nat) (k : Nat → Nat) (hk : ∀ i, k i ≤ v) :
    ∀ i, (convScan np test k).counts i ≤ v := by
  have : ∀ (l : List Nat) (s : Scan), (∀ i, s.counts i ≤ v) → ∀ i, (l.foldl (Scan.step test) s).counts i ≤ v := by
    intro l
    induction l with
    | nil => intro s h; exact h
    | cons j l ih =>
      intro s h
      rw [List.foldl_cons]
      apply ih
      intro i
      unfold Scan.step
      split
      · dsimp only
        split
        · exact ht j
        · exact h i
      · exact h i
  exact this _ _ hk

theorem convSet_low (v : Nat) (cfg : Cfg) (n np : Nat) (x : List Nat) (c : ConvClause) (k : Nat → Nat) (g : Rng) (hk : ∀ i, k i ≤ v)
    (hc : c.base.cnt ≤ v) (hl : c.base.pos.length + c.base.neg.length ≤ v) :
    (∀ i, (convSetClause cfg n np x c k g).2.1 i ≤ v) ∧ (convSetClause cfg n np x c k g).1.base.cnt ≤ v ∧
      (convSetClause cfg n np x c k g).1.base.pos = c.base.pos ∧ (convSetClause cfg n np x c k g).1.base.neg = c.base.neg := by
  have hs := scan_le v (fun k => convSetLoop cfg.budget.isSome c.base.pos c.base.neg (patchAt n x k) 0)
    (fun k => Nat.le_trans (setLoop_le _ _ _ _ _) (by omega)) np k hk
  refine ⟨hs, ?_, rfl, rfl⟩
  simp only [convSetClause, convSelect]
  split
  · exact hc
  · dsimp only
    split
    · exact hs _
    · exact hc

/-- What two clauses share after the outputs have been set. -/
def LLike (v : Nat) (c d : ConvClause) : Prop :=
  shown c.base = shown d.base ∧ (c.base.out = 1 → c.patch = d.patch) ∧ (c.base.out = 0 ∨ c.base.out = 1) ∧ c.base.cnt ≤ v ∧ d.base.cnt ≤ v ∧
    c.base.pos.length + c.base.neg.length ≤ v

theorem lset_like (cfg : Cfg) (n np : Nat) (x : List Nat) (c d : ConvClause) (h : shown c.base = shown d.base) (k k' : Nat → Nat) (g : Rng) :
    (shown (convSetClause cfg n np x c k g).1.base = shown (convSetClause cfg n np x d k' g).1.base ∧
      ((convSetClause cfg n np x c k g).1.base.out = 1 → (convSetClause cfg n np x c k g).1.patch = (convSetClause cfg n np x d k' g).1.patch)) ∧
      (convSetClause cfg n np x c k g).2.2 = (convSetClause cfg n np x d k' g).2.2 ∧
      ((convSetClause cfg n np x c k g).1.base.out = 0 ∨ (convSetClause cfg n np x c k g).1.base.out = 1) := by
  obtain ⟨hp, hq, hw, -⟩ := seenBase_iff _ _ h
  simp only [convSetClause, ← hp, ← hq]
  obtain ⟨s1, s2, s3, s4, -⟩ := scan_like np false (Or.inl rfl)
    (fun k => convSetLoop cfg.budget.isSome c.base.pos c.base.neg (patchAt n x k) 0) k k'
  generalize convScan np (fun k => convSetLoop cfg.budget.isSome c.base.pos c.base.neg (patchAt n x k) 0) k = s at *
  generalize convScan np (fun k => convSetLoop cfg.budget.isSome c.base.pos c.base.neg (patchAt n x k) 0) k' = s' at *
  refine ⟨⟨?_, ?_⟩, ?_, s4⟩
  · simp only [shown, s1, hp, hq, hw]
  · intro ho
    have hne : s.storage.length ≠ 0 := s3.mp ho
    simp only [convSelect, if_neg hne, ← s2]
  · by_cases hne : s.storage.length = 0
    · simp only [convSelect, if_pos hne, ← s2]
    · simp only [convSelect, if_neg hne, ← s2]

theorem lsets_like (v : Nat) (cfg : Cfg) (n np : Nat) (x : List Nat) :
    ∀ (cs ds : List ConvClause) (k k' : Nat → Nat) (g : Rng), cs.map (shown ·.base) = ds.map (shown ·.base) →
      (∀ i, k i ≤ v) → (∀ i, k' i ≤ v) → (∀ c ∈ cs, c.base.cnt ≤ v) → (∀ c ∈ ds, c.base.cnt ≤ v) →
      (∀ c ∈ cs, c.base.pos.length + c.base.neg.length ≤ v) →
      List.Forall₂ (LLike v) (convSetClauses cfg n np x cs k g).1 (convSetClauses cfg n np x ds k' g).1 ∧
      (convSetClauses cfg n np x cs k g).2.2 = (convSetClauses cfg n np x ds k' g).2.2 ∧
      (∀ i, (convSetClauses cfg n np x cs k g).2.1 i ≤ v) ∧ (∀ i, (convSetClauses cfg n np x ds k' g).2.1 i ≤ v) := by
  intro cs
  induction cs with
  | nil => intro ds k k' g h hk hk' _ _ _; rw [map_eq_nil h]; exact ⟨.nil, rfl, hk, hk'⟩
  | cons c cs ih =>
    intro ds k k' g h hk hk' hc hd hl
    obtain ⟨d, ds, rfl, h2, h3⟩ := map_eq_cons h
    obtain ⟨e1, e2, e3⟩ := lset_like cfg n np x c d h2 k k' g
    obtain ⟨hp, hq, -, -⟩ := seenBase_iff _ _ h2
    have hlc := hl c (List.mem_cons_self ..)
    obtain ⟨a1, a2, a3, a4⟩ := convSet_low v cfg n np x c k g hk (hc c (List.mem_cons_self ..)) hlc
    obtain ⟨b1, b2, -, -⟩ := convSet_low v cfg n np x d k' g hk' (hd d (List.mem_cons_self ..)) (by rw [← hp, ← hq]; exact hlc)
    simp only [convSetClauses]
    rw [← e2]
    obtain ⟨i1, i2, i3, i4⟩ := ih ds (convSetClause cfg n np x c k g).2.1 (convSetClause cfg n np x d k' g).2.1 (convSetClause cfg n np x c k g).2.2 h3
      a1 b1 (fun c h => hc c (List.mem_cons_of_mem _ h)) (fun c h => hd c (List.mem_cons_of_mem _ h)) (fun c h => hl c (List.mem_cons_of_mem _ h))
    exact ⟨.cons ⟨e1.1, e1.2, e3, a2, b2, by rw [a3, a4]; exact hlc⟩ i1, i2, i3, i4⟩

theorem trainClause_low (cfg : Cfg) (v : Nat) (hv : cfg.budget = some v) (x : List Nat) (fb : Feedback) (c : Clause) (f g : Rng) (k : Nat)
    (hc : c.cnt ≤ v) (hk : k ≤ v) :
    trainClause cfg x fb { c with cnt := k } f g =
      ({ (trainClause cfg x fb c f g).1 with cnt := k }, (trainClause cfg x fb c f g).2) ∧ (trainClause cfg x fb c f g).1.cnt = c.cnt := by
  have h0 := trainClause_cnt { cfg with budget := none } rfl x fb c f g
  have e : ∀ d : Clause, d.cnt ≤ v → trainClause cfg x fb d f g = trainClause { cfg with budget := none } x fb d f g := by
    intro d hd
    have hu : ∀ (j : Nat) (t : Int) (c : Clause) (g : Rng), clauseUpdate { cfg with budget := none } x j t c g = clauseUpdate cfg x j t c g := by
      intro j t c g
      have ha : ∀ (p q : List Int) (y : List Nat) (g : Rng), t1a { cfg with budget := none } p q y g = t1a cfg p q y g := by
        intro p
        induction p with
        | nil => intro q y g; simp only [t1a]
        | cons p ps ih =>
          intro q y g
          cases q with
          | nil => simp only [t1a]
          | cons q qs =>
            cases y with
            | nil => simp only [t1a]
            | cons y ys => simp only [t1a, ih]
      have hb : ∀ (p q : List Int) (g : Rng), t1b { cfg with budget := none } p q g = t1b cfg p q g := by
        intro p
        induction p with
        | nil => intro q g; simp only [t1b]
        | cons p ps ih =>
          intro q g
          cases q with
          | nil => simp only [t1b]
          | cons q qs => simp only [t1b, ih]
      simp only [clauseUpdate, ha, hb]
    have hg : budgetGate cfg d = budgetGate { cfg with budget := none } d := by
      simp only [budgetGate, hv]
      rw [if_neg (by omega)]
    simp only [trainClause, hg, hu]
  refine ⟨?_, ?_⟩
  · rw [e c hc, e _ hk]
    exact h0 k
  · rw [e c hc]
    have := h0 c.cnt
    have hcc : ({ c with cnt := c.cnt } : Clause) = c := rfl
    rw [hcc] at this
    exact congrArg (·.1.cnt) this

theorem upd_len (cfg : Cfg) (x : List Nat) (fb : Feedback) (c : Clause) (f g : Rng) :
    (trainClause cfg x fb c f g).1.pos.length + (trainClause cfg x fb c f g).1.neg.length = c.pos.length + c.neg.length := by
  have ha : ∀ (p q : List Int) (y : List Nat) (g : Rng), (t1a cfg p q y g).1.length + (t1a cfg p q y g).2.1.length = p.length + q.length := by
    intro p
    induction p with
    | nil => intro q y g; simp only [t1a]
    | cons p ps ih =>
      intro q y g
      cases q with
      | nil => simp only [t1a]
      | cons q qs =>
        cases y with
        | nil => simp only [t1a]
        | cons y ys =>
          simp only [t1a]
          split <;> (simp only [List.length_cons]; have := ih qs ys; grind)
  have hb : ∀ (p q : List Int) (g : Rng), (t1b cfg p q g).1.length + (t1b cfg p q g).2.1.length = p.length + q.length := by
    intro p
    induction p with
    | nil => intro q g; simp only [t1b]
    | cons p ps ih =>
      intro q g
      cases q with
      | nil => simp only [t1b]
      | cons q qs =>
        simp only [t1b, List.length_cons]
        have := ih qs g.next.2.next.2
        omega
  have h2 : ∀ (p q : List Int) (y : List Nat), (t2 p q y).1.length + (t2 p q y).2.length = p.length + q.length := by
    intro p
    induction p with
    | nil => intro q y; simp only [t2]
    | cons p ps ih =>
      intro q y
      cases q with
      | nil => simp only [t2]
      | cons q qs =>
        cases y with
        | nil => simp only [t2]
        | cons y ys =>
          have := ih qs ys
          simp only [t2]
          split <;> (simp only [List.length_cons]; omega)
  have hu : ∀ (j : Nat) (t : Int) (c : Clause) (g : Rng),
      (clauseUpdate cfg x j t c g).1.pos.length + (clauseUpdate cfg x j t c g).1.neg.length = c.pos.length + c.neg.length := by
    intro j t c g
    simp only [clauseUpdate]
    generalize (if c.w.getD j 0 ≥ 0 then (1 : Int) else -1) = sign
    split
    · split
      · exact ha _ _ _ _
      · exact hb _ _ _
    · split
      · exact h2 _ _ _
      · rfl
  have hg : (budgetGate cfg c).pos.length + (budgetGate cfg c).neg.length = c.pos.length + c.neg.length := by
    unfold budgetGate
    split
    · split <;> rfl
    · rfl
  simp only [trainClause]
  split
  · rw [hu]
    split
    · rw [hu, hg]
    · exact hg
  · split
    · rw [hu, hg]
    · exact hg

theorem ltrain_like (cfg : Cfg) (v : Nat) (hv : cfg.budget = some v) (n : Nat) (x : List Nat) (fb : Feedback) (c d : ConvClause) (h : LLike v c d)
    (f g : Rng) :
    shown (convTrainClause cfg n x fb c f g).1.base = shown (convTrainClause cfg n x fb d f g).1.base ∧
      (convTrainClause cfg n x fb c f g).2 = (convTrainClause cfg n x fb d f g).2 ∧
      (convTrainClause cfg n x fb c f g).1.base.cnt ≤ v ∧ (convTrainClause cfg n x fb d f g).1.base.cnt ≤ v ∧
      (convTrainClause cfg n x fb c f g).1.base.pos.length + (convTrainClause cfg n x fb c f g).1.base.neg.length ≤ v := by
  obtain ⟨h1, h2, h3, h4, h5, h6⟩ := h
  rw [seen_iff] at h1
  have k1 : (convTrainClause cfg n x fb c f g).1.base.cnt ≤ v := by
    show (trainClause cfg (patchAt n x c.patch) fb c.base f g).1.cnt ≤ v
    rw [(trainClause_low cfg v hv _ fb c.base f g c.base.cnt h4 h4).2]; exact h4
  have k2 : (convTrainClause cfg n x fb d f g).1.base.cnt ≤ v := by
    show (trainClause cfg (patchAt n x d.patch) fb d.base f g).1.cnt ≤ v
    rw [(trainClause_low cfg v hv _ fb d.base f g d.base.cnt h5 h5).2]; exact h5
  have k3 : (convTrainClause cfg n x fb c f g).1.base.pos.length + (convTrainClause cfg n x fb c f g).1.base.neg.length ≤ v := by
    show (trainClause cfg (patchAt n x c.patch) fb c.base f g).1.pos.length + (trainClause cfg (patchAt n x c.patch) fb c.base f g).1.neg.length ≤ v
    rw [upd_len]; exact h6
  have k : shown (convTrainClause cfg n x fb c f g).1.base = shown (convTrainClause cfg n x fb d f g).1.base ∧
      (convTrainClause cfg n x fb c f g).2 = (convTrainClause cfg n x fb d f g).2 := by
    simp only [convTrainClause]
    rcases h3 with ho | ho
    · have := trainClause_out0 cfg (patchAt n x c.patch) (patchAt n x d.patch) fb c.base d.base.cnt ho f g
      rw [← h1] at this
      exact ⟨this.1, by rw [this.2]⟩
    · rw [h2 ho]
      have e := (trainClause_low cfg v hv (patchAt n x d.patch) fb c.base f g d.base.cnt h4 h5).1
      rw [← h1] at e
      rw [e]
      exact ⟨rfl, rfl⟩
  exact ⟨k.1, k.2, k1, k2, k3⟩

theorem ltrains_like (cfg : Cfg) (v : Nat) (hv : cfg.budget = some v) (n : Nat) (x : List Nat) (fb : Feedback) : ∀ (cs ds : List ConvClause) (f g : Rng),
    List.Forall₂ (LLike v) cs ds →
    (convTrainClauses cfg n x fb cs f g).1.map (shown ·.base) = (convTrainClauses cfg n x fb ds f g).1.map (shown ·.base) ∧
      (convTrainClauses cfg n x fb cs f g).2 = (convTrainClauses cfg n x fb ds f g).2 ∧
      (∀ c ∈ (convTrainClauses cfg n x fb cs f g).1, c.base.cnt ≤ v ∧ c.base.pos.length + c.base.neg.length ≤ v) ∧
      (∀ c ∈ (convTrainClauses cfg n x fb ds f g).1, c.base.cnt ≤ v) := by
  intro cs ds f g h
  induction h generalizing f g with
  | nil =>
    refine ⟨rfl, rfl, ?_, ?_⟩
    · intro c hc; simp [convTrainClauses] at hc
    · intro c hc; simp [convTrainClauses] at hc
  | @cons c d cs ds h _ ih =>
    obtain ⟨e1, e2, e3, e4, e5⟩ := ltrain_like cfg v hv n x fb c d h f g
    obtain ⟨i1, i2, i3, i4⟩ := ih (convTrainClause cfg n x fb c f g).2.1 (convTrainClause cfg n x fb c f g).2.2
    simp only [convTrainClauses, List.map_cons, ← e2, e1, i1, i2, true_and]
    refine ⟨?_, ?_⟩
    · intro a ha
      rcases List.mem_cons.mp ha with rfl | ha
      · exact ⟨e3, e5⟩
      · exact i3 a ha
    · intro a ha
      rcases List.mem_cons.mp ha with rfl | ha
      · exact e4
      · exact i4 a ha

theorem lforall_seen {v : Nat} {cs ds : List ConvClause} (h : List.Forall₂ (LLike v) cs ds) :
    (cs.map (·.base)).map shown = (ds.map (·.base)).map shown := by
  induction h with
  | nil => rfl
  | cons h _ ih => simp only [List.map_cons, h.1, ih]

theorem shown_len {cs ds : List ConvClause} (h : cs.map (shown ·.base) = ds.map (shown ·.base)) {v : Nat}
    (hl : ∀ c ∈ cs, c.base.pos.length + c.base.neg.length ≤ v) : ∀ d ∈ ds, d.base.pos.length + d.base.neg.length ≤ v := by
  intro d hd
  have : shown d.base ∈ cs.map (shown ·.base) := by rw [h]; exact List.mem_map.mpr ⟨d, hd, rfl⟩
  obtain ⟨c, hc, e⟩ := List.mem_map.mp this
  obtain ⟨e1, e2, -, -⟩ := seenBase_iff _ _ e
  rw [← e1, ← e2]
  exact hl c hc

theorem lstep_like (v : Nat) {b d : ConvBlock} (hv : b.cfg.budget = some v) (h : CLike b d) (hb : Low v b) (hd : Low v d) (s : DStep) :
    CLike (b.run s.ops) (d.run s.ops) ∧ (b.run s.ops).cfg = b.cfg ∧ Low v (b.run s.ops) ∧ Low v (d.run s.ops) := by
  cases s with
  | eval x =>
    have hlow : ∀ b : ConvBlock, Low v b → Low v (b.run (DStep.eval x).ops) := by
      intro b hb
      refine ⟨hb.counts, ?_, ?_⟩
      · intro c hc
        obtain ⟨c', hc', rfl⟩ := List.mem_map.mp hc
        exact hb.cnt c' hc'
      · intro c hc
        obtain ⟨c', hc', rfl⟩ := List.mem_map.mp hc
        exact hb.len c' hc'
    refine ⟨?_, rfl, hlow b hb, hlow d hd⟩
    have hc : ((b.clauses.map (convEvalClause b.nLits b.nPatches x)).map (·.base)).map shown =
        ((d.clauses.map (convEvalClause b.nLits b.nPatches x)).map (·.base)).map shown := by
      rw [List.map_map, List.map_map, List.map_map, List.map_map]
      refine map_congr_of _ _ h.clauses fun a c hac => ?_
      obtain ⟨e1, e2, e3, -⟩ := seenBase_iff _ _ hac
      simp only [Function.comp, convEvalClause, shown, e1, e2, e3]
    refine ⟨h.nLits, h.nClasses, h.nPatches, h.cfg, ?_, ?_, h.fast, h.rng⟩
    · show (b.clauses.map (convEvalClause b.nLits b.nPatches x)).map (shown ·.base) =
        (d.clauses.map (convEvalClause d.nLits d.nPatches x)).map (shown ·.base)
      rw [h.nLits, h.nPatches]
      rw [List.map_map, List.map_map] at hc ⊢
      rw [List.map_map, List.map_map] at hc
      exact hc
    · show countVotes d.nClasses ((d.clauses.map (convEvalClause d.nLits d.nPatches x)).map (·.base)) =
        countVotes b.nClasses ((b.clauses.map (convEvalClause b.nLits b.nPatches x)).map (·.base))
      rw [h.nLits, h.nPatches, h.nClasses]
      exact (countVotes_seen _ _ _ hc).symm
  | train x fb =>
    obtain ⟨s1, s2, s3, s4⟩ := lsets_like v b.cfg b.nLits b.nPatches x b.clauses d.clauses b.counts d.counts b.rng h.clauses hb.counts hd.counts
      hb.cnt hd.cnt hb.len
    have t := ltrains_like b.cfg v hv b.nLits x fb _ _ b.fast (convSetClauses b.cfg b.nLits b.nPatches x b.clauses b.counts b.rng).2.2 s1
    have e : (d.run (DStep.train x fb).ops) = ((d.apply (.trainExample x)).apply (.trainUpdate x fb)) := rfl
    have e' : (b.run (DStep.train x fb).ops) = ((b.apply (.trainExample x)).apply (.trainUpdate x fb)) := rfl
    rw [e, e']
    obtain ⟨t1, t2, t3, t4⟩ := t
    refine ⟨⟨h.nLits, h.nClasses, h.nPatches, h.cfg, ?_, ?_, ?_, ?_⟩, rfl, ⟨s3, fun c hc => (t3 c hc).1, fun c hc => (t3 c hc).2⟩, ?_⟩
    · simp only [ConvBlock.apply, h.nLits, h.nPatches, h.cfg, h.fast, h.rng, ← s2]
      exact t1
    · simp only [ConvBlock.apply, h.nLits, h.nPatches, h.cfg, h.nClasses, h.rng]
      exact (countVotes_seen _ _ _ (lforall_seen s1)).symm
    · simp only [ConvBlock.apply, h.nLits, h.nPatches, h.cfg, h.fast, h.rng, ← s2, t2]
    · simp only [ConvBlock.apply, h.nLits, h.nPatches, h.cfg, h.fast, h.rng, ← s2, t2]
    · refine ⟨?_, ?_, ?_⟩
      · simp only [ConvBlock.apply, h.nLits, h.nPatches, h.cfg, h.fast, h.rng]
        exact s4
      · simp only [ConvBlock.apply, h.nLits, h.nPatches, h.cfg, h.fast, h.rng, ← s2]
        exact t4
      · simp only [ConvBlock.apply, h.nLits, h.nPatches, h.cfg, h.fast, h.rng, ← s2]
        exact shown_len t1 fun c hc => (t3 c hc).2

theorem lsteps_like (v : Nat) : ∀ (ss : List DStep) (b d : ConvBlock), b.cfg.budget = some v → CLike b d → Low v b → Low v d →
    CLike (b.run (ss.flatMap DStep.ops)) (d.run (ss.flatMap DStep.ops)) := by
  intro ss
  induction ss with
  | nil => intro b d _ h _ _; exact h
  | cons s ss ih =>
    intro b d hv h hb hd
    have e : ∀ b : ConvBlock, b.run ((s :: ss).flatMap DStep.ops) = (b.run s.ops).run (ss.flatMap DStep.ops) := by
      intro b
      rw [List.flatMap_cons]
      exact List.foldl_append
    rw [e, e]
    obtain ⟨h1, h2, h3, h4⟩ := lstep_like v hv h hb hd s
    exact ih _ _ (by rw [h2]; exact hv) h1 h3 h4

theorem initHalf_len (n : Nat) : ∀ g : Rng, (initHalf n g).1.length = n := by
  induction n with
  | zero => intro g; rfl
  | succ n ih => intro g; simp only [initHalf, List.length_cons, ih]

theorem initRows_len (n : Nat) : ∀ (k : Nat) (g : Rng), ∀ r ∈ (initRows n k g).1, r.1.length = n ∧ r.2.length = n := by
  intro k
  induction k with
  | zero => intro g r hr; cases hr
  | succ k ih =>
    intro g r hr
    simp only [initRows] at hr
    rcases List.mem_cons.mp hr with rfl | hr
    · exact ⟨initHalf_len _ _, initHalf_len _ _⟩
    · exact ih _ r hr

theorem initConv_low {nLits nClauses nClasses : Nat} {np : Int} {cfg : Cfg} {fastOf rngOf : Nat → Rng} {j1 j2 j3 : Nat → Nat} {seed : Nat} {v : Nat}
    (hl : 2 * nLits ≤ v) (hj : ∀ i, j1 i ≤ v ∧ j3 i ≤ v) {b : ConvBlock}
    (h : initConv nLits nClauses nClasses np cfg fastOf rngOf j1 j2 j3 seed = some b) : Low v b := by
  simp only [initConv, initTM] at h
  by_cases hs : seed = 0
  · simp [hs] at h
  · by_cases hp : np > 0
    · simp only [hs, if_false, hp, if_true, Option.some.injEq] at h
      subst h
      refine ⟨fun i => (hj i).2, ?_, ?_⟩
      · intro c hc
        obtain ⟨i, hi⟩ := List.getElem?_of_mem hc
        simp only [List.getElem?_mapIdx, Option.map_map, Option.map_eq_some_iff] at hi
        obtain ⟨a, -, rfl⟩ := hi
        exact (hj i).1
      · intro c hc
        obtain ⟨i, hi⟩ := List.getElem?_of_mem hc
        simp only [List.getElem?_mapIdx, Option.map_map, Option.map_eq_some_iff] at hi
        obtain ⟨a, ha, rfl⟩ := hi
        have hm := (List.of_mem_zip (List.mem_of_getElem? ha)).1
        obtain ⟨e1, e2⟩ := initRows_len _ _ _ _ hm
        show a.1.1.length + a.1.2.length ≤ v
        omega
    · simp [hs, hp] at h

end GT.Fresh

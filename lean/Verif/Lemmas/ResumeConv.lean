import Verif.Lemmas.Resume
import Verif.Lemmas.Conv

/-! # Lemmas: training goes on from a saved state, AVX2 convolutional blocks (C105) -/

namespace GT.Resume
open GT GT.Spec

/-- Two clauses with the same bytes of literals and weights. -/
def Alike (n : Nat) (c d : VConvClause) : Prop := learned (unpad n d.base) = learned (unpad n c.base)

theorem alike_iff (n : Nat) (c d : VConvClause) : Alike n c d ↔
    (∀ i, i < n → c.base.row i = d.base.row i ∧ c.base.row (avxMem n + i) = d.base.row (avxMem n + i)) ∧ c.base.w = d.base.w := by
  simp only [Alike, learned, unpad, Prod.mk.injEq, List.map_inj_left, List.mem_range, BitVec.toInt_inj]
  constructor
  · rintro ⟨h1, h2, h3⟩
    exact ⟨fun i hi => ⟨(h1 i hi).symm, (h2 i hi).symm⟩, h3.symm⟩
  · rintro ⟨h1, h2⟩
    exact ⟨fun i hi => (h1 i hi).1.symm, fun i hi => (h1 i hi).2.symm, h2.symm⟩

/-- Two clauses after the outputs for an example were set. -/
structure SetAlike (cfg : VCfg) (c d : VConvClause) : Prop where
  visible : visible cfg.nLits c.base = visible cfg.nLits d.base
  cnt     : CntOk cfg c.base d.base
  out     : c.base.out = 0 ∨ c.base.out = 1
  patch   : c.base.out = 1 → c.patch = d.patch

theorem setPatch_alike {cfg : VCfg} (hn : 0 < cfg.nLits) {c d : VConvClause} (h : Alike cfg.nLits c d) (l : Mem) :
    (avxConvSetPatch cfg c.base.row l).1 = (avxConvSetPatch cfg d.base.row l).1 ∧
    (cfg.budget.isSome = true → (avxConvSetPatch cfg c.base.row l).1 = true → (avxConvSetPatch cfg c.base.row l).2 = (avxConvSetPatch cfg d.base.row l).2) := by
  obtain ⟨h1, h2⟩ := (alike_iff _ c d).1 h
  have hv : visible cfg.nLits { c.base with out := 0 } = visible cfg.nLits { d.base with out := 0 } := (visible_eq_iff _ _ _).2 ⟨h1, h2, rfl⟩
  obtain ⟨a, b⟩ := avxSet_visible hn (lits := l) (lits' := l) (fun _ _ => rfl) hv
  have ho := ((visible_eq_iff _ _ _).1 a).2.2
  obtain ⟨p1, p2⟩ := avxConvSetPatch_eq cfg l { c.base with out := 0 }
  obtain ⟨q1, q2⟩ := avxConvSetPatch_eq cfg l { d.base with out := 0 }
  dsimp only at p1 p2 q1 q2
  have e : (avxConvSetPatch cfg c.base.row l).1 = (avxConvSetPatch cfg d.base.row l).1 := by rw [p1, q1, ho]
  refine ⟨e, fun hb ht => ?_⟩
  rw [p2 hb ht, q2 hb (by rw [← e]; exact ht)]
  refine b hb ?_
  rw [p1] at ht
  exact of_decide_eq_true ht

theorem evalPatch_alike {cfg : VCfg} (hn : 0 < cfg.nLits) {c d : VConvClause} (h : Alike cfg.nLits c d) (l : Mem) :
    avxConvEvalPatch cfg c.base.row l = avxConvEvalPatch cfg d.base.row l := by
  obtain ⟨h1, h2⟩ := (alike_iff _ c d).1 h
  have hv : visible cfg.nLits { c.base with out := 0 } = visible cfg.nLits { d.base with out := 0 } := (visible_eq_iff _ _ _).2 ⟨h1, h2, rfl⟩
  have ho := ((visible_eq_iff _ _ _).1 (avxEval_visible hn (lits := l) (lits' := l) (fun _ _ => rfl) hv)).2.2
  have p1 := avxConvEvalPatch_eq cfg l { c.base with out := 0 }
  have q1 := avxConvEvalPatch_eq cfg l { d.base with out := 0 }
  dsimp only at p1 q1
  rw [p1, q1, ho]

theorem avxConvSet_alike {cfg : VCfg} (hn : 0 < cfg.nLits) {np : Nat} (h1 : cfg.budget = none ∨ np = 1) (x : Mem) {c d : VConvClause}
    (h : Alike cfg.nLits c d) (k k' : Nat → Nat) (g : Rng) :
    SetAlike cfg (avxConvSetClause cfg np x c k g).1 (avxConvSetClause cfg np x d k' g).1 ∧
      (avxConvSetClause cfg np x c k g).2.2 = (avxConvSetClause cfg np x d k' g).2.2 := by
  have hb : cfg.budget.isSome = false ∨ np = 1 := by
    rcases h1 with h1 | h1
    · left; rw [h1]; rfl
    · right; exact h1
  obtain ⟨hr, hw⟩ := (alike_iff _ c d).1 h
  simp only [avxConvSetClause]
  obtain ⟨s1, s2, s3, s4, s5⟩ := Fresh.scan_like np cfg.budget.isSome hb (fun j => avxConvSetPatch cfg c.base.row (shiftMem x (j * cfg.nLits))) k k'
  have hd : (convScan np (fun j => avxConvSetPatch cfg d.base.row (shiftMem x (j * cfg.nLits))) k').out =
        (convScan np (fun j => avxConvSetPatch cfg c.base.row (shiftMem x (j * cfg.nLits))) k').out ∧
      (convScan np (fun j => avxConvSetPatch cfg d.base.row (shiftMem x (j * cfg.nLits))) k').storage =
        (convScan np (fun j => avxConvSetPatch cfg c.base.row (shiftMem x (j * cfg.nLits))) k').storage ∧
      (cfg.budget.isSome = true → (convScan np (fun j => avxConvSetPatch cfg d.base.row (shiftMem x (j * cfg.nLits))) k').counts =
        (convScan np (fun j => avxConvSetPatch cfg c.base.row (shiftMem x (j * cfg.nLits))) k').counts) := by
    obtain ⟨a1, a2, a3⟩ := convScan_spec np (fun j => avxConvSetPatch cfg d.base.row (shiftMem x (j * cfg.nLits))) k'
    obtain ⟨b1, b2, b3⟩ := convScan_spec np (fun j => avxConvSetPatch cfg c.base.row (shiftMem x (j * cfg.nLits))) k'
    refine ⟨?_, ?_, fun hs => funext fun i => ?_⟩
    · rw [a2, b2]
      simp only [(setPatch_alike hn h _).1]
    · rw [a1, b1]
      simp only [(setPatch_alike hn h _).1]
    · rw [a3, b3]
      obtain ⟨e1, e2⟩ := setPatch_alike hn h (shiftMem x (i * cfg.nLits))
      by_cases ht : i < np ∧ (avxConvSetPatch cfg c.base.row (shiftMem x (i * cfg.nLits))).1 = true
      · rw [if_pos ht, if_pos ⟨ht.1, by rw [← e1]; exact ht.2⟩, e2 hs ht.2]
      · rw [if_neg ht, if_neg (by rw [← e1]; exact ht)]
  obtain ⟨d1, d2, d3⟩ := hd
  generalize convScan np (fun j => avxConvSetPatch cfg c.base.row (shiftMem x (j * cfg.nLits))) k = s at *
  generalize convScan np (fun j => avxConvSetPatch cfg c.base.row (shiftMem x (j * cfg.nLits))) k' = s' at *
  generalize convScan np (fun j => avxConvSetPatch cfg d.base.row (shiftMem x (j * cfg.nLits))) k' = t at *
  have e1 : t.out = s.out := by rw [d1, s1]
  have e2 : t.storage = s.storage := by rw [d2, s2]
  refine ⟨⟨?_, ?_, s4, ?_⟩, ?_⟩
  · exact (visible_eq_iff _ _ _).2 ⟨hr, hw, e1.symm⟩
  · intro hbud ho
    have hne : s.storage.length ≠ 0 := s3.mp ho
    obtain ⟨hl, hc0⟩ := s5 hbud hne
    simp only [convSelect, e2, if_neg hne]
    rw [hbud, hl, Fresh.pick_one, d3 hbud]
    exact hc0
  · intro ho
    have hne : s.storage.length ≠ 0 := s3.mp ho
    simp only [convSelect, e2, if_neg hne]
  · by_cases hne : s.storage.length = 0
    · simp only [convSelect, e2, if_pos hne]
    · simp only [convSelect, e2, if_neg hne]

theorem avxConvSets_alike {cfg : VCfg} (hn : 0 < cfg.nLits) {np : Nat} (h1 : cfg.budget = none ∨ np = 1) (x : Mem) {cs ds : List VConvClause}
    (h : List.Forall₂ (Alike cfg.nLits) cs ds) : ∀ (k k' : Nat → Nat) (g : Rng),
    List.Forall₂ (SetAlike cfg) (avxConvSetClauses cfg np x cs k g).1 (avxConvSetClauses cfg np x ds k' g).1 ∧
      (avxConvSetClauses cfg np x cs k g).2.2 = (avxConvSetClauses cfg np x ds k' g).2.2 := by
  induction h with
  | nil => intro k k' g; exact ⟨.nil, rfl⟩
  | cons hc _ ih =>
    intro k k' g
    obtain ⟨a, b⟩ := avxConvSet_alike hn h1 x hc k k' g
    simp only [avxConvSetClauses]
    rw [← b]
    obtain ⟨p, q⟩ := ih (avxConvSetClause cfg np x _ k g).2.1 (avxConvSetClause cfg np x _ k' g).2.1 (avxConvSetClause cfg np x _ k g).2.2
    exact ⟨.cons a p, q⟩

theorem avxUpdate_out0 (cfg : VCfg) (x y : Mem) (j : Nat) (t : Int) (c : VClause) (h : c.out = 0) (g : VRng) :
    avxClauseUpdate cfg x j t c g = avxClauseUpdate cfg y j t c g ∧ (avxClauseUpdate cfg y j t c g).1.out = 0 := by
  have hne : ¬ c.out = 1 := by omega
  simp only [avxClauseUpdate, hne, if_false, and_false]
  generalize (if c.w.getD j 0 ≥ 0 then (1 : Int) else -1) = sign
  split
  · exact ⟨trivial, h⟩
  · exact ⟨trivial, h⟩

theorem avxTrain_out0 (cfg : VCfg) (x y : Mem) (fb : Feedback) (c : VClause) (h : c.out = 0) (f : Rng) (g : VRng) :
    avxTrainClause cfg x fb c f g = avxTrainClause cfg y fb c f g := by
  have hg : (avxBudgetGate cfg c).out = 0 := by
    unfold avxBudgetGate
    split
    · split
      · rfl
      · exact h
    · exact h
  simp only [avxTrainClause]
  generalize avxBudgetGate cfg c = c at hg
  by_cases h1 : f.next.1 < fb.posProb
  · simp only [h1, if_true, (avxUpdate_out0 cfg x y _ _ c hg _).1]
    simp only [(avxUpdate_out0 cfg x y _ _ _ (avxUpdate_out0 cfg x y _ _ c hg _).2 _).1]
  · simp only [h1, if_false, (avxUpdate_out0 cfg x y _ _ c hg _).1]

theorem avxConvTrain_alike {cfg : VCfg} (x : Mem) (fb : Feedback) {c d : VConvClause} (h : SetAlike cfg c d) (f : Rng) (g : VRng) :
    Alike cfg.nLits (avxConvTrainClause cfg x fb c f g).1 (avxConvTrainClause cfg x fb d f g).1 ∧
      (avxConvTrainClause cfg x fb c f g).2 = (avxConvTrainClause cfg x fb d f g).2 := by
  have key : avxTrainClause cfg (shiftMem x (d.patch * cfg.nLits)) fb d.base f g = avxTrainClause cfg (shiftMem x (c.patch * cfg.nLits)) fb d.base f g := by
    rcases h.out with ho | ho
    · exact avxTrain_out0 _ _ _ _ _ (by rw [← ((visible_eq_iff _ _ _).1 h.visible).2.2]; exact ho) _ _
    · rw [h.patch ho]
  obtain ⟨a, b⟩ := avxTrainClause_visible (lits := shiftMem x (c.patch * cfg.nLits)) (lits' := shiftMem x (c.patch * cfg.nLits)) (fun _ _ => rfl) fb
    f g h.visible h.cnt h.out
  simp only [avxConvTrainClause, key]
  refine ⟨?_, by rw [b]⟩
  obtain ⟨r, w, -⟩ := (visible_eq_iff _ _ _).1 a
  exact (alike_iff _ _ _).2 ⟨r, w⟩

theorem avxConvTrains_alike {cfg : VCfg} (x : Mem) (fb : Feedback) {cs ds : List VConvClause} (h : List.Forall₂ (SetAlike cfg) cs ds) :
    ∀ (f : Rng) (g : VRng), List.Forall₂ (Alike cfg.nLits) (avxConvTrainClauses cfg x fb cs f g).1 (avxConvTrainClauses cfg x fb ds f g).1 ∧
      (avxConvTrainClauses cfg x fb cs f g).2 = (avxConvTrainClauses cfg x fb ds f g).2 := by
  induction h with
  | nil => intro f g; exact ⟨.nil, rfl⟩
  | cons hc _ ih =>
    intro f g
    obtain ⟨a, b⟩ := avxConvTrain_alike x fb hc f g
    simp only [avxConvTrainClauses]
    rw [← b]
    obtain ⟨p, q⟩ := ih (avxConvTrainClause cfg x fb _ f g).2.1 (avxConvTrainClause cfg x fb _ f g).2.2
    exact ⟨.cons a p, by rw [q]⟩

theorem setAlike_votes {cfg : VCfg} {cs ds : List VConvClause} (h : List.Forall₂ (SetAlike cfg) cs ds) (n : Nat) :
    avxCountVotes n (cs.map (·.base)) = avxCountVotes n (ds.map (·.base)) := by
  refine avxCountVotes_congr n cfg.nLits _ _ ?_
  induction h with
  | nil => rfl
  | cons hc _ ih => simp only [List.map_cons, hc.visible, ih]

/-- The same up to padding, outputs, votes and scratch memory, with one patch or without a budget. -/
def WR (b d : VConvBlock) : Prop := SameAvxConvState b d ∧ (b.cfg.budget = none ∨ b.nPatches = 1)

theorem wr_clauses {b d : VConvBlock} (h : WR b d) : List.Forall₂ (Alike b.cfg.nLits) b.clauses d.clauses := forall₂_map_eq.2 h.1.learned

theorem wsets {b d : VConvBlock} (h : WR b d) (x : Mem) :
    List.Forall₂ (SetAlike b.cfg) (b.apply (.trainExample x)).clauses (d.apply (.trainExample x)).clauses ∧
      (b.apply (.trainExample x)).rng = (d.apply (.trainExample x)).rng := by
  simp only [VConvBlock.apply]
  rw [h.1.cfg, h.1.nPatches, h.1.rng]
  exact avxConvSets_alike h.1.lits h.2 x (wr_clauses h) b.counts d.counts b.rng

theorem weval {b d : VConvBlock} (h : WR b d) (x : Mem) :
    WR (b.apply (.evalExample x)) (d.apply (.evalExample x)) ∧ (b.apply (.evalExample x)).votes = (d.apply (.evalExample x)).votes := by
  have key : ∀ c e : VConvClause, Alike b.cfg.nLits c e →
      visible b.cfg.nLits (avxConvEvalClause b.cfg b.nPatches x c).base = visible b.cfg.nLits (avxConvEvalClause b.cfg b.nPatches x e).base := by
    intro c e hce
    obtain ⟨r, w⟩ := (alike_iff _ c e).1 hce
    refine (visible_eq_iff _ _ _).2 ⟨r, w, ?_⟩
    simp only [avxConvEvalClause, evalPatch_alike h.1.lits hce]
  refine ⟨⟨⟨h.1.lits, h.1.nClasses, h.1.nPatches, h.1.cfg, ?_, h.1.fast, h.1.rng, h.1.vrng⟩, h.2⟩, ?_⟩
  · refine forall₂_map_eq.1 ?_
    simp only [VConvBlock.apply, h.1.cfg, h.1.nPatches]
    rw [List.forall₂_map_left_iff, List.forall₂_map_right_iff]
    exact (wr_clauses h).imp fun c e hce => hce
  · simp only [VConvBlock.apply, h.1.cfg, h.1.nPatches, h.1.nClasses]
    refine avxCountVotes_congr _ b.cfg.nLits _ _ ?_
    have := wr_clauses h
    generalize b.clauses = cs at this
    generalize d.clauses = ds at this
    induction this with
    | nil => rfl
    | cons hc _ ih => simp only [List.map_cons, key _ _ hc, ih]

theorem wtrain {b d : VConvBlock} (h : WR b d) (x : Mem) (fb : Feedback) :
    WR ((b.apply (.trainExample x)).apply (.trainUpdate x fb)) ((d.apply (.trainExample x)).apply (.trainUpdate x fb)) := by
  obtain ⟨a, r⟩ := wsets h x
  have hcfg : ∀ b : VConvBlock, (b.apply (.trainExample x)).cfg = b.cfg ∧ (b.apply (.trainExample x)).fast = b.fast ∧
    (b.apply (.trainExample x)).vrng = b.vrng := fun _ => ⟨rfl, rfl, rfl⟩
  obtain ⟨p, q⟩ := avxConvTrains_alike x fb a b.fast b.vrng
  refine ⟨⟨h.1.lits, h.1.nClasses, h.1.nPatches, h.1.cfg, forall₂_map_eq.1 ?_, ?_, r.symm, ?_⟩, h.2⟩
  · show List.Forall₂ (Alike b.cfg.nLits) (avxConvTrainClauses b.cfg x fb (b.apply (.trainExample x)).clauses b.fast b.vrng).1
      (avxConvTrainClauses d.cfg x fb (d.apply (.trainExample x)).clauses d.fast d.vrng).1
    rw [h.1.cfg, h.1.fast, h.1.vrng]
    exact p
  · show (avxConvTrainClauses d.cfg x fb (d.apply (.trainExample x)).clauses d.fast d.vrng).2.1 =
      (avxConvTrainClauses b.cfg x fb (b.apply (.trainExample x)).clauses b.fast b.vrng).2.1
    rw [h.1.cfg, h.1.fast, h.1.vrng, q]
  · show (avxConvTrainClauses d.cfg x fb (d.apply (.trainExample x)).clauses d.fast d.vrng).2.2 =
      (avxConvTrainClauses b.cfg x fb (b.apply (.trainExample x)).clauses b.fast b.vrng).2.2
    rw [h.1.cfg, h.1.fast, h.1.vrng, q]

theorem wsim : OnePatch.Sim avxConvBackend avxConvBackend (fun _ _ => True) WR where
  trainVotes := by
    intro b d x h _
    show avxCountVotes b.nClasses ((b.apply (.trainExample x)).clauses.map (·.base)) =
      avxCountVotes d.nClasses ((d.apply (.trainExample x)).clauses.map (·.base))
    rw [h.1.nClasses]
    exact setAlike_votes (wsets h x).1 _
  trainStep := fun _ _ x fb h _ => wtrain h x fb
  evalVotes := fun _ _ x h _ => (weval h x).2
  evalStep := fun _ _ x h _ => (weval h x).1
  okTrain := fun _ _ _ _ h => h
  okEval := fun _ _ _ h => h
  left := fun _ => rfl
  right := fun _ => rfl

end GT.Resume

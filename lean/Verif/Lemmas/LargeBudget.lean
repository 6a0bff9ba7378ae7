import Verif.Lemmas.ClauseOrder
import Verif.Lemmas.Fresh

/-! # A convolutional block with a budget that nothing exceeds trains as one without a budget (for C104) -/

namespace GT.LargeBudget
open GT GT.Spec GT.OnePatch

theorem setLoop_out (ps qs : List Int) (xs : List Nat) (a b : Nat) : (convSetLoop true ps qs xs a).1 = (convSetLoop false ps qs xs b).1 := by
  induction ps generalizing qs xs a b with
  | nil => simp only [convSetLoop]
  | cons p ps ih =>
    cases qs with
    | nil => simp only [convSetLoop]
    | cons q qs =>
      cases xs with
      | nil => simp only [convSetLoop]
      | cons x xs =>
        simp only [convSetLoop]
        split
        · rfl
        · split
          · rfl
          · exact ih ..

theorem scan_tests (np : Nat) (t t' : Nat → Bool × Nat) (h : ∀ k, (t k).1 = (t' k).1) (c c' : Nat → Nat) :
    (convScan np t c).out = (convScan np t' c').out ∧ (convScan np t c).storage = (convScan np t' c').storage := by
  unfold convScan
  generalize List.range np = ks
  have : ∀ s s' : Scan, s.out = s'.out → s.storage = s'.storage →
      (ks.foldl (Scan.step t) s).out = (ks.foldl (Scan.step t') s').out ∧
      (ks.foldl (Scan.step t) s).storage = (ks.foldl (Scan.step t') s').storage := by
    induction ks with
    | nil => intro s s' h h'; exact ⟨h, h'⟩
    | cons k ks ih =>
      intro s s' h1 h'
      refine ih _ _ ?_ ?_
      · unfold Scan.step; rw [h]; split <;> simp [h1]
      · unfold Scan.step; rw [h]; split <;> simp [h']
  exact this _ _ rfl rfl

/-- The same clause, but for the counter, which does not exceed `v`. -/
structure Q (v : Nat) (c d : ConvClause) : Prop where
  base  : d.base = { c.base with cnt := d.base.cnt }
  patch : d.patch = c.patch
  cnt   : d.base.cnt ≤ v
  len   : d.base.pos.length + d.base.neg.length ≤ v

theorem set_q (cfg : Cfg) (v n np : Nat) (x : List Nat) (c d : ConvClause) (h : Q v c d) (k k' : Nat → Nat) (hk : ∀ i, k' i ≤ v) (g : Rng) :
    Q v (convSetClause { cfg with budget := none } n np x c k g).1 (convSetClause { cfg with budget := some v } n np x d k' g).1 ∧
      (convSetClause { cfg with budget := some v } n np x d k' g).2.2 = (convSetClause { cfg with budget := none } n np x c k g).2.2 ∧
      ∀ i, (convSetClause { cfg with budget := some v } n np x d k' g).2.1 i ≤ v := by
  obtain ⟨h1, h2, h3, h4⟩ := h
  have low := Fresh.convSet_low v { cfg with budget := some v } n np x d k' g hk h3 h4
  have hp : d.base.pos = c.base.pos := by rw [h1]
  have hq : d.base.neg = c.base.neg := by rw [h1]
  have hw : d.base.w = c.base.w := by rw [h1]
  obtain ⟨s1, s2⟩ := scan_tests np (fun k => convSetLoop true d.base.pos d.base.neg (patchAt n x k) 0)
    (fun k => convSetLoop false c.base.pos c.base.neg (patchAt n x k) 0) (fun k => by rw [hp, hq]; exact setLoop_out ..) k' k
  refine ⟨⟨?_, ?_, low.2.1, by rw [low.2.2.1, low.2.2.2]; exact h4⟩, ?_, low.1⟩
  · simp only [hp, hq] at s1
    simp only [convSetClause, Option.isSome_some, Option.isSome_none, hp, hq, hw, s1]
  · simp only [convSetClause, convSelect, Option.isSome_some, Option.isSome_none, s2, h2]
    split <;> rfl
  · simp only [convSetClause, convSelect, Option.isSome_some, Option.isSome_none, s2]
    split <;> rfl

theorem sets_q (cfg : Cfg) (v n np : Nat) (x : List Nat) (cs ds : List ConvClause) (h : List.Forall₂ (Q v) cs ds) (k k' : Nat → Nat)
    (hk : ∀ i, k' i ≤ v) (g : Rng) :
    List.Forall₂ (Q v) (convSetClauses { cfg with budget := none } n np x cs k g).1 (convSetClauses { cfg with budget := some v } n np x ds k' g).1 ∧
      (convSetClauses { cfg with budget := some v } n np x ds k' g).2.2 = (convSetClauses { cfg with budget := none } n np x cs k g).2.2 ∧
      ∀ i, (convSetClauses { cfg with budget := some v } n np x ds k' g).2.1 i ≤ v := by
  induction h generalizing k k' g with
  | nil => exact ⟨.nil, rfl, hk⟩
  | @cons c d cs ds h _ ih =>
    obtain ⟨e1, e2, e3⟩ := set_q cfg v n np x c d h k k' hk g
    obtain ⟨i1, i2, i3⟩ := ih (convSetClause { cfg with budget := none } n np x c k g).2.1
      (convSetClause { cfg with budget := some v } n np x d k' g).2.1 e3 (convSetClause { cfg with budget := none } n np x c k g).2.2
    simp only [convSetClauses, e2]
    exact ⟨.cons e1 i1, i2, i3⟩

theorem trainClause_none (cfg : Cfg) (v : Nat) (x : List Nat) (fb : Feedback) (d : Clause) (hd : d.cnt ≤ v) (f g : Rng) :
    trainClause { cfg with budget := some v } x fb d f g = trainClause { cfg with budget := none } x fb d f g := by
  have hu : ∀ (j : Nat) (t : Int) (c : Clause) (g : Rng),
      clauseUpdate { cfg with budget := none } x j t c g = clauseUpdate { cfg with budget := some v } x j t c g := by
    intro j t c g
    have ha : ∀ (p q : List Int) (y : List Nat) (g : Rng), t1a { cfg with budget := none } p q y g = t1a { cfg with budget := some v } p q y g := by
      intro p
      induction p with
      | nil => intro q y g; simp only [t1a]
      | cons p ps ih =>
        intro q y g
        cases q with
        | nil => simp only [t1a]
        | cons q qs =>
          cases y with
          | nil => simp only [t1a]
          | cons y ys => simp only [t1a, ih]
    have hb : ∀ (p q : List Int) (g : Rng), t1b { cfg with budget := none } p q g = t1b { cfg with budget := some v } p q g := by
      intro p
      induction p with
      | nil => intro q g; simp only [t1b]
      | cons p ps ih =>
        intro q g
        cases q with
        | nil => simp only [t1b]
        | cons q qs => simp only [t1b, ih]
    simp only [clauseUpdate, ha, hb]
  have hg : budgetGate { cfg with budget := some v } d = budgetGate { cfg with budget := none } d := by
    simp only [budgetGate]
    rw [if_neg (by omega)]
  simp only [trainClause, hg, hu]

theorem train_q (cfg : Cfg) (v n : Nat) (x : List Nat) (fb : Feedback) (c d : ConvClause) (h : Q v c d) (f g : Rng) :
    Q v (convTrainClause { cfg with budget := none } n x fb c f g).1 (convTrainClause { cfg with budget := some v } n x fb d f g).1 ∧
      (convTrainClause { cfg with budget := some v } n x fb d f g).2 = (convTrainClause { cfg with budget := none } n x fb c f g).2 := by
  obtain ⟨h1, h2, h3, h4⟩ := h
  have hl := Fresh.upd_len { cfg with budget := some v } (patchAt n x d.patch) fb d.base f g
  have e := trainClause_none cfg v (patchAt n x d.patch) fb d.base h3 f g
  have e0 := Fresh.trainClause_cnt { cfg with budget := none } rfl (patchAt n x d.patch) fb c.base f g d.base.cnt
  rw [← h1] at e0
  rw [e0] at e
  simp only [convTrainClause]
  rw [e] at hl ⊢
  rw [h2] at hl ⊢
  exact ⟨⟨rfl, rfl, h3, by rw [hl]; exact h4⟩, rfl⟩

theorem trains_q (cfg : Cfg) (v n : Nat) (x : List Nat) (fb : Feedback) (cs ds : List ConvClause) (h : List.Forall₂ (Q v) cs ds) (f g : Rng) :
    List.Forall₂ (Q v) (convTrainClauses { cfg with budget := none } n x fb cs f g).1 (convTrainClauses { cfg with budget := some v } n x fb ds f g).1 ∧
      (convTrainClauses { cfg with budget := some v } n x fb ds f g).2 = (convTrainClauses { cfg with budget := none } n x fb cs f g).2 := by
  induction h generalizing f g with
  | nil => exact ⟨.nil, rfl⟩
  | @cons c d cs ds h _ ih =>
    obtain ⟨e1, e2⟩ := train_q cfg v n x fb c d h f g
    obtain ⟨i1, i2⟩ := ih (convTrainClause { cfg with budget := none } n x fb c f g).2.1 (convTrainClause { cfg with budget := none } n x fb c f g).2.2
    simp only [convTrainClauses, e2]
    exact ⟨.cons e1 i1, by rw [i2]⟩

theorem votes_q (v m : Nat) (cs ds : List ConvClause) (h : List.Forall₂ (Q v) cs ds) :
    countVotes m (ds.map (·.base)) = countVotes m (cs.map (·.base)) := by
  refine Fresh.countVotes_seen _ _ _ ?_
  induction h with
  | nil => rfl
  | cons h _ ih => simp only [List.map_cons, ih]; rw [h.base]; rfl

/-- The same block without a budget, and with one that nothing exceeds. -/
structure Same (b d : ConvBlock) : Prop where
  nLits    : d.nLits = b.nLits
  nClasses : d.nClasses = b.nClasses
  nPatches : d.nPatches = b.nPatches
  votes    : d.votes = b.votes
  fast     : d.fast = b.fast
  rng      : d.rng = b.rng
  budget   : b.cfg = { d.cfg with budget := none }
  low      : ∃ v, d.cfg = { d.cfg with budget := some v } ∧ (∀ i, d.counts i ≤ v) ∧ List.Forall₂ (Q v) b.clauses d.clauses

theorem sim : Sim convBackend convBackend (fun _ _ => True) Same where
  trainVotes b d x h _ := by
    obtain ⟨v, h1, h2, h3⟩ := h.low
    have := (sets_q d.cfg v b.nLits b.nPatches x _ _ h3 b.counts d.counts h2 b.rng).1
    simp only [convBackend, ConvBlock.apply, h.nLits, h.nClasses, h.nPatches, h.rng, h.budget]
    rw [h1]
    exact (votes_q v _ _ _ this).symm
  trainStep b d x fb h _ := by
    obtain ⟨v, h1, h2, h3⟩ := h.low
    obtain ⟨s1, s2, s3⟩ := sets_q d.cfg v b.nLits b.nPatches x _ _ h3 b.counts d.counts h2 b.rng
    obtain ⟨t1, t2⟩ := trains_q d.cfg v b.nLits x fb _ _ s1 b.fast
      (convSetClauses { d.cfg with budget := none } b.nLits b.nPatches x b.clauses b.counts b.rng).2.2
    rw [← h1] at s1 s2 s3 t1 t2
    simp only [convBackend, ConvBlock.apply, h.budget]
    refine ⟨h.nLits, h.nClasses, h.nPatches, ?_, ?_, ?_, rfl, v, h1, ?_, ?_⟩
    · simp only [h.nLits, h.nClasses, h.nPatches, h.rng]
      exact votes_q v _ _ _ s1
    · simp only [h.nLits, h.nPatches, h.fast, h.rng, s2, t2]
    · simp only [h.nLits, h.nPatches, h.fast, h.rng, s2, t2]
    · simp only [h.nLits, h.nPatches, h.rng]; exact s3
    · simp only [h.nLits, h.nPatches, h.fast, h.rng, s2]; exact t1
  evalVotes b d x h _ := by
    obtain ⟨v, h1, h2, h3⟩ := h.low
    simp only [convBackend, ConvBlock.apply, h.nLits, h.nClasses, h.nPatches]
    refine (votes_q v _ _ _ ?_).symm
    rw [List.forall₂_map_left_iff, List.forall₂_map_right_iff]
    refine h3.imp fun c e q => ?_
    refine ⟨?_, q.patch, q.cnt, q.len⟩
    have := q.base
    simp only [convEvalClause]
    rw [this]
  evalStep b d x h _ := by
    obtain ⟨v, h1, h2, h3⟩ := h.low
    have h4 : List.Forall₂ (Q v) (b.clauses.map (convEvalClause b.nLits b.nPatches x)) (d.clauses.map (convEvalClause b.nLits b.nPatches x)) := by
      rw [List.forall₂_map_left_iff, List.forall₂_map_right_iff]
      refine h3.imp fun c e q => ?_
      refine ⟨?_, q.patch, q.cnt, q.len⟩
      have := q.base
      simp only [convEvalClause]
      rw [this]
    simp only [convBackend, ConvBlock.apply]
    refine ⟨h.nLits, h.nClasses, h.nPatches, ?_, h.fast, h.rng, h.budget, v, h1, h2, ?_⟩
    · simp only [h.nLits, h.nClasses, h.nPatches]; exact votes_q v _ _ _ h4
    · simp only [h.nLits, h.nPatches]; exact h4
  okTrain := fun _ _ _ _ _ => trivial
  okEval := fun _ _ _ _ => trivial
  left := fun _ => rfl
  right := fun _ => rfl

theorem reorder_rel {α β : Type} {R : α → β → Prop} {as : List α} {bs : List β} (h : List.Forall₂ R as bs) (o : List Nat) :
    List.Forall₂ R (reorder o as) (reorder o bs) := by
  unfold reorder
  induction o with
  | nil => exact .nil
  | cons i o ih =>
    simp only [List.filterMap_cons]
    have hl := h.length_eq
    by_cases hi : i < as.length
    · rw [List.getElem?_eq_getElem hi, List.getElem?_eq_getElem (hl ▸ hi)]
      exact .cons (h.get hi (hl ▸ hi)) ih
    · rw [List.getElem?_eq_none (by omega), List.getElem?_eq_none (by omega)]
      exact ih

theorem chain {α β γ : Type} {S : α → β → Prop} {P : γ × α → α → Prop} {P' : γ × β → β → Prop}
    (hP : ∀ o a b a' b', S a b → S a' b' → P (o, a) a' → P' (o, b) b') (os : List γ) (as as' : List α) (bs bs' : List β)
    (h : List.Forall₂ S as bs) (h' : List.Forall₂ S as' bs') (hp : List.Forall₂ P (os.zip as) as') : List.Forall₂ P' (os.zip bs) bs' := by
  induction os generalizing as as' bs bs' with
  | nil => cases hp; cases h'; exact .nil
  | cons o os ih =>
    cases h with
    | nil => cases hp; cases h'; exact .nil
    | cons h1 h2 =>
      cases hp with
      | cons p1 p2 =>
        cases h' with
        | cons k1 k2 => exact .cons (hP _ _ _ _ _ h1 k1 p1) (ih _ _ _ _ h2 k2 p2)

/-- The machine without budgets. -/
def bare (e : Exec ConvBlock) : Exec ConvBlock := { e with blocks := e.blocks.map fun b => { b with cfg := { b.cfg with budget := none } } }

theorem ample_q {b : ConvBlock} (h : AmpleBudget b) :
    ∃ v, b.cfg = { b.cfg with budget := some v } ∧ (∀ i, b.counts i ≤ v) ∧ List.Forall₂ (Q v) b.clauses b.clauses := by
  obtain ⟨v, h1, h2, h3⟩ := h
  exact ⟨v, by rw [← h1], h2, List.forall₂_same.2 fun c hc => ⟨rfl, rfl, (h3 c hc).1, (h3 c hc).2⟩⟩

theorem faces_q {v : Nat} {cs ds : List ConvClause} (h : List.Forall₂ (Q v) cs ds) : ds.map (face ·.base) = cs.map (face ·.base) := by
  induction h with
  | nil => rfl
  | cons h _ ih => simp only [List.map_cons, ih]; rw [h.base]; rfl

theorem conv_ample (smp : List Rat → Rat → Nat) (calls : List (List Nat × Option Nat)) (e : Exec ConvBlock) (os : List (List Nat))
    (hos : List.Forall₂ (fun o b => OrderOf b.clauses.length o) os e.blocks) (hb : ∀ b ∈ e.blocks, AmpleBudget b) :
    ∃ gs : List (Rng × Rng), List.Forall₂ (fun b g => Reshuffled b.fast g.1 ∧ Reshuffled b.rng g.2) e.blocks gs ∧ ∀ k,
      let d := reorderedExec reorderedConv e os gs
      (runCalls convBackend smp (calls.take k) d).2 = (runCalls convBackend smp (calls.take k) e).2 ∧
      (runCalls convBackend smp (calls.take k) d).1.fb = (runCalls convBackend smp (calls.take k) e).1.fb ∧
      List.Forall₂ (fun ob d => d.clauses.map (face ·.base) = reorder ob.1 (ob.2.clauses.map (face ·.base)) ∧ d.votes = ob.2.votes)
        (os.zip (runCalls convBackend smp (calls.take k) e).1.blocks) (runCalls convBackend smp (calls.take k) d).1.blocks := by
  have hos' : List.Forall₂ (fun o (b : ConvBlock) => OrderOf b.clauses.length o) os (bare e).blocks := by
    rw [bare, List.forall₂_map_right_iff]; exact hos
  obtain ⟨gs, hg, h⟩ := ClauseOrder.conv_any smp calls (bare e) os hos' (by simp [bare])
  rw [bare, List.forall₂_map_left_iff] at hg
  refine ⟨gs, hg, fun k => ?_⟩
  have hs : List.Forall₂ Same (bare e).blocks e.blocks := by
    rw [bare, List.forall₂_map_left_iff]
    exact List.forall₂_same.2 fun b hm => ⟨rfl, rfl, rfl, rfl, rfl, rfl, rfl, ample_q (hb b hm)⟩
  have hd : List.Forall₂ Same (reorderedExec reorderedConv (bare e) os gs).blocks (reorderedExec reorderedConv e os gs).blocks := by
    simp only [reorderedExec, bare]
    clear h hos hos' hs
    generalize e.blocks = bs at *
    induction os generalizing bs gs with
    | nil => exact .nil
    | cons o os ih =>
      cases hg with
      | nil => exact .nil
      | @cons b g bs gs hg1 hg2 =>
        refine .cons ?_ (ih gs bs (fun b h => hb b (List.mem_cons_of_mem _ h)) hg2)
        obtain ⟨v, q1, q2, q3⟩ := ample_q (hb b (List.mem_cons_self ..))
        exact ⟨rfl, rfl, rfl, rfl, rfl, rfl, rfl, v, q1, q2, reorder_rel q3 o⟩
  obtain ⟨a1, a2, a3⟩ := run_sim sim smp (calls.take k) (bare e) e rfl hs (fun _ _ _ _ => trivial)
  obtain ⟨b1, b2, b3⟩ := run_sim sim smp (calls.take k) (reorderedExec reorderedConv (bare e) os gs) (reorderedExec reorderedConv e os gs) rfl hd
    (fun _ _ _ _ => trivial)
  obtain ⟨c1, c2, c3⟩ := h k
  refine ⟨by rw [b1, c1, a1], by rw [b2, c2, a2], ?_⟩
  refine chain (P := fun ob d => d.clauses = reorder ob.1 ob.2.clauses ∧ d.votes = ob.2.votes) ?_ os _ _ _ _ a3 b3 c3
  rintro o x y x' y' h1 h2 ⟨p1, p2⟩
  obtain ⟨v, -, -, l1⟩ := h1.low
  obtain ⟨w, -, -, l2⟩ := h2.low
  refine ⟨?_, ?_⟩
  · show y'.clauses.map (face ·.base) = reorder o (y.clauses.map (face ·.base))
    rw [faces_q l1, faces_q l2, p1]
    simp only [reorder, List.getElem?_map, List.map_filterMap]
  · show y'.votes = y.votes
    rw [h2.votes, h1.votes]; exact p2

end GT.LargeBudget

/-! ## AVX2 -/

namespace GT.LargeBudget
open GT GT.Spec GT.OnePatch

theorem incCount_le (row : Mem) (lo len : Nat) : incCount row lo len ≤ len := by
  unfold incCount
  exact Nat.le_trans List.countP_le_length (by simp)

theorem scan_low (v : Nat) (test : Nat → Bool × Nat) (ht : ∀ k, (test k).1 = true → (test k).2 ≤ v) (np : Nat) (k : Nat → Nat) (hk : ∀ i, k i ≤ v) :
    ∀ i, (convScan np test k).counts i ≤ v := by
  have : ∀ (l : List Nat) (s : Scan), (∀ i, s.counts i ≤ v) → ∀ i, (l.foldl (Scan.step test) s).counts i ≤ v := by
    intro l
    induction l with
    | nil => intro s h; exact h
    | cons j l ih =>
      intro s h
      rw [List.foldl_cons]
      apply ih
      intro i
      unfold Scan.step
      split
      · next hj =>
        dsimp only
        split
        · exact ht j hj
        · exact h i
      · exact h i
  exact this _ _ hk

theorem patch_out (cfg : VCfg) (hn : 0 < cfg.nLits) (v : Nat) (row lits : Mem) :
    (avxConvSetPatch { cfg with budget := some v } row lits).1 = (avxConvSetPatch { cfg with budget := none } row lits).1 := by
  have h1 := (avxConvSetPatch_eq { cfg with budget := some v } lits ⟨row, [], 0, 0⟩).1
  have h2 := (avxConvSetPatch_eq { cfg with budget := none } lits ⟨row, [], 0, 0⟩).1
  have k1 := (avxSetClause_spec { cfg with budget := some v } lits ⟨row, [], 0, 0⟩ hn).2.1
  have k2 := (avxSetClause_spec { cfg with budget := none } lits ⟨row, [], 0, 0⟩ hn).2.1
  rw [h1, h2]
  exact decide_eq_decide.2 (k1.trans k2.symm)

theorem patch_cnt (cfg : VCfg) (hn : 0 < cfg.nLits) (v : Nat) (row lits : Mem)
    (h : (avxConvSetPatch { cfg with budget := some v } row lits).1 = true) :
    (avxConvSetPatch { cfg with budget := some v } row lits).2 ≤ 2 * cfg.nLits := by
  obtain ⟨h1, h2⟩ := avxConvSetPatch_eq { cfg with budget := some v } lits ⟨row, [], 0, 0⟩
  have k := (avxSetClause_spec { cfg with budget := some v } lits ⟨row, [], 0, 0⟩ hn).2.2.1
  have h3 := h2 rfl h
  rw [h] at h1
  rw [h3, k rfl (of_decide_eq_true h1.symm)]
  have a := incCount_le row 0 cfg.nLits
  have b := incCount_le row (avxMem cfg.nLits) cfg.nLits
  dsimp only
  omega

/-- The same clause, but for the counter, which does not exceed `v`. -/
structure V (v : Nat) (c d : VConvClause) : Prop where
  base  : d.base = { c.base with cnt := d.base.cnt }
  patch : d.patch = c.patch
  cnt   : d.base.cnt ≤ v

theorem vset (cfg : VCfg) (hn : 0 < cfg.nLits) (v np : Nat) (hv : 2 * cfg.nLits ≤ v) (x : Mem) (c d : VConvClause) (h : V v c d) (k k' : Nat → Nat)
    (hk : ∀ i, k' i ≤ v) (g : Rng) :
    V v (avxConvSetClause { cfg with budget := none } np x c k g).1 (avxConvSetClause { cfg with budget := some v } np x d k' g).1 ∧
      (avxConvSetClause { cfg with budget := some v } np x d k' g).2.2 = (avxConvSetClause { cfg with budget := none } np x c k g).2.2 ∧
      ∀ i, (avxConvSetClause { cfg with budget := some v } np x d k' g).2.1 i ≤ v := by
  obtain ⟨h1, h2, h3⟩ := h
  have hr : d.base.row = c.base.row := by rw [h1]
  have hw : d.base.w = c.base.w := by rw [h1]
  have low := scan_low v (fun k => avxConvSetPatch { cfg with budget := some v } d.base.row (shiftMem x (k * cfg.nLits)))
    (fun k hk => Nat.le_trans (patch_cnt cfg hn v _ _ hk) hv) np k' hk
  obtain ⟨s1, s2⟩ := scan_tests np (fun k => avxConvSetPatch { cfg with budget := some v } d.base.row (shiftMem x (k * cfg.nLits)))
    (fun k => avxConvSetPatch { cfg with budget := none } c.base.row (shiftMem x (k * cfg.nLits)))
    (fun k => by rw [hr]; exact patch_out cfg hn v _ _) k' k
  refine ⟨⟨?_, ?_, ?_⟩, ?_, low⟩
  · simp only [hr] at s1
    simp only [avxConvSetClause, hr, hw, s1]
  · simp only [avxConvSetClause, convSelect, s2, h2]
    split <;> rfl
  · simp only [avxConvSetClause, convSelect]
    split
    · exact h3
    · exact low _
  · simp only [avxConvSetClause, convSelect, s2]
    split <;> rfl

theorem vsets (cfg : VCfg) (hn : 0 < cfg.nLits) (v np : Nat) (hv : 2 * cfg.nLits ≤ v) (x : Mem) (cs ds : List VConvClause)
    (h : List.Forall₂ (V v) cs ds) (k k' : Nat → Nat) (hk : ∀ i, k' i ≤ v) (g : Rng) :
    List.Forall₂ (V v) (avxConvSetClauses { cfg with budget := none } np x cs k g).1 (avxConvSetClauses { cfg with budget := some v } np x ds k' g).1 ∧
      (avxConvSetClauses { cfg with budget := some v } np x ds k' g).2.2 = (avxConvSetClauses { cfg with budget := none } np x cs k g).2.2 ∧
      ∀ i, (avxConvSetClauses { cfg with budget := some v } np x ds k' g).2.1 i ≤ v := by
  induction h generalizing k k' g with
  | nil => exact ⟨.nil, rfl, hk⟩
  | @cons c d cs ds h _ ih =>
    obtain ⟨e1, e2, e3⟩ := vset cfg hn v np hv x c d h k k' hk g
    obtain ⟨i1, i2, i3⟩ := ih (avxConvSetClause { cfg with budget := none } np x c k g).2.1
      (avxConvSetClause { cfg with budget := some v } np x d k' g).2.1 e3 (avxConvSetClause { cfg with budget := none } np x c k g).2.2
    simp only [avxConvSetClauses, e2]
    exact ⟨.cons e1 i1, i2, i3⟩

theorem vupdate (cfg : VCfg) (v : Nat) (x : Mem) (j : Nat) (t : Int) (c : VClause) (m : Nat) (g : VRng) :
    avxClauseUpdate { cfg with budget := some v } x j t { c with cnt := m } g =
      ({ (avxClauseUpdate { cfg with budget := none } x j t c g).1 with cnt := m }, (avxClauseUpdate { cfg with budget := none } x j t c g).2) := by
  have ha : ∀ row g, avxT1a { cfg with budget := some v } row x g = avxT1a { cfg with budget := none } row x g := fun _ _ => rfl
  have hb : ∀ row g, avxT1b { cfg with budget := some v } row g = avxT1b { cfg with budget := none } row g := fun _ _ => rfl
  have h2 : ∀ row g, avxT2 { cfg with budget := some v } row x g = avxT2 { cfg with budget := none } row x g := fun _ _ => rfl
  simp only [avxClauseUpdate, ha, hb, h2]
  generalize (if c.w.getD j 0 ≥ 0 then (1 : Int) else -1) = sign
  split
  · split <;> rfl
  · split <;> rfl

theorem vtrain (cfg : VCfg) (v : Nat) (x : Mem) (fb : Feedback) (c d : VConvClause) (h : V v c d) (f : Rng) (g : VRng) :
    V v (avxConvTrainClause { cfg with budget := none } x fb c f g).1 (avxConvTrainClause { cfg with budget := some v } x fb d f g).1 ∧
      (avxConvTrainClause { cfg with budget := some v } x fb d f g).2 = (avxConvTrainClause { cfg with budget := none } x fb c f g).2 := by
  obtain ⟨h1, h2, h3⟩ := h
  have e : ∀ y, avxTrainClause { cfg with budget := some v } y fb { c.base with cnt := d.base.cnt } f g =
      ({ (avxTrainClause { cfg with budget := none } y fb c.base f g).1 with cnt := d.base.cnt },
        (avxTrainClause { cfg with budget := none } y fb c.base f g).2) := by
    intro y
    have hg : avxBudgetGate { cfg with budget := some v } { c.base with cnt := d.base.cnt } = { c.base with cnt := d.base.cnt } :=
      if_neg (by show ¬ d.base.cnt > v; omega)
    simp only [avxTrainClause, hg]
    simp only [avxBudgetGate]
    by_cases p : f.next.1 < fb.posProb
    · simp only [p, if_true, vupdate]
      split <;> rfl
    · simp only [p, if_false, vupdate]
      split <;> rfl
  simp only [avxConvTrainClause]
  rw [h1, h2, e]
  exact ⟨⟨rfl, rfl, h3⟩, rfl⟩

theorem vtrains (cfg : VCfg) (v : Nat) (x : Mem) (fb : Feedback) (cs ds : List VConvClause) (h : List.Forall₂ (V v) cs ds) (f : Rng) (g : VRng) :
    List.Forall₂ (V v) (avxConvTrainClauses { cfg with budget := none } x fb cs f g).1 (avxConvTrainClauses { cfg with budget := some v } x fb ds f g).1 ∧
      (avxConvTrainClauses { cfg with budget := some v } x fb ds f g).2 = (avxConvTrainClauses { cfg with budget := none } x fb cs f g).2 := by
  induction h generalizing f g with
  | nil => exact ⟨.nil, rfl⟩
  | @cons c d cs ds h _ ih =>
    obtain ⟨e1, e2⟩ := vtrain cfg v x fb c d h f g
    obtain ⟨i1, i2⟩ := ih (avxConvTrainClause { cfg with budget := none } x fb c f g).2.1 (avxConvTrainClause { cfg with budget := none } x fb c f g).2.2
    simp only [avxConvTrainClauses, e2]
    exact ⟨.cons e1 i1, by rw [i2]⟩

theorem vvotes (v m : Nat) (cs ds : List VConvClause) (h : List.Forall₂ (V v) cs ds) :
    avxCountVotes m (ds.map (·.base)) = avxCountVotes m (cs.map (·.base)) := by
  unfold avxCountVotes
  generalize List.replicate m (0 : Int) = acc
  induction h generalizing acc with
  | nil => rfl
  | cons h _ ih =>
    simp only [List.map_cons, List.foldl_cons]
    rw [h.base]
    exact ih _

theorem veval (cfg : VCfg) (v np : Nat) (x : Mem) (cs ds : List VConvClause) (h : List.Forall₂ (V v) cs ds) :
    List.Forall₂ (V v) (cs.map (avxConvEvalClause { cfg with budget := none } np x)) (ds.map (avxConvEvalClause { cfg with budget := some v } np x)) := by
  rw [List.forall₂_map_left_iff, List.forall₂_map_right_iff]
  refine h.imp fun c e q => ?_
  refine ⟨?_, q.patch, q.cnt⟩
  have := q.base
  simp only [avxConvEvalClause]
  rw [this]
  rfl

/-- The same AVX2 block without a budget, and with one that nothing exceeds. -/
structure VSame (b d : VConvBlock) : Prop where
  nClasses : d.nClasses = b.nClasses
  nPatches : d.nPatches = b.nPatches
  votes    : d.votes = b.votes
  fast     : d.fast = b.fast
  rng      : d.rng = b.rng
  vrng     : d.vrng = b.vrng
  budget   : b.cfg = { d.cfg with budget := none }
  lits     : 0 < d.cfg.nLits
  low      : ∃ v, d.cfg = { d.cfg with budget := some v } ∧ 2 * d.cfg.nLits ≤ v ∧ (∀ i, d.counts i ≤ v) ∧ List.Forall₂ (V v) b.clauses d.clauses

theorem vsim : Sim avxConvBackend avxConvBackend (fun _ _ => True) VSame where
  trainVotes b d x h _ := by
    obtain ⟨v, h1, h0, h2, h3⟩ := h.low
    have := (vsets d.cfg h.lits v b.nPatches h0 x _ _ h3 b.counts d.counts h2 b.rng).1
    simp only [avxConvBackend, VConvBlock.apply, h.nClasses, h.nPatches, h.rng, h.budget]
    rw [h1]
    exact (vvotes v _ _ _ this).symm
  trainStep b d x fb h _ := by
    obtain ⟨v, h1, h0, h2, h3⟩ := h.low
    obtain ⟨s1, s2, s3⟩ := vsets d.cfg h.lits v b.nPatches h0 x _ _ h3 b.counts d.counts h2 b.rng
    obtain ⟨t1, t2⟩ := vtrains d.cfg v x fb _ _ s1 b.fast b.vrng
    rw [← h1] at s1 s2 s3 t1 t2
    simp only [avxConvBackend, VConvBlock.apply, h.budget]
    refine ⟨h.nClasses, h.nPatches, ?_, ?_, ?_, ?_, rfl, h.lits, v, h1, h0, ?_, ?_⟩
    · simp only [h.nClasses, h.nPatches, h.rng]
      exact vvotes v _ _ _ s1
    · simp only [h.nPatches, h.fast, h.rng, h.vrng, t2]
    · simp only [h.nPatches, h.rng, s2]
    · simp only [h.nPatches, h.fast, h.rng, h.vrng, t2]
    · simp only [h.nPatches, h.rng]; exact s3
    · simp only [h.nPatches, h.fast, h.rng, h.vrng]; exact t1
  evalVotes b d x h _ := by
    obtain ⟨v, h1, h0, h2, h3⟩ := h.low
    simp only [avxConvBackend, VConvBlock.apply, h.nClasses, h.nPatches, h.budget]
    rw [h1]
    exact (vvotes v _ _ _ (veval d.cfg v _ x _ _ h3)).symm
  evalStep b d x h _ := by
    obtain ⟨v, h1, h0, h2, h3⟩ := h.low
    have h4 := veval d.cfg v b.nPatches x _ _ h3
    rw [← h1] at h4
    simp only [avxConvBackend, VConvBlock.apply, h.budget]
    refine ⟨h.nClasses, h.nPatches, ?_, h.fast, h.rng, h.vrng, rfl, h.lits, v, h1, h0, h2, ?_⟩
    · simp only [h.nClasses, h.nPatches]; exact vvotes v _ _ _ h4
    · simp only [h.nPatches]; exact h4
  okTrain := fun _ _ _ _ _ => trivial
  okEval := fun _ _ _ _ => trivial
  left := fun _ => rfl
  right := fun _ => rfl

def vbare (e : Exec VConvBlock) : Exec VConvBlock := { e with blocks := e.blocks.map fun b => { b with cfg := { b.cfg with budget := none } } }

theorem ample_v {b : VConvBlock} (h : AmpleAvxBudget b) : ∃ v, b.cfg = { b.cfg with budget := some v } ∧ 2 * b.cfg.nLits ≤ v ∧
    (∀ i, b.counts i ≤ v) ∧ List.Forall₂ (V v) b.clauses b.clauses := by
  obtain ⟨-, v, h1, h0, h2, h3⟩ := h
  exact ⟨v, by rw [← h1], h0, h2, List.forall₂_same.2 fun c hc => ⟨rfl, rfl, h3 c hc⟩⟩

theorem faces_v {v : Nat} {cs ds : List VConvClause} (h : List.Forall₂ (V v) cs ds) : ds.map (avxFace ·.base) = cs.map (avxFace ·.base) := by
  induction h with
  | nil => rfl
  | cons h _ ih => simp only [List.map_cons, ih]; rw [h.base]; rfl

theorem vconv_ample (smp : List Rat → Rat → Nat) (calls : List (Mem × Option Nat)) (e : Exec VConvBlock) (os : List (List Nat))
    (hos : List.Forall₂ (fun o b => OrderOf b.clauses.length o) os e.blocks) (hb : ∀ b ∈ e.blocks, AmpleAvxBudget b) :
    ∃ gs : List ((Rng × Rng) × VRng),
      List.Forall₂ (fun b g => Reshuffled b.fast g.1.1 ∧ Reshuffled b.rng g.1.2 ∧ ReshuffledVectors b.vrng g.2) e.blocks gs ∧ ∀ k,
      let d := reorderedExec reorderedAvxConv e os gs
      (runCalls avxConvBackend smp (calls.take k) d).2 = (runCalls avxConvBackend smp (calls.take k) e).2 ∧
      (runCalls avxConvBackend smp (calls.take k) d).1.fb = (runCalls avxConvBackend smp (calls.take k) e).1.fb ∧
      List.Forall₂ (fun ob d => d.clauses.map (avxFace ·.base) = reorder ob.1 (ob.2.clauses.map (avxFace ·.base)) ∧ d.votes = ob.2.votes)
        (os.zip (runCalls avxConvBackend smp (calls.take k) e).1.blocks) (runCalls avxConvBackend smp (calls.take k) d).1.blocks := by
  have hos' : List.Forall₂ (fun o (b : VConvBlock) => OrderOf b.clauses.length o) os (vbare e).blocks := by
    rw [vbare, List.forall₂_map_right_iff]; exact hos
  obtain ⟨gs, hg, h⟩ := ClauseOrder.vconv_any smp calls (vbare e) os hos' (by simp [vbare])
  rw [vbare, List.forall₂_map_left_iff] at hg
  refine ⟨gs, hg, fun k => ?_⟩
  have hs : List.Forall₂ VSame (vbare e).blocks e.blocks := by
    rw [vbare, List.forall₂_map_left_iff]
    exact List.forall₂_same.2 fun b hm => ⟨rfl, rfl, rfl, rfl, rfl, rfl, rfl, (hb b hm).1, ample_v (hb b hm)⟩
  have hd : List.Forall₂ VSame (reorderedExec reorderedAvxConv (vbare e) os gs).blocks (reorderedExec reorderedAvxConv e os gs).blocks := by
    simp only [reorderedExec, vbare]
    clear h hos hos' hs
    generalize e.blocks = bs at *
    induction os generalizing bs gs with
    | nil => exact .nil
    | cons o os ih =>
      cases hg with
      | nil => exact .nil
      | @cons b g bs gs hg1 hg2 =>
        refine .cons ?_ (ih gs bs (fun b h => hb b (List.mem_cons_of_mem _ h)) hg2)
        obtain ⟨v, q1, q0, q2, q3⟩ := ample_v (hb b (List.mem_cons_self ..))
        exact ⟨rfl, rfl, rfl, rfl, rfl, rfl, rfl, (hb b (List.mem_cons_self ..)).1, v, q1, q0, q2, reorder_rel q3 o⟩
  obtain ⟨a1, a2, a3⟩ := run_sim vsim smp (calls.take k) (vbare e) e rfl hs (fun _ _ _ _ => trivial)
  obtain ⟨b1, b2, b3⟩ := run_sim vsim smp (calls.take k) (reorderedExec reorderedAvxConv (vbare e) os gs) (reorderedExec reorderedAvxConv e os gs) rfl hd
    (fun _ _ _ _ => trivial)
  obtain ⟨c1, c2, c3⟩ := h k
  refine ⟨by rw [b1, c1, a1], by rw [b2, c2, a2], ?_⟩
  refine chain (P := fun ob d => d.clauses = reorder ob.1 ob.2.clauses ∧ d.votes = ob.2.votes) ?_ os _ _ _ _ a3 b3 c3
  rintro o x y x' y' h1 h2 ⟨p1, p2⟩
  obtain ⟨v, -, -, -, l1⟩ := h1.low
  obtain ⟨w, -, -, -, l2⟩ := h2.low
  refine ⟨?_, ?_⟩
  · show y'.clauses.map (avxFace ·.base) = reorder o (y.clauses.map (avxFace ·.base))
    rw [faces_v l1, faces_v l2, p1, ClauseOrder.reorder_map]
  · show y'.votes = y.votes
    rw [h2.votes, h1.votes]; exact p2

end GT.LargeBudget

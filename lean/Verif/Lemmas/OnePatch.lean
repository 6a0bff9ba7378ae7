import Verif.Spec.OnePatch
import Verif.Lemmas.Conv
import Verif.Lemmas.Executor

/-! # Lemmas: a convolutional machine with one patch is a dense machine (C99) -/

namespace GT.OnePatch
open GT GT.Spec

/-! ## Two machines in step -/

/-- What it takes for two kinds of block to stay related through training and prediction. -/
structure Sim {B D E : Type} (be : Backend B E) (de : Backend D E) (ok : B → E → Prop) (R : B → D → Prop) : Prop where
  trainVotes : ∀ b d x, R b d → ok b x → be.votes (be.trainExample b x) = de.votes (de.trainExample d x)
  trainStep : ∀ b d x fb, R b d → ok b x →
    R (be.trainUpdate (be.trainExample b x) x fb) (de.trainUpdate (de.trainExample d x) x fb)
  evalVotes : ∀ b d x, R b d → ok b x → be.votes (be.evalExample b x) = de.votes (de.evalExample d x)
  evalStep : ∀ b d x, R b d → ok b x → R (be.evalExample b x) (de.evalExample d x)
  okTrain : ∀ b x fb y, ok b y → ok (be.trainUpdate (be.trainExample b x) x fb) y
  okEval : ∀ b x y, ok b y → ok (be.evalExample b x) y
  left : ∀ b, be.trainable b = true
  right : ∀ d, de.trainable d = true

theorem exampleLoop_fb {B D : Type} (f : B → B) (v : B → List Int) (f' : D → D) (v' : D → List Int)
    (bs : List B) (ds : List D) (h : List.Forall₂ (fun b d => v (f b) = v' (f' d)) bs ds) (fb : FB) :
    (exampleLoop f v bs fb).2 = (exampleLoop f' v' ds fb).2 := by
  induction h generalizing fb with
  | nil => rfl
  | cons h _ ih => simp only [exampleLoop]; rw [h, ih]

theorem trainOne_blocks {B E : Type} (be : Backend B E) (smp : List Rat → Rat → Nat) (e : Exec B) (x : E) (y : Nat)
    (ht : ∀ b, be.trainable b = true) :
    (e.trainOne be smp x y).blocks =
      e.blocks.map fun b => be.trainUpdate (be.trainExample b x) x (e.trainOne be smp x y).fb.feedback := by
  simp only [Exec.trainOne, exampleLoop_blocks, List.map_map, ht, if_true]
  rfl

theorem evalOne_blocks {B E : Type} (be : Backend B E) (e : Exec B) (x : E) :
    (e.evalOne be x).1.blocks = e.blocks.map fun b => be.evalExample b x := by
  simp only [Exec.evalOne, exampleLoop_blocks]

theorem trainOne_fb {B D E : Type} (be : Backend B E) (de : Backend D E) (smp : List Rat → Rat → Nat) (e : Exec B) (d : Exec D)
    (x : E) (y : Nat) (hf : d.fb = e.fb)
    (h : List.Forall₂ (fun b d => be.votes (be.trainExample b x) = de.votes (de.trainExample d x)) e.blocks d.blocks) :
    (d.trainOne de smp x y).fb = (e.trainOne be smp x y).fb := by
  simp only [Exec.trainOne]
  rw [hf, exampleLoop_fb _ _ _ _ _ _ h]

theorem evalOne_fb {B D E : Type} (be : Backend B E) (de : Backend D E) (e : Exec B) (d : Exec D)
    (x : E) (hf : d.fb = e.fb)
    (h : List.Forall₂ (fun b d => be.votes (be.evalExample b x) = de.votes (de.evalExample d x)) e.blocks d.blocks) :
    (d.evalOne de x).1.fb = (e.evalOne be x).1.fb ∧ (d.evalOne de x).2 = (e.evalOne be x).2 := by
  simp only [Exec.evalOne]
  rw [hf, exampleLoop_fb _ _ _ _ _ _ h]
  exact ⟨rfl, rfl⟩

theorem forall₂_and {α β : Type} {P : α → Prop} {R S : α → β → Prop} {as : List α} {bs : List β} (h : List.Forall₂ R as bs)
    (hP : ∀ a ∈ as, P a) (hS : ∀ a b, P a → R a b → S a b) : List.Forall₂ S as bs := by
  induction h with
  | nil => exact .nil
  | cons h _ ih =>
    exact .cons (hS _ _ (hP _ (List.mem_cons_self ..)) h) (ih fun a ha => hP a (List.mem_cons_of_mem _ ha))

theorem run_sim {B D E : Type} {be : Backend B E} {de : Backend D E} {ok : B → E → Prop} {R : B → D → Prop}
    (hs : Sim be de ok R) (smp : List Rat → Rat → Nat) (cs : List (E × Option Nat)) (e : Exec B) (d : Exec D)
    (hf : d.fb = e.fb) (hR : List.Forall₂ R e.blocks d.blocks) (hok : ∀ b ∈ e.blocks, ∀ c ∈ cs, ok b c.1) :
    (runCalls de smp cs d).2 = (runCalls be smp cs e).2 ∧ (runCalls de smp cs d).1.fb = (runCalls be smp cs e).1.fb ∧
    List.Forall₂ R (runCalls be smp cs e).1.blocks (runCalls de smp cs d).1.blocks := by
  induction cs generalizing e d with
  | nil => exact ⟨rfl, hf, hR⟩
  | cons c cs ih =>
    obtain ⟨x, l⟩ := c
    have hx : ∀ b ∈ e.blocks, ok b x := fun b hb => hok b hb _ (List.mem_cons_self ..)
    cases l with
    | none =>
      have h1 := evalOne_fb be de e d x hf (forall₂_and hR hx fun b d hb hr => hs.evalVotes b d x hr hb)
      have h2 : List.Forall₂ R (e.evalOne be x).1.blocks (d.evalOne de x).1.blocks := by
        rw [evalOne_blocks, evalOne_blocks, List.forall₂_map_left_iff, List.forall₂_map_right_iff]
        exact forall₂_and hR hx fun b d hb hr => hs.evalStep b d x hr hb
      have h3 := ih (e.evalOne be x).1 (d.evalOne de x).1 h1.1 h2 (by
        intro b hb c hc
        rw [evalOne_blocks] at hb
        obtain ⟨b', hb', rfl⟩ := List.mem_map.1 hb
        exact hs.okEval b' x c.1 (hok b' hb' c (List.mem_cons_of_mem _ hc)))
      refine ⟨?_, h3.2⟩
      simp only [runCalls]
      rw [h1.2, h3.1]
    | some y =>
      have h1 := trainOne_fb be de smp e d x y hf (forall₂_and hR hx fun b d hb hr => hs.trainVotes b d x hr hb)
      have h2 : List.Forall₂ R (e.trainOne be smp x y).blocks (d.trainOne de smp x y).blocks := by
        rw [trainOne_blocks be smp e x y hs.left, trainOne_blocks de smp d x y hs.right, h1, List.forall₂_map_left_iff,
          List.forall₂_map_right_iff]
        exact forall₂_and hR hx fun b d hb hr => hs.trainStep b d x _ hr hb
      exact ih (e.trainOne be smp x y) (d.trainOne de smp x y) h1 h2 (by
        intro b hb c hc
        rw [trainOne_blocks be smp e x y hs.left] at hb
        obtain ⟨b', hb', rfl⟩ := List.mem_map.1 hb
        exact hs.okTrain b' x _ c.1 (hok b' hb' c (List.mem_cons_of_mem _ hc)))

/-! ## How many numbers a step draws, and that it looks at no others -/

/-- The computation draws some numbers, one after the other, and depends on no other number of the stream. -/
def Local {α : Type} (f : Rng → α × Rng) : Prop :=
  ∀ g, ∃ k, (f g).2 = ⟨g.draw, g.pos + k⟩ ∧
    ∀ g' : Rng, (∀ i, i < k → g'.draw (g'.pos + i) = g.draw (g.pos + i)) → f g' = ((f g).1, ⟨g'.draw, g'.pos + k⟩)

theorem local_ret {α : Type} (a : α) : Local fun g => (a, g) := fun _ => ⟨0, rfl, fun _ _ => rfl⟩

theorem local_next : Local Rng.next := by
  intro g
  refine ⟨1, rfl, fun g' h => ?_⟩
  have := h 0 (by omega)
  simp only [Nat.add_zero] at this
  simp only [Rng.next, this]

theorem local_bind {α β : Type} {f : Rng → α × Rng} {h : α → Rng → β × Rng} (hf : Local f) (hh : ∀ a, Local (h a)) :
    Local fun g => h (f g).1 (f g).2 := by
  intro g
  obtain ⟨k, e1, l1⟩ := hf g
  obtain ⟨m, e2, l2⟩ := hh (f g).1 (f g).2
  rw [e1] at e2 l2
  refine ⟨k + m, ?_, fun g' hg => ?_⟩
  · show (h (f g).1 (f g).2).2 = _
    rw [e1, e2, Nat.add_assoc]
  · have a1 := l1 g' fun i hi => hg i (by omega)
    have a2 := l2 ⟨g'.draw, g'.pos + k⟩ fun i hi => by
      have := hg (k + i) (by omega)
      simpa only [Nat.add_assoc] using this
    show h (f g').1 (f g').2 = ((h (f g).1 (f g).2).1, _)
    rw [a1, a2, e1, Nat.add_assoc]

theorem local_map {α β : Type} {f : Rng → α × Rng} (hf : Local f) (t : α → β) : Local fun g => (t (f g).1, (f g).2) :=
  local_bind (h := fun a g => (t a, g)) hf fun a => local_ret (t a)

theorem t1a_local (cfg : Cfg) (ps qs : List Int) (xs : List Nat) :
    Local fun g => (((t1a cfg ps qs xs g).1, (t1a cfg ps qs xs g).2.1), (t1a cfg ps qs xs g).2.2) := by
  induction ps generalizing qs xs with
  | nil => simp only [t1a]; exact local_ret _
  | cons p ps ih =>
    cases qs with
    | nil => simp only [t1a]; exact local_ret _
    | cons q qs =>
      cases xs with
      | nil => simp only [t1a]; exact local_ret _
      | cons x xs =>
        have hrec : ∀ p' q', Local fun g => (((p' :: (t1a cfg ps qs xs g).1, q' :: (t1a cfg ps qs xs g).2.1) : List Int × List Int),
            (t1a cfg ps qs xs g).2.2) := fun p' q' => local_map (ih qs xs) fun r => (p' :: r.1, q' :: r.2)
        by_cases hx : x = 1
        · by_cases hb : cfg.boost = true
          · simp only [t1a, hx, hb, if_true]
            exact local_bind local_next fun a => hrec _ (if a ≤ cfg.sInv then decState q else q)
          · simp only [t1a, hx, hb, if_true]
            exact local_bind local_next fun a => local_bind local_next fun b =>
              hrec (if a ≤ cfg.sMin1Inv then incState p else p) (if b ≤ cfg.sInv then decState q else q)
        · simp only [t1a, hx, if_false]
          exact local_bind local_next fun a => local_bind local_next fun b =>
            hrec (if a ≤ cfg.sInv then decState p else p) (if b ≤ cfg.sMin1Inv then incState q else q)

theorem t1b_local (cfg : Cfg) (ps qs : List Int) :
    Local fun g => (((t1b cfg ps qs g).1, (t1b cfg ps qs g).2.1), (t1b cfg ps qs g).2.2) := by
  induction ps generalizing qs with
  | nil => simp only [t1b]; exact local_ret _
  | cons p ps ih =>
    cases qs with
    | nil => simp only [t1b]; exact local_ret _
    | cons q qs =>
      have hrec : ∀ p' q', Local fun g => (((p' :: (t1b cfg ps qs g).1, q' :: (t1b cfg ps qs g).2.1) : List Int × List Int),
          (t1b cfg ps qs g).2.2) := fun p' q' => local_map (ih qs) fun r => (p' :: r.1, q' :: r.2)
      simp only [t1b]
      exact local_bind local_next fun a => local_bind local_next fun b =>
        hrec (if a ≤ cfg.sInv then decState p else p) (if b ≤ cfg.sInv then decState q else q)

theorem clauseUpdate_local (cfg : Cfg) (x : List Nat) (j : Nat) (t : Int) (c : Clause) : Local (clauseUpdate cfg x j t c) := by
  unfold clauseUpdate
  simp only []
  generalize (if c.w.getD j 0 ≥ 0 then (1 : Int) else -1) = sign
  by_cases h1 : t * sign > 0
  · by_cases h2 : c.out = 1
    · simp only [h1, h2, if_true]
      exact local_map (t1a_local cfg c.pos c.neg x)
        fun r => { c with w := c.w.set j (wrap16 (c.w.getD j 0 + sign)), pos := r.1, neg := r.2, out := 1 }
    · simp only [h1, h2, if_true, if_false]
      exact local_map (t1b_local cfg c.pos c.neg) fun r => { c with pos := r.1, neg := r.2 }
  · simp only [h1, if_false]
    split
    · exact local_ret _
    · exact local_ret _

theorem trainClause_local (cfg : Cfg) (x : List Nat) (fb : Feedback) (c : Clause) (f : Rng) :
    Local fun g => (((trainClause cfg x fb c f g).1, (trainClause cfg x fb c f g).2.1), (trainClause cfg x fb c f g).2.2) := by
  have h1 : Local fun g => if f.next.1 < fb.posProb then clauseUpdate cfg x fb.posClass 1 (budgetGate cfg c) g else (budgetGate cfg c, g) := by
    split
    · exact clauseUpdate_local _ _ _ _ _
    · exact local_ret _
  have h2 : ∀ a, Local fun g => if f.next.2.next.1 < fb.negProb then clauseUpdate cfg x fb.negClass (-1) a g else (a, g) := by
    intro a
    split
    · exact clauseUpdate_local _ _ _ _ _
    · exact local_ret _
  exact local_map (local_bind h1 h2) fun c' => (c', f.next.2.next.2)

theorem trainClauses_local (cfg : Cfg) (x : List Nat) (fb : Feedback) (cs : List Clause) (f : Rng) :
    Local fun g => (((trainClauses cfg x fb cs f g).1, (trainClauses cfg x fb cs f g).2.1), (trainClauses cfg x fb cs f g).2.2) := by
  induction cs generalizing f with
  | nil => simp only [trainClauses]; exact local_ret _
  | cons c cs ih =>
    exact local_bind
      (h := fun a g => (((a.1 :: (trainClauses cfg x fb cs a.2 g).1), (trainClauses cfg x fb cs a.2 g).2.1),
        (trainClauses cfg x fb cs a.2 g).2.2))
      (trainClause_local cfg x fb c f) fun a => local_map (ih a.2) fun r => (a.1 :: r.1, r.2)

/-! ## What a training step looks at in a clause -/

/-- Equal for training: the same rows, weights and output, and the same literal count if the clause fired and there is a budget. -/
def SameFor (cfg : Cfg) (c d : Clause) : Prop := face c = face d ∧ (c.out = 1 → cfg.budget.isSome = true → c.cnt = d.cnt)

theorem face_iff {c d : Clause} : face c = face d ↔ c.pos = d.pos ∧ c.neg = d.neg ∧ c.w = d.w ∧ c.out = d.out := by
  simp [face]

theorem face_cnt {c d : Clause} (h : face c = face d) : d = { c with cnt := d.cnt } := by
  obtain ⟨h1, h2, h3, h4⟩ := face_iff.1 h
  cases c; cases d; simp only at h1 h2 h3 h4; subst h1 h2 h3 h4; rfl

theorem clauseUpdate_face (cfg : Cfg) (x x' : List Nat) (j : Nat) (t : Int) (c d : Clause) (g : Rng) (h : face c = face d)
    (hx : c.out = 1 → x = x') :
    face (clauseUpdate cfg x j t c g).1 = face (clauseUpdate cfg x' j t d g).1 ∧
    (clauseUpdate cfg x j t c g).2 = (clauseUpdate cfg x' j t d g).2 ∧
    (clauseUpdate cfg x j t c g).1.out = c.out := by
  obtain ⟨h1, h2, h3, h4⟩ := face_iff.1 h
  unfold clauseUpdate
  simp only [← h1, ← h2, ← h3, ← h4]
  generalize (if c.w.getD j 0 ≥ 0 then (1 : Int) else -1) = sign
  by_cases ho : c.out = 1
  · obtain rfl := hx ho
    by_cases ht : t * sign > 0
    · simp [ht, ho, face]
    · by_cases ht' : t * sign < 0
      · simp [ht, ht', ho, face]
      · simp [ht, ht', ho, face, ← h1, ← h2, ← h3, ← h4]
  · by_cases ht : t * sign > 0
    · simp [ht, ho, face]
    · simp [ht, ho, face, ← h1, ← h2, ← h3]; omega

theorem budgetGate_face (cfg : Cfg) (c d : Clause) (h01 : c.out = 0 ∨ c.out = 1) (h : SameFor cfg c d) :
    face (budgetGate cfg c) = face (budgetGate cfg d) ∧ ((budgetGate cfg c).out = 1 → c.out = 1) := by
  obtain ⟨h1, h2, h3, h4⟩ := face_iff.1 h.1
  unfold budgetGate
  cases hb : cfg.budget with
  | none => exact ⟨h.1, id⟩
  | some b =>
    simp only []
    rcases h01 with ho | ho
    · split <;> split <;> simp_all [face]
    · have := h.2 ho (by rw [hb]; rfl)
      rw [← this]
      split <;> simp_all [face]

theorem trainClause_face (cfg : Cfg) (x x' : List Nat) (fb : Feedback) (c d : Clause) (f g : Rng) (h01 : c.out = 0 ∨ c.out = 1)
    (h : SameFor cfg c d) (hx : c.out = 1 → x = x') :
    face (trainClause cfg x fb c f g).1 = face (trainClause cfg x' fb d f g).1 ∧
    (trainClause cfg x fb c f g).2 = (trainClause cfg x' fb d f g).2 := by
  obtain ⟨hg, ho⟩ := budgetGate_face cfg c d h01 h
  unfold trainClause
  simp only []
  have hx0 : (budgetGate cfg c).out = 1 → x = x' := fun h => hx (ho h)
  have a := clauseUpdate_face cfg x x' fb.posClass 1 _ _ g hg hx0
  by_cases hp : f.next.1 < fb.posProb
  · simp only [hp, if_true]
    have b := clauseUpdate_face cfg x x' fb.negClass (-1) _ _ (clauseUpdate cfg x fb.posClass 1 (budgetGate cfg c) g).2 a.1
      fun h => hx0 (a.2.2 ▸ h)
    by_cases hn : f.next.2.next.1 < fb.negProb
    · simp only [hn, if_true]
      rw [← a.2.1]
      exact ⟨b.1, by rw [b.2.1]⟩
    · simp only [hn, if_false]
      exact ⟨a.1, by rw [a.2.1]⟩
  · simp only [hp, if_false]
    have b := clauseUpdate_face cfg x x' fb.negClass (-1) _ _ g hg hx0
    by_cases hn : f.next.2.next.1 < fb.negProb
    · simp only [hn, if_true]
      exact ⟨b.1, by rw [b.2.1]⟩
    · simp only [hn, if_false]
      exact ⟨hg, trivial⟩

theorem trainClauses_face (cfg : Cfg) (x : List Nat) (fb : Feedback) (cs ds : List Clause) (f g : Rng)
    (h : List.Forall₂ (fun c d => (c.out = 0 ∨ c.out = 1) ∧ SameFor cfg c d) cs ds) :
    (trainClauses cfg x fb cs f g).1.map face = (trainClauses cfg x fb ds f g).1.map face ∧
    (trainClauses cfg x fb cs f g).2 = (trainClauses cfg x fb ds f g).2 := by
  induction h generalizing f g with
  | nil => exact ⟨rfl, rfl⟩
  | @cons c d _ _ h _ ih =>
    have a := trainClause_face cfg x x fb c d f g h.1 h.2 fun _ => rfl
    simp only [trainClauses, List.map_cons]
    rw [← a.2, a.1]
    have b := ih (trainClause cfg x fb c f g).2.1 (trainClause cfg x fb c f g).2.2
    exact ⟨by rw [b.1], b.2⟩

theorem convTrainClauses_face (cfg : Cfg) (n : Nat) (x : List Nat) (fb : Feedback) (cs : List ConvClause) (ds : List Clause) (f g : Rng)
    (h : List.Forall₂ (fun (c : ConvClause) d => (c.base.out = 0 ∨ c.base.out = 1) ∧ SameFor cfg c.base d ∧
      (c.base.out = 1 → patchAt n x c.patch = x)) cs ds) :
    (convTrainClauses cfg n x fb cs f g).1.map (fun c => face c.base) = (trainClauses cfg x fb ds f g).1.map face ∧
    (convTrainClauses cfg n x fb cs f g).2 = (trainClauses cfg x fb ds f g).2 := by
  induction h generalizing f g with
  | nil => exact ⟨rfl, rfl⟩
  | @cons c d _ _ h _ ih =>
    have a := trainClause_face cfg (patchAt n x c.patch) x fb c.base d f g h.1 h.2.1 h.2.2
    simp only [convTrainClauses, convTrainClause, trainClauses, List.map_cons]
    rw [← a.2, a.1]
    have b := ih (trainClause cfg (patchAt n x c.patch) fb c.base f g).2.1 (trainClause cfg (patchAt n x c.patch) fb c.base f g).2.2
    exact ⟨by rw [b.1], b.2⟩

/-! ## The outputs with one patch -/

theorem setOutLoop_01 (bud : Bool) (ps qs : List Int) (xs : List Nat) (a b : Nat) :
    (setOutLoop bud ps qs xs a b).1 = 0 ∨ (setOutLoop bud ps qs xs a b).1 = 1 := by
  induction ps generalizing qs xs a b with
  | nil => simp [setOutLoop]
  | cons p ps ih =>
    cases qs with
    | nil => simp [setOutLoop]
    | cons q qs =>
      cases xs with
      | nil => simp [setOutLoop]
      | cons x xs =>
        simp only [setOutLoop]
        split
        · exact .inl rfl
        · split
          · exact .inl rfl
          · exact ih ..

theorem patchAt_zero (n : Nat) (x : List Nat) (h : x.length = n) : patchAt n x 0 = x := by
  simp [patchAt, ← h]

theorem convSetClause_one (cfg : Cfg) (n : Nat) (x : List Nat) (hx : x.length = n) (c : ConvClause) (counts : Nat → Nat) (g : Rng)
    (d : Clause) (hd : face d = face c.base) :
    let c' := (convSetClause cfg n 1 x c counts g).1
    ((c'.base.out = 0 ∨ c'.base.out = 1) ∧ SameFor cfg c'.base (setOutClause cfg x d) ∧ (c'.base.out = 1 → patchAt n x c'.patch = x)) ∧
    ∃ k, (convSetClause cfg n 1 x c counts g).2.2 = ⟨g.draw, g.pos + k⟩ := by
  obtain ⟨h1, h2, h3, h4⟩ := face_iff.1 hd
  have e := convSetLoop_eq cfg.budget.isSome c.base.pos c.base.neg x 0 0
  rw [Nat.add_zero] at e
  have h01 := setOutLoop_01 cfg.budget.isSome c.base.pos c.base.neg x 0 0
  simp only [convSetClause, convScan, List.range_one, List.foldl_cons, List.foldl_nil, Scan.step, patchAt_zero n x hx, e]
  by_cases ho : (setOutLoop cfg.budget.isSome c.base.pos c.base.neg x 0 0).1 = 1
  · have hp : ∀ g : Rng, (g.pick 1).1 = 0 := fun g => by simp [Rng.pick]
    simp only [ho, decide_true, if_true, convSelect, List.nil_append, List.length_cons, List.length_nil]
    refine ⟨⟨.inr trivial, ⟨?_, ?_⟩, fun _ => ?_⟩, 1, ?_⟩
    · simp [face, setOutClause, h1, h2, h3, ho]
    · intro _ hb
      simp [setOutClause, h1, h2, hb, hp]
    · simp [hp, patchAt_zero n x hx]
    · simp [Rng.pick, Rng.next]
  · have h0 : (setOutLoop cfg.budget.isSome c.base.pos c.base.neg x 0 0).1 = 0 := by omega
    simp only [h0, convSelect]
    refine ⟨⟨.inl rfl, ⟨?_, ?_⟩, ?_⟩, 0, ?_⟩
    · simp [face, setOutClause, h1, h2, h3, h0]
    · simp
    · simp
    · simp

theorem convSetClauses_one (cfg : Cfg) (n : Nat) (x : List Nat) (hx : x.length = n) (cs : List ConvClause) (ds : List Clause)
    (counts : Nat → Nat) (g : Rng) (h : List.Forall₂ (fun (c : ConvClause) d => face d = face c.base) cs ds) :
    List.Forall₂ (fun (c : ConvClause) d => (c.base.out = 0 ∨ c.base.out = 1) ∧ SameFor cfg c.base d ∧
      (c.base.out = 1 → patchAt n x c.patch = x)) (convSetClauses cfg n 1 x cs counts g).1 (ds.map (setOutClause cfg x)) ∧
    ∃ k, (convSetClauses cfg n 1 x cs counts g).2.2 = ⟨g.draw, g.pos + k⟩ := by
  induction h generalizing counts g with
  | nil => exact ⟨.nil, 0, rfl⟩
  | @cons c d _ _ h _ ih =>
    obtain ⟨a1, k, a2⟩ := convSetClause_one cfg n x hx c counts g d h
    obtain ⟨b1, m, b2⟩ := ih (convSetClause cfg n 1 x c counts g).2.1 (convSetClause cfg n 1 x c counts g).2.2
    refine ⟨.cons a1 b1, k + m, ?_⟩
    simp only [convSetClauses]
    rw [b2, a2, Nat.add_assoc]

theorem evalOutLoop_01 (ps qs : List Int) (xs : List Nat) (e : Bool) :
    (evalOutLoop ps qs xs e).1 = 0 ∨ (evalOutLoop ps qs xs e).1 = 1 := by
  induction ps generalizing qs xs e with
  | nil => simp [evalOutLoop]
  | cons p ps ih =>
    cases qs with
    | nil => simp [evalOutLoop]
    | cons q qs =>
      cases xs with
      | nil => simp [evalOutLoop]
      | cons x xs =>
        simp only [evalOutLoop]
        split
        · exact .inl rfl
        · split
          · exact .inl rfl
          · exact ih ..

theorem convEvalClause_one (n : Nat) (x : List Nat) (hx : x.length = n) (c : ConvClause) (d : Clause) (hd : face d = face c.base) :
    face (evalOutClause x d) = face (convEvalClause n 1 x c).base := by
  obtain ⟨h1, h2, h3, h4⟩ := face_iff.1 hd
  simp only [convEvalClause, anyPatch, patchAt_zero n x hx, convEvalPatch, convEvalLoop_eq, evalOutClause, face, h1, h2, h3]
  have h01 := evalOutLoop_01 c.base.pos c.base.neg x true
  generalize evalOutLoop c.base.pos c.base.neg x true = r at h01
  rcases h01 with h | h <;> cases r.2 <;> simp [h]

theorem countVotes_face (n : Nat) (cs ds : List Clause) (h : cs.map face = ds.map face) : countVotes n cs = countVotes n ds := by
  have : ∀ (v : List Int), cs.foldl (fun v c => if c.out = 1 then addVotes v c.w else v) v =
      ds.foldl (fun v c => if c.out = 1 then addVotes v c.w else v) v := by
    induction cs generalizing ds with
    | nil => cases ds with
      | nil => intro v; rfl
      | cons d ds => simp at h
    | cons c cs ih =>
      cases ds with
      | nil => simp at h
      | cons d ds =>
        simp only [List.map_cons, List.cons.injEq] at h
        obtain ⟨-, -, hw, ho⟩ := face_iff.1 h.1
        intro v
        simp only [List.foldl_cons, hw, ho]
        exact ih ds h.2 _
  exact this _

/-! ## Dense blocks that differ only in their counts and in where their stream is stored -/

/-- The same numbers from here on. -/
def Stream (g h : Rng) : Prop := ∀ i, h.draw (h.pos + i) = g.draw (g.pos + i)

/-- The two dense blocks cannot be told apart by training and prediction. -/
structure Like (d d' : DBlock) : Prop where
  nLits : d'.nLits = d.nLits
  nClasses : d'.nClasses = d.nClasses
  cfg : d'.cfg = d.cfg
  faces : d'.clauses.map face = d.clauses.map face
  votes : d'.votes = d.votes
  fast : d'.fast = d.fast
  rng : Stream d.rng d'.rng

theorem face_forall₂ {cs ds : List Clause} (h : cs.map face = ds.map face) : List.Forall₂ (fun c d => face c = face d) cs ds := by
  have := List.forall₂_eq_eq_eq (α := List Int × List Int × List Int × Nat)
  have h' : List.Forall₂ (· = ·) (cs.map face) (ds.map face) := by rw [this]; exact h
  rwa [List.forall₂_map_left_iff, List.forall₂_map_right_iff] at h'

theorem setOut_sameFor (cfg : Cfg) (x : List Nat) {c d : Clause} (h : face c = face d) :
    SameFor cfg (setOutClause cfg x c) (setOutClause cfg x d) := by
  obtain ⟨h1, h2, h3, h4⟩ := face_iff.1 h
  refine ⟨by simp [face, setOutClause, h1, h2, h3], fun _ hb => ?_⟩
  simp [setOutClause, h1, h2, hb]

theorem setOut_01 (cfg : Cfg) (x : List Nat) (c : Clause) : (setOutClause cfg x c).out = 0 ∨ (setOutClause cfg x c).out = 1 :=
  setOutLoop_01 ..

theorem setOut_map (cfg : Cfg) (x : List Nat) {cs ds : List Clause} (h : cs.map face = ds.map face) :
    List.Forall₂ (fun c d => (c.out = 0 ∨ c.out = 1) ∧ SameFor cfg c d) (cs.map (setOutClause cfg x)) (ds.map (setOutClause cfg x)) := by
  rw [List.forall₂_map_left_iff, List.forall₂_map_right_iff]
  exact (face_forall₂ h).imp fun c d hcd => ⟨setOut_01 .., setOut_sameFor cfg x hcd⟩

theorem faces_of {cfg : Cfg} {cs ds : List Clause} (h : List.Forall₂ (fun c d => (c.out = 0 ∨ c.out = 1) ∧ SameFor cfg c d) cs ds) :
    cs.map face = ds.map face := by
  induction h with
  | nil => rfl
  | cons h _ ih => rw [List.map_cons, List.map_cons, ih, h.2.1]

theorem like_trainVotes {d d' : DBlock} (h : Like d d') (x : List Nat) :
    (d'.apply (.trainExample x)).votes = (d.apply (.trainExample x)).votes := by
  simp only [DBlock.apply, DBlock.countVotes, DBlock.trainSetOutput, h.nClasses, h.cfg]
  exact countVotes_face _ _ _ (faces_of (setOut_map d.cfg x h.faces))

theorem stream_local {α : Type} {f : Rng → α × Rng} (hf : Local f) {g h : Rng} (hs : Stream g h) :
    (f h).1 = (f g).1 ∧ Stream (f g).2 (f h).2 := by
  obtain ⟨k, e, l⟩ := hf g
  have := l h fun i _ => hs i
  rw [this, e]
  refine ⟨rfl, fun i => ?_⟩
  have := hs (k + i)
  simpa only [Nat.add_assoc] using this

theorem like_trainStep {d d' : DBlock} (h : Like d d') (x : List Nat) (fb : Feedback) : Like (d.trainStep x fb) (d'.trainStep x fb) := by
  have hv := like_trainVotes h x
  have hf := trainClauses_face d.cfg x fb _ _ d.fast d'.rng (setOut_map d.cfg x h.faces)
  have hl := stream_local (trainClauses_local d.cfg x fb (d.clauses.map (setOutClause d.cfg x)) d.fast) h.rng
  simp only [Prod.mk.injEq] at hl
  obtain ⟨⟨l1, l2⟩, l3⟩ := hl
  refine ⟨h.nLits, h.nClasses, h.cfg, ?_, hv, ?_, ?_⟩
  · show (trainClauses d'.cfg x fb (d'.clauses.map (setOutClause d'.cfg x)) d'.fast d'.rng).1.map face = _
    rw [h.cfg, h.fast, hf.1, l1]; rfl
  · show (trainClauses d'.cfg x fb (d'.clauses.map (setOutClause d'.cfg x)) d'.fast d'.rng).2.1 = _
    rw [h.cfg, h.fast, hf.2, l2]; rfl
  · show Stream _ (trainClauses d'.cfg x fb (d'.clauses.map (setOutClause d'.cfg x)) d'.fast d'.rng).2.2
    rw [h.cfg, h.fast, hf.2]; exact l3

theorem evalOut_faces (x : List Nat) {cs ds : List Clause} (h : cs.map face = ds.map face) :
    (cs.map (evalOutClause x)).map face = (ds.map (evalOutClause x)).map face := by
  have := face_forall₂ h
  clear h
  induction this with
  | nil => rfl
  | cons h _ ih =>
    obtain ⟨h1, h2, h3, h4⟩ := face_iff.1 h
    simp only [List.map_cons]
    rw [ih]
    congr 1
    simp [face, evalOutClause, h1, h2, h3]

theorem like_eval {d d' : DBlock} (h : Like d d') (x : List Nat) : Like (d.apply (.evalExample x)) (d'.apply (.evalExample x)) := by
  have hf := evalOut_faces x h.faces
  refine ⟨h.nLits, h.nClasses, h.cfg, hf, ?_, h.fast, h.rng⟩
  simp only [DBlock.apply, DBlock.countVotes, DBlock.evalSetOutput, h.nClasses]
  exact countVotes_face _ _ _ hf

theorem like_sim : Sim denseBackend denseBackend (fun _ _ => True) Like where
  trainVotes := fun _ _ x h _ => (like_trainVotes h x).symm
  trainStep := fun _ _ x fb h _ => like_trainStep h x fb
  evalVotes := fun _ _ x h _ => (like_eval h x).votes.symm
  evalStep := fun _ _ x h _ => like_eval h x
  okTrain := fun _ _ _ _ h => h
  okEval := fun _ _ _ h => h
  left := fun _ => rfl
  right := fun _ => rfl

/-! ## One step of a block with one patch -/

theorem base_faces (cs : List ConvClause) : List.Forall₂ (fun (c : ConvClause) d => face d = face c.base) cs (cs.map (·.base)) := by
  rw [List.forall₂_map_right_iff]
  exact List.forall₂_same.2 fun _ _ => rfl

theorem conv_faces {cfg : Cfg} {n : Nat} {x : List Nat} {cs : List ConvClause} {ds : List Clause}
    (h : List.Forall₂ (fun (c : ConvClause) d => (c.base.out = 0 ∨ c.base.out = 1) ∧ SameFor cfg c.base d ∧
      (c.base.out = 1 → patchAt n x c.patch = x)) cs ds) : (cs.map (·.base)).map face = ds.map face := by
  induction h with
  | nil => rfl
  | cons h _ ih => simp only [List.map_cons, ih, h.2.1.1]

theorem conv_trainVotes (b : ConvBlock) (h1 : b.nPatches = 1) (x : List Nat) (hx : x.length = b.nLits) (g : Rng) :
    (b.apply (.trainExample x)).votes = ((denseOf b g).apply (.trainExample x)).votes := by
  have h := (convSetClauses_one b.cfg b.nLits x hx b.clauses _ b.counts b.rng (base_faces b.clauses)).1
  simp only [ConvBlock.apply, h1, DBlock.apply, DBlock.countVotes, DBlock.trainSetOutput, denseOf]
  exact countVotes_face _ _ _ (conv_faces h)

theorem conv_eval (b : ConvBlock) (h1 : b.nPatches = 1) (x : List Nat) (hx : x.length = b.nLits) (g : Rng) :
    Like (denseOf (b.apply (.evalExample x)) g) ((denseOf b g).apply (.evalExample x)) := by
  have hf : ((b.clauses.map (·.base)).map (evalOutClause x)).map face =
      ((b.clauses.map (convEvalClause b.nLits 1 x)).map (·.base)).map face := by
    simp only [List.map_map]
    exact List.map_congr_left fun c _ => convEvalClause_one b.nLits x hx c c.base rfl
  refine ⟨rfl, rfl, rfl, ?_, ?_, rfl, fun _ => rfl⟩
  · show _ = ((b.clauses.map (convEvalClause b.nLits b.nPatches x)).map (·.base)).map face
    rw [h1]; exact hf
  · show countVotes b.nClasses ((b.clauses.map (·.base)).map (evalOutClause x)) =
      countVotes b.nClasses ((b.clauses.map (convEvalClause b.nLits b.nPatches x)).map (·.base))
    rw [h1]; exact countVotes_face _ _ _ hf

/-- One training step: whatever numbers `g'` the dense block is to use afterwards, there are numbers for it to use now. -/
theorem conv_train (b : ConvBlock) (h1 : b.nPatches = 1) (x : List Nat) (hx : x.length = b.nLits) (fb : Feedback) (g' : Rng)
    (ht : Thinned (b.trainStep x fb).rng g') :
    ∃ g, Thinned b.rng g ∧ Like (denseOf (b.trainStep x fb) g') ((denseOf b g).trainStep x fb) := by
  obtain ⟨hs, m, hm⟩ := convSetClauses_one b.cfg b.nLits x hx b.clauses _ b.counts b.rng (base_faces b.clauses)
  have hc := convTrainClauses_face b.cfg b.nLits x fb _ _ b.fast (convSetClauses b.cfg b.nLits 1 x b.clauses b.counts b.rng).2.2 hs
  rw [hm] at hc
  obtain ⟨k, e, l⟩ := trainClauses_local b.cfg x fb ((b.clauses.map (·.base)).map (setOutClause b.cfg x)) b.fast ⟨b.rng.draw, b.rng.pos + m⟩
  simp only [Prod.mk.injEq] at e l
  have er : (b.trainStep x fb).rng = ⟨b.rng.draw, b.rng.pos + m + k⟩ := by
    show (convTrainClauses b.cfg b.nLits x fb (convSetClauses b.cfg b.nLits b.nPatches x b.clauses b.counts b.rng).1 b.fast
      (convSetClauses b.cfg b.nLits b.nPatches x b.clauses b.counts b.rng).2.2).2.2 = _
    rw [h1, hm, hc.2, e]
  obtain ⟨pick, hp1, hp2⟩ := ht
  rw [er] at hp2
  obtain ⟨g, hg⟩ : ∃ g : Rng, g = ⟨fun i => if i < k then b.rng.draw (b.rng.pos + m + i) else g'.draw (g'.pos + (i - k)), 0⟩ := ⟨_, rfl⟩
  have hg1 : ∀ i, i < k → g.draw (g.pos + i) = b.rng.draw (b.rng.pos + m + i) := by
    intro i hi
    subst hg
    simp only [Nat.zero_add, hi, if_true]
  have hg2 : ∀ i, g.draw (g.pos + k + i) = g'.draw (g'.pos + i) := by
    intro i
    subst hg
    simp only [Nat.zero_add]
    rw [if_neg (by omega), Nat.add_sub_cancel_left]
  clear hg
  refine ⟨g, ⟨fun i => if i < k then m + i else m + k + pick (i - k), ?_, ?_⟩, ?_⟩
  · intro i j hij
    simp only []
    split
    · split <;> omega
    · rw [if_neg (by omega)]
      have := hp1 (i - k) (j - k) (by omega)
      omega
  · intro i
    simp only []
    split
    · next hi => rw [hg1 i hi, Nat.add_assoc]
    · have := hg2 (i - k)
      rw [hp2, Nat.add_assoc, Nat.add_sub_cancel' (by omega)] at this
      rw [this]; simp only [Nat.add_assoc]
  · obtain ⟨⟨l1, l2⟩, l3⟩ := l g hg1
    refine ⟨rfl, rfl, rfl, ?_, ?_, ?_, ?_⟩
    · show (trainClauses b.cfg x fb ((b.clauses.map (·.base)).map (setOutClause b.cfg x)) b.fast g).1.map face =
        ((convTrainClauses b.cfg b.nLits x fb (convSetClauses b.cfg b.nLits b.nPatches x b.clauses b.counts b.rng).1 b.fast
          (convSetClauses b.cfg b.nLits b.nPatches x b.clauses b.counts b.rng).2.2).1.map (·.base)).map face
      rw [l1, h1, hm, ← hc.1, List.map_map]; rfl
    · exact (conv_trainVotes b h1 x hx _).symm
    · show (trainClauses b.cfg x fb ((b.clauses.map (·.base)).map (setOutClause b.cfg x)) b.fast g).2.1 =
        (convTrainClauses b.cfg b.nLits x fb (convSetClauses b.cfg b.nLits b.nPatches x b.clauses b.counts b.rng).1 b.fast
          (convSetClauses b.cfg b.nLits b.nPatches x b.clauses b.counts b.rng).2.2).2.1
      rw [l2, h1, hm, hc.2]
    · show Stream g' (trainClauses b.cfg x fb ((b.clauses.map (·.base)).map (setOutClause b.cfg x)) b.fast g).2.2
      rw [l3]
      exact hg2

/-! ## A whole machine -/

theorem zipWith_rel {B G D : Type} {T : B → G → Prop} {R : B → D → Prop} {P : B → Prop} (mk : B → G → D) {bs : List B} {gs : List G}
    (ht : List.Forall₂ T bs gs) (hP : ∀ b ∈ bs, P b) (h : ∀ b g, P b → R b (mk b g)) : List.Forall₂ R bs (List.zipWith mk bs gs) := by
  induction ht with
  | nil => exact .nil
  | cons _ _ ih => exact .cons (h _ _ (hP _ (List.mem_cons_self ..))) (ih fun b hb => hP b (List.mem_cons_of_mem _ hb))

theorem forall₂_choose {B : Type} {T : B → Rng → Prop} {S : B → Rng → Rng → Prop} (F : B → B) (P : B → Prop) {bs : List B} {gs' : List Rng}
    (hP : ∀ b ∈ bs, P b) (h' : List.Forall₂ T (bs.map F) gs') (hs : ∀ b g', P b → T (F b) g' → ∃ g, T b g ∧ S b g g') :
    ∃ gs, List.Forall₂ T bs gs ∧ List.Forall₂ (fun (b : B) (p : Rng × Rng) => S b p.1 p.2) bs (gs.zip gs') := by
  induction bs generalizing gs' with
  | nil => cases h'; exact ⟨[], .nil, .nil⟩
  | cons b bs ih =>
    cases h' with
    | cons h1 h2 =>
      obtain ⟨g, hg1, hg2⟩ := hs b _ (hP b (List.mem_cons_self ..)) h1
      obtain ⟨gs, hgs1, hgs2⟩ := ih (fun b hb => hP b (List.mem_cons_of_mem _ hb)) h2
      exact ⟨g :: gs, .cons hg1 hgs1, .cons hg2 hgs2⟩

theorem zip_like {B D : Type} {R : D → D → Prop} (mk mk' : B → Rng → D) {bs : List B} {gs gs' : List Rng}
    (h : List.Forall₂ (fun (b : B) (p : Rng × Rng) => R (mk' b p.2) (mk b p.1)) bs (gs.zip gs')) (hl : gs.length = bs.length)
    (hl' : gs'.length = bs.length) : List.Forall₂ R (List.zipWith mk' bs gs') (List.zipWith mk bs gs) := by
  induction bs generalizing gs gs' with
  | nil => simp
  | cons b bs ih =>
    cases gs with
    | nil => simp at hl
    | cons g gs =>
      cases gs' with
      | nil => simp at hl'
      | cons g' gs' =>
        cases h with
        | cons h1 h2 => exact .cons h1 (ih h2 (by simpa using hl) (by simpa using hl'))

theorem like_refl (d : DBlock) : Like d d := ⟨rfl, rfl, rfl, rfl, rfl, rfl, fun _ => rfl⟩

theorem sameBlock_of_like {b : ConvBlock} {g : Rng} {d : DBlock} (h : Like (denseOf b g) d) : SameBlock b d := by
  refine ⟨?_, h.votes⟩
  rw [h.faces]
  simp only [denseOf, List.map_map]
  rfl

/-- The dense machine `d` looks like the convolutional machine `e`. -/
theorem sameBlocks {bs : List ConvBlock} {gs : List Rng} {ds : List DBlock} (hl : gs.length = bs.length)
    (h : List.Forall₂ Like (List.zipWith denseOf bs gs) ds) : List.Forall₂ SameBlock bs ds := by
  induction bs generalizing gs ds with
  | nil => cases h; exact .nil
  | cons b bs ih =>
    cases gs with
    | nil => simp at hl
    | cons g gs =>
      cases h with
      | cons h1 h2 => exact .cons (sameBlock_of_like h1) (ih (by simpa using hl) h2)

theorem sameBlock_trans {b : ConvBlock} {d d' : DBlock} (h : SameBlock b d) (hl : Like d d') : SameBlock b d' :=
  ⟨by rw [hl.faces, h.1], by rw [hl.votes, h.2]⟩

theorem forall₂_trans {A B C : Type} {R : A → B → Prop} {S : B → C → Prop} {T : A → C → Prop} (h : ∀ a b c, R a b → S b c → T a c)
    {as : List A} {bs : List B} {cs : List C} (h1 : List.Forall₂ R as bs) (h2 : List.Forall₂ S bs cs) : List.Forall₂ T as cs := by
  induction h1 generalizing cs with
  | nil => cases h2; exact .nil
  | cons a _ ih =>
    cases h2 with
    | cons b h2 => exact .cons (h _ _ _ a b) (ih h2)

/-- A convolutional block with one patch, fit for the example. -/
def Fit (b : ConvBlock) (x : List Nat) : Prop := b.nPatches = 1 ∧ x.length = b.nLits

theorem onePatch (smp : List Rat → Rat → Nat) (calls : List (List Nat × Option Nat)) (e : Exec ConvBlock)
    (hok : ∀ b ∈ e.blocks, b.nPatches = 1 ∧ ∀ c ∈ calls, c.1.length = b.nLits) :
    ∃ gs : List Rng, List.Forall₂ (fun (b : ConvBlock) g => Thinned b.rng g) e.blocks gs ∧ ∀ k,
      (runCalls denseBackend smp (calls.take k) (denseExec e gs)).2 = (runCalls convBackend smp (calls.take k) e).2 ∧
      (runCalls denseBackend smp (calls.take k) (denseExec e gs)).1.fb = (runCalls convBackend smp (calls.take k) e).1.fb ∧
      List.Forall₂ SameBlock (runCalls convBackend smp (calls.take k) e).1.blocks
        (runCalls denseBackend smp (calls.take k) (denseExec e gs)).1.blocks := by
  induction calls generalizing e with
  | nil =>
    refine ⟨e.blocks.map (·.rng), ?_, fun k => ?_⟩
    · rw [List.forall₂_map_right_iff]
      exact List.forall₂_same.2 fun b _ => ⟨id, fun _ _ h => h, fun _ => rfl⟩
    · rw [List.take_nil]
      refine ⟨rfl, rfl, ?_⟩
      exact sameBlocks (bs := e.blocks) (gs := e.blocks.map (·.rng)) (by simp) (List.forall₂_same.2 fun d _ => like_refl d)
  | cons c calls ih =>
    obtain ⟨x, l⟩ := c
    have hx : ∀ b ∈ e.blocks, Fit b x := fun b hb => ⟨(hok b hb).1, (hok b hb).2 _ (List.mem_cons_self ..)⟩
    have base : ∀ gs : List Rng, List.Forall₂ (fun (b : ConvBlock) g => Thinned b.rng g) e.blocks gs →
        (List.Forall₂ SameBlock e.blocks (denseExec e gs).blocks) := fun gs h =>
      sameBlocks (gs := gs) h.length_eq.symm (List.forall₂_same.2 fun d _ => like_refl d)
    cases l with
    | none =>
      obtain ⟨gs', hgs', hrun⟩ := ih (e.evalOne convBackend x).1 (by
        intro b hb
        rw [evalOne_blocks] at hb
        obtain ⟨b', hb', rfl⟩ := List.mem_map.1 hb
        exact ⟨(hok b' hb').1, fun c hc => (hok b' hb').2 c (List.mem_cons_of_mem _ hc)⟩)
      rw [evalOne_blocks] at hgs'
      obtain ⟨gs, hgs, hS⟩ := forall₂_choose (S := fun b g g' =>
        Like (denseOf (b.apply (.evalExample x)) g') ((denseOf b g).apply (.evalExample x)))
        (fun b => convBackend.evalExample b x) (fun b => Fit b x) hx hgs'
        (fun b g' hb ht => ⟨g', ht, conv_eval b hb.1 x hb.2 g'⟩)
      refine ⟨gs, hgs, fun k => ?_⟩
      cases k with
      | zero => exact ⟨rfl, rfl, base gs hgs⟩
      | succ k =>
        have hl : gs.length = e.blocks.length := hgs.length_eq.symm
        have hl' : gs'.length = e.blocks.length := by simpa using hgs'.length_eq.symm
        have hfb := evalOne_fb convBackend denseBackend e (denseExec e gs) x rfl
          (zipWith_rel denseOf hgs hx fun b g hb => (conv_eval b hb.1 x hb.2 g).votes.symm)
        have hlike : List.Forall₂ Like (denseExec (e.evalOne convBackend x).1 gs').blocks ((denseExec e gs).evalOne denseBackend x).1.blocks := by
          rw [evalOne_blocks]
          simp only [denseExec, evalOne_blocks, List.map_zipWith, List.zipWith_map_left]
          exact zip_like (fun b g => (denseOf b g).apply (.evalExample x)) (fun b g => denseOf (b.apply (.evalExample x)) g) hS hl hl'
        obtain ⟨s1, s2, s3⟩ := run_sim like_sim smp (calls.take k) (denseExec (e.evalOne convBackend x).1 gs') _ hfb.1 hlike
          (fun _ _ _ _ => trivial)
        obtain ⟨r1, r2, r3⟩ := hrun k
        simp only [List.take_succ_cons, runCalls]
        exact ⟨by rw [hfb.2, s1, r1], by rw [s2, r2], forall₂_trans (R := SameBlock) (S := Like) (T := SameBlock) (fun _ _ _ h h' => sameBlock_trans h h') r3 s3⟩
    | some y =>
      obtain ⟨gs', hgs', hrun⟩ := ih (e.trainOne convBackend smp x y) (by
        intro b hb
        rw [trainOne_blocks _ _ _ _ _ fun _ => rfl] at hb
        obtain ⟨b', hb', rfl⟩ := List.mem_map.1 hb
        exact ⟨(hok b' hb').1, fun c hc => (hok b' hb').2 c (List.mem_cons_of_mem _ hc)⟩)
      rw [trainOne_blocks _ _ _ _ _ fun _ => rfl] at hgs'
      obtain ⟨fb, hfbk⟩ : ∃ fb, fb = (e.trainOne convBackend smp x y).fb.feedback := ⟨_, rfl⟩
      rw [← hfbk] at hgs'
      obtain ⟨gs, hgs, hS⟩ := forall₂_choose (S := fun b g g' =>
        Like (denseOf (b.trainStep x fb) g') ((denseOf b g).trainStep x fb))
        (fun b => convBackend.trainUpdate (convBackend.trainExample b x) x fb) (fun b => Fit b x) hx hgs'
        (fun b g' hb ht => conv_train b hb.1 x hb.2 fb g' ht)
      refine ⟨gs, hgs, fun k => ?_⟩
      cases k with
      | zero => exact ⟨rfl, rfl, base gs hgs⟩
      | succ k =>
        have hl : gs.length = e.blocks.length := hgs.length_eq.symm
        have hl' : gs'.length = e.blocks.length := by simpa using hgs'.length_eq.symm
        have hfb := trainOne_fb convBackend denseBackend smp e (denseExec e gs) x y rfl
          (zipWith_rel denseOf hgs hx fun b g hb => conv_trainVotes b hb.1 x hb.2 g)
        have hlike : List.Forall₂ Like (denseExec (e.trainOne convBackend smp x y) gs').blocks
            ((denseExec e gs).trainOne denseBackend smp x y).blocks := by
          rw [trainOne_blocks _ _ _ _ _ fun _ => rfl, hfb, ← hfbk]
          simp only [denseExec]
          rw [trainOne_blocks _ _ _ _ _ fun _ => rfl, ← hfbk]
          simp only [List.map_zipWith, List.zipWith_map_left]
          exact zip_like (fun b g => (denseOf b g).trainStep x fb) (fun b g => denseOf (b.trainStep x fb) g) hS hl hl'
        obtain ⟨s1, s2, s3⟩ := run_sim like_sim smp (calls.take k) (denseExec (e.trainOne convBackend smp x y) gs') _ hfb hlike
          (fun _ _ _ _ => trivial)
        obtain ⟨r1, r2, r3⟩ := hrun k
        simp only [List.take_succ_cons, runCalls]
        exact ⟨by rw [s1, r1], by rw [s2, r2], forall₂_trans (R := SameBlock) (S := Like) (T := SameBlock) (fun _ _ _ h h' => sameBlock_trans h h') r3 s3⟩

/-! ## AVX2 -/

/-- What a clause of an AVX2 block has learned and whether it fired last. -/
def vface (c : VClause) : Mem × List Int × Nat := (c.row, c.w, c.out)

theorem vface_iff {c d : VClause} : vface c = vface d ↔ c.row = d.row ∧ c.w = d.w ∧ c.out = d.out := by
  simp [vface]

/-- As `SameFor`. -/
def VSameFor (cfg : VCfg) (c d : VClause) : Prop := vface c = vface d ∧ (c.out = 1 → cfg.budget.isSome = true → c.cnt = d.cnt)

theorem vclauseUpdate_face (cfg : VCfg) (x x' : Mem) (j : Nat) (t : Int) (c d : VClause) (g : VRng) (h : vface c = vface d)
    (hx : c.out = 1 → x = x') :
    vface (avxClauseUpdate cfg x j t c g).1 = vface (avxClauseUpdate cfg x' j t d g).1 ∧
    (avxClauseUpdate cfg x j t c g).2 = (avxClauseUpdate cfg x' j t d g).2 ∧
    (avxClauseUpdate cfg x j t c g).1.out = c.out := by
  obtain ⟨h1, h2, h3⟩ := vface_iff.1 h
  unfold avxClauseUpdate
  simp only [← h1, ← h2, ← h3]
  generalize (if c.w.getD j 0 ≥ 0 then (1 : Int) else -1) = sign
  by_cases ho : c.out = 1
  · obtain rfl := hx ho
    by_cases ht : t * sign > 0
    · simp [ht, ho, vface]
    · by_cases ht' : t * sign < 0
      · simp [ht, ht', ho, vface]
      · simp [ht, ht', ho, vface, ← h1, ← h2, ← h3]
  · by_cases ht : t * sign > 0
    · simp [ht, ho, vface]
    · simp [ht, ho, vface, ← h1, ← h2]; omega

theorem vbudgetGate_face (cfg : VCfg) (c d : VClause) (h01 : c.out = 0 ∨ c.out = 1) (h : VSameFor cfg c d) :
    vface (avxBudgetGate cfg c) = vface (avxBudgetGate cfg d) ∧ ((avxBudgetGate cfg c).out = 1 → c.out = 1) := by
  obtain ⟨h1, h2, h3⟩ := vface_iff.1 h.1
  unfold avxBudgetGate
  cases hb : cfg.budget with
  | none => exact ⟨h.1, id⟩
  | some b =>
    simp only []
    rcases h01 with ho | ho
    · split <;> split <;> simp_all [vface]
    · have := h.2 ho (by rw [hb]; rfl)
      rw [← this]
      split <;> simp_all [vface]

theorem vtrainClause_face (cfg : VCfg) (x x' : Mem) (fb : Feedback) (c d : VClause) (f : Rng) (g : VRng) (h01 : c.out = 0 ∨ c.out = 1)
    (h : VSameFor cfg c d) (hx : c.out = 1 → x = x') :
    vface (avxTrainClause cfg x fb c f g).1 = vface (avxTrainClause cfg x' fb d f g).1 ∧
    (avxTrainClause cfg x fb c f g).2 = (avxTrainClause cfg x' fb d f g).2 := by
  obtain ⟨hg, ho⟩ := vbudgetGate_face cfg c d h01 h
  unfold avxTrainClause
  simp only []
  have hx0 : (avxBudgetGate cfg c).out = 1 → x = x' := fun h => hx (ho h)
  have a := vclauseUpdate_face cfg x x' fb.posClass 1 _ _ g hg hx0
  by_cases hp : f.next.1 < fb.posProb
  · simp only [hp, if_true]
    have b := vclauseUpdate_face cfg x x' fb.negClass (-1) _ _ (avxClauseUpdate cfg x fb.posClass 1 (avxBudgetGate cfg c) g).2 a.1
      fun h => hx0 (a.2.2 ▸ h)
    by_cases hn : f.next.2.next.1 < fb.negProb
    · simp only [hn, if_true]
      rw [← a.2.1]
      exact ⟨b.1, by rw [b.2.1]⟩
    · simp only [hn, if_false]
      exact ⟨a.1, by rw [a.2.1]⟩
  · simp only [hp, if_false]
    have b := vclauseUpdate_face cfg x x' fb.negClass (-1) _ _ g hg hx0
    by_cases hn : f.next.2.next.1 < fb.negProb
    · simp only [hn, if_true]
      exact ⟨b.1, by rw [b.2.1]⟩
    · simp only [hn, if_false]
      exact ⟨hg, trivial⟩

/-- Two clauses of the two kinds of AVX2 block after the outputs were set. -/
def VReady (cfg : VCfg) (x : Mem) (c : VConvClause) (d : VClause) : Prop :=
  (c.base.out = 0 ∨ c.base.out = 1) ∧ VSameFor cfg c.base d ∧ (c.base.out = 1 → shiftMem x (c.patch * cfg.nLits) = x)

theorem vconvTrainClauses_face (cfg : VCfg) (x : Mem) (fb : Feedback) (cs : List VConvClause) (ds : List VClause) (f : Rng) (g : VRng)
    (h : List.Forall₂ (VReady cfg x) cs ds) :
    (avxConvTrainClauses cfg x fb cs f g).1.map (fun c => vface c.base) = (avxTrainClauses cfg x fb ds f g).1.map vface ∧
    (avxConvTrainClauses cfg x fb cs f g).2 = (avxTrainClauses cfg x fb ds f g).2 := by
  induction h generalizing f g with
  | nil => exact ⟨rfl, rfl⟩
  | @cons c d _ _ h _ ih =>
    have a := vtrainClause_face cfg (shiftMem x (c.patch * cfg.nLits)) x fb c.base d f g h.1 h.2.1 h.2.2
    simp only [avxConvTrainClauses, avxConvTrainClause, avxTrainClauses, List.map_cons]
    rw [← a.2, a.1]
    have b := ih (avxTrainClause cfg (shiftMem x (c.patch * cfg.nLits)) fb c.base f g).2.1
      (avxTrainClause cfg (shiftMem x (c.patch * cfg.nLits)) fb c.base f g).2.2
    exact ⟨by rw [b.1], b.2⟩

theorem shiftMem_zero (x : Mem) : shiftMem x 0 = x := by
  funext a; simp [shiftMem]

theorem avxSet_patch (cfg : VCfg) (x : Mem) (d : VClause) :
    (avxSetClause cfg x d).row = d.row ∧ (avxSetClause cfg x d).w = d.w ∧
    (avxSetClause cfg x d).out = (if (avxConvSetPatch cfg d.row x).1 then 1 else 0) ∧
    (cfg.budget.isSome = true → (avxConvSetPatch cfg d.row x).1 = true → (avxSetClause cfg x d).cnt = (avxConvSetPatch cfg d.row x).2) := by
  unfold avxSetClause avxConvSetPatch
  simp only []
  split
  · simp
  · split
    · simp
    · split
      · simp
      · simp +contextual

theorem vconvSetClause_one (cfg : VCfg) (x : Mem) (c : VConvClause) (counts : Nat → Nat) (g : Rng)
    (d : VClause) (hd : vface d = vface c.base) :
    VReady cfg x (avxConvSetClause cfg 1 x c counts g).1 (avxSetClause cfg x d) := by
  obtain ⟨h1, h2, h3⟩ := vface_iff.1 hd
  obtain ⟨e1, e2, e3, e4⟩ := avxSet_patch cfg x d
  rw [h1] at e1 e3 e4
  rw [h2] at e2
  simp only [avxConvSetClause, convScan, List.range_one, List.foldl_cons, List.foldl_nil, Scan.step, Nat.zero_mul, shiftMem_zero]
  by_cases ho : (avxConvSetPatch cfg c.base.row x).1 = true
  · have hp : ∀ g : Rng, (g.pick 1).1 = 0 := fun g => by simp [Rng.pick]
    simp only [ho, if_true] at e3 e4
    simp only [ho, if_true, convSelect, List.nil_append, List.length_cons, List.length_nil]
    refine ⟨.inr rfl, ⟨?_, ?_⟩, fun _ => ?_⟩
    · simp [vface, e1, e2, e3]
    · intro _ hb
      simp [e4 hb, hb, hp]
    · simp [hp, shiftMem_zero]
  · simp only [ho] at e3
    simp only [ho, convSelect]
    refine ⟨.inl rfl, ⟨?_, ?_⟩, ?_⟩
    · simp [vface, e1, e2, e3]
    · simp
    · simp

theorem vconvSetClauses_one (cfg : VCfg) (x : Mem) (cs : List VConvClause) (ds : List VClause)
    (counts : Nat → Nat) (g : Rng) (h : List.Forall₂ (fun (c : VConvClause) d => vface d = vface c.base) cs ds) :
    List.Forall₂ (VReady cfg x) (avxConvSetClauses cfg 1 x cs counts g).1 (ds.map (avxSetClause cfg x)) := by
  induction h generalizing counts g with
  | nil => exact .nil
  | @cons c d _ _ h _ ih => exact .cons (vconvSetClause_one cfg x c counts g d h) (ih _ _)

theorem flag_num (a : Bool) : (if a = false then 0 else 1) = if a = true then 1 else 0 := by cases a <;> rfl

theorem avxEval_patch (cfg : VCfg) (x : Mem) (d : VClause) :
    (avxEvalClause cfg x d).row = d.row ∧ (avxEvalClause cfg x d).w = d.w ∧
    (avxEvalClause cfg x d).out = (if avxConvEvalPatch cfg d.row x then 1 else 0) := by
  unfold avxEvalClause avxConvEvalPatch
  simp only []
  split
  · simp
  · split
    · simp
    · split
      · simp
      · refine ⟨rfl, rfl, ?_⟩
        exact flag_num _

theorem vconvEvalClause_one (cfg : VCfg) (x : Mem) (c : VConvClause) (d : VClause) (hd : vface d = vface c.base) :
    vface (avxEvalClause cfg x d) = vface (avxConvEvalClause cfg 1 x c).base := by
  obtain ⟨h1, h2, h3⟩ := vface_iff.1 hd
  obtain ⟨e1, e2, e3⟩ := avxEval_patch cfg x d
  simp only [vface, e1, e2, e3, avxConvEvalClause, anyPatch, Nat.zero_mul, shiftMem_zero, h1, h2]

theorem vcountVotes_face (n : Nat) (cs ds : List VClause) (h : cs.map vface = ds.map vface) : avxCountVotes n cs = avxCountVotes n ds := by
  have : ∀ (v : List Int), cs.foldl (fun v c => if c.out = 1 then addVotes v c.w else v) v =
      ds.foldl (fun v c => if c.out = 1 then addVotes v c.w else v) v := by
    induction cs generalizing ds with
    | nil => cases ds with
      | nil => intro v; rfl
      | cons d ds => simp at h
    | cons c cs ih =>
      cases ds with
      | nil => simp at h
      | cons d ds =>
        simp only [List.map_cons, List.cons.injEq] at h
        obtain ⟨-, hw, ho⟩ := vface_iff.1 h.1
        intro v
        simp only [List.foldl_cons, hw, ho]
        exact ih ds h.2 _
  exact this _

/-- The AVX2 blocks of the two kinds in step. -/
structure VLike (b : VConvBlock) (d : VBlock) : Prop where
  one : b.nPatches = 1
  nClasses : d.nClasses = b.nClasses
  cfg : d.cfg = b.cfg
  faces : d.clauses.map vface = b.clauses.map (fun c => vface c.base)
  votes : d.votes = b.votes
  fast : d.fast = b.fast
  vrng : d.vrng = b.vrng

theorem vfaces_rel {cs : List VConvClause} {ds : List VClause} (h : ds.map vface = cs.map (fun c => vface c.base)) :
    List.Forall₂ (fun (c : VConvClause) d => vface d = vface c.base) cs ds := by
  induction cs generalizing ds with
  | nil => cases ds with
    | nil => exact .nil
    | cons d ds => simp at h
  | cons c cs ih =>
    cases ds with
    | nil => simp at h
    | cons d ds =>
      simp only [List.map_cons, List.cons.injEq] at h
      exact .cons h.1 (ih h.2)

theorem vready_faces {cfg : VCfg} {x : Mem} {cs : List VConvClause} {ds : List VClause} (h : List.Forall₂ (VReady cfg x) cs ds) :
    (cs.map (·.base)).map vface = ds.map vface := by
  induction h with
  | nil => rfl
  | cons h _ ih => simp only [List.map_cons, ih, h.2.1.1]

theorem vsim : Sim avxConvBackend avxBackend (fun _ _ => True) VLike where
  trainVotes := fun b d x h _ => by
    have hr := vconvSetClauses_one b.cfg x b.clauses d.clauses b.counts b.rng (vfaces_rel h.faces)
    simp only [avxConvBackend, avxBackend, VConvBlock.apply, VBlock.apply, h.one, h.nClasses, h.cfg]
    exact vcountVotes_face _ _ _ (vready_faces hr)
  trainStep := fun b d x fb h _ => by
    have hr := vconvSetClauses_one b.cfg x b.clauses d.clauses b.counts b.rng (vfaces_rel h.faces)
    have hc := vconvTrainClauses_face b.cfg x fb _ _ b.fast b.vrng hr
    simp only [avxConvBackend, avxBackend, VConvBlock.apply, VBlock.apply]
    refine ⟨h.one, h.nClasses, h.cfg, ?_, ?_, ?_, ?_⟩
    · simp only [h.one, h.cfg, h.fast, h.vrng]; exact hc.1.symm
    · simp only [h.one, h.nClasses, h.cfg]; exact (vcountVotes_face _ _ _ (vready_faces hr)).symm
    · simp only [h.one, h.cfg, h.fast, h.vrng]; rw [hc.2]
    · simp only [h.one, h.cfg, h.fast, h.vrng]; rw [hc.2]
  evalVotes := fun b d x h _ => by
    simp only [avxConvBackend, avxBackend, VConvBlock.apply, VBlock.apply, h.one, h.nClasses, h.cfg]
    refine vcountVotes_face _ _ _ ?_
    have := vfaces_rel h.faces
    generalize b.clauses = cs at this
    generalize d.clauses = ds at this
    induction this with
    | nil => rfl
    | cons h _ ih => simp only [List.map_cons, ih, vconvEvalClause_one _ x _ _ h]
  evalStep := fun b d x h _ => by
    have hf : (d.clauses.map (avxEvalClause b.cfg x)).map vface =
        (b.clauses.map (avxConvEvalClause b.cfg 1 x)).map (fun c => vface c.base) := by
      have := vfaces_rel h.faces
      generalize b.clauses = cs at this
      generalize d.clauses = ds at this
      induction this with
      | nil => rfl
      | cons h _ ih => simp only [List.map_cons, ih, vconvEvalClause_one _ x _ _ h]
    simp only [avxConvBackend, avxBackend, VConvBlock.apply, VBlock.apply]
    refine ⟨h.one, h.nClasses, h.cfg, ?_, ?_, h.fast, h.vrng⟩
    · simp only [h.one, h.cfg]; exact hf
    · simp only [h.one, h.nClasses, h.cfg]
      exact vcountVotes_face _ _ _ (by rw [hf]; simp only [List.map_map]; rfl)
  okTrain := fun _ _ _ _ h => h
  okEval := fun _ _ _ h => h
  left := fun _ => rfl
  right := fun _ => rfl

end GT.OnePatch

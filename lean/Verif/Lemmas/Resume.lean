import Verif.Spec.Resume
import Verif.Lemmas.OnePatch
import Verif.Lemmas.Fresh
import Verif.Lemmas.RecodeNeon
import Verif.Model.SparseExec
import Verif.Props.Avx2

/-! # Lemmas: training goes on from a saved state (C105) -/

namespace GT.Resume
open GT GT.Spec

/-! ### The feedback block -/

/-- What counts while votes are collected. -/
def core (f : FB) : Nat × Rat × List Int × Nat × Nat × Rng := (f.nClasses, f.threshold, f.votes, f.correct, f.total, f.rng)

theorem core_register {f g : FB} (h : core f = core g) (v : List Int) : core (f.register v) = core (g.register v) := by
  simp only [core, Prod.mk.injEq] at h
  simp only [core, FB.register, h.1, h.2.1, h.2.2.1, h.2.2.2.1, h.2.2.2.2.1, h.2.2.2.2.2]

theorem core_process (smp : List Rat → Rat → Nat) {f g : FB} (h : core f = core g) (y : Nat) : f.process smp y = g.process smp y := by
  simp only [core, Prod.mk.injEq] at h
  simp only [FB.process, h.1, h.2.1, h.2.2.1, h.2.2.2.1, h.2.2.2.2.1, h.2.2.2.2.2]

theorem core_predict {f g : FB} (h : core f = core g) : f.predict = g.predict := by
  simp only [core, Prod.mk.injEq] at h
  simp only [FB.predict, h.2.2.1]

theorem core_same {f g : FB} (h : core f = core g) : SameFeedback f g := by
  simp only [core, Prod.mk.injEq] at h
  exact ⟨h.1.symm, h.2.1.symm, by rw [h.2.2.1], h.2.2.2.2.2.symm⟩

theorem core_reset {f g : FB} (h : SameFeedback f g) (h1 : f.correct = g.correct) (h2 : f.total = g.total) : core f.reset = core g.reset := by
  simp only [core, FB.reset, h.nClasses, h.threshold, h.length, h.rng, h1, h2]

theorem loop_core {B : Type} (f : B → B) (v : B → List Int) {bs ds : List B} (h : List.Forall₂ (fun b d => v (f b) = v (f d)) bs ds) :
    ∀ {p q : FB}, core p = core q → core (exampleLoop f v bs p).2 = core (exampleLoop f v ds q).2 := by
  induction h with
  | nil => intro p q hpq; exact hpq
  | cons h _ ih =>
    intro p q hpq
    simp only [exampleLoop]
    rw [h]
    exact ih (core_register hpq _)

/-! ### Whole uses -/

section
variable {B E : Type} {be : Backend B E} {P : E → Prop} {R : B → B → Prop}

theorem trainOne_sim (hs : OnePatch.Sim be be (fun _ x => P x) R) (smp : List Rat → Rat → Nat) {e f : Exec B} (hf : SameFeedback e.fb f.fb)
    (h1 : e.fb.correct = f.fb.correct) (h2 : e.fb.total = f.fb.total) (hb : List.Forall₂ R e.blocks f.blocks) {x : E} (hx : P x) (y : Nat) :
    (f.trainOne be smp x y).fb = (e.trainOne be smp x y).fb ∧ List.Forall₂ R (e.trainOne be smp x y).blocks (f.trainOne be smp x y).blocks := by
  have hv : List.Forall₂ (fun b d => be.votes (be.trainExample b x) = be.votes (be.trainExample d x)) e.blocks f.blocks :=
    hb.imp fun b d h => hs.trainVotes b d x h hx
  have hfb : (f.trainOne be smp x y).fb = (e.trainOne be smp x y).fb :=
    (core_process smp (loop_core (be.trainExample · x) be.votes hv (core_reset hf h1 h2)) y).symm
  refine ⟨hfb, ?_⟩
  rw [OnePatch.trainOne_blocks be smp e x y hs.left, OnePatch.trainOne_blocks be smp f x y hs.left, hfb,
    List.forall₂_map_left_iff, List.forall₂_map_right_iff]
  exact hb.imp fun b d h => hs.trainStep b d x _ h hx

theorem same_refl (f : FB) : SameFeedback f f := ⟨rfl, rfl, rfl, rfl⟩

theorem trainIndices_sim (hs : OnePatch.Sim be be (fun _ x => P x) R) (smp : List Rat → Rat → Nat) (data : List (E × Nat)) (hd : ∀ d ∈ data, P d.1) : ∀ (is : List Nat)
    {e f : Exec B}, SameFeedback e.fb f.fb → e.fb.correct = f.fb.correct → e.fb.total = f.fb.total → List.Forall₂ R e.blocks f.blocks →
    SameFeedback (Exec.trainIndices be smp data is e).fb (Exec.trainIndices be smp data is f).fb ∧
    (Exec.trainIndices be smp data is e).fb.correct = (Exec.trainIndices be smp data is f).fb.correct ∧
    (Exec.trainIndices be smp data is e).fb.total = (Exec.trainIndices be smp data is f).fb.total ∧
    List.Forall₂ R (Exec.trainIndices be smp data is e).blocks (Exec.trainIndices be smp data is f).blocks := by
  intro is
  induction is with
  | nil => intro e f hf h1 h2 hb; exact ⟨hf, h1, h2, hb⟩
  | cons i is ih =>
    intro e f hf h1 h2 hb
    simp only [Exec.trainIndices]
    cases hi : data[i]? with
    | none => exact ih hf h1 h2 hb
    | some d =>
      obtain ⟨a, b⟩ := trainOne_sim hs smp hf h1 h2 hb (hd d (List.mem_of_getElem? hi)) d.2
      exact ih (by rw [a]; exact same_refl _) (by rw [a]) (by rw [a]) b

theorem evalLoop_sim (hs : OnePatch.Sim be be (fun _ x => P x) R) : ∀ (xs : List E), (∀ x ∈ xs, P x) → ∀ {e f : Exec B}, SameFeedback e.fb f.fb →
    List.Forall₂ R e.blocks f.blocks → SameFeedback (Exec.evalLoop be xs e).1.fb (Exec.evalLoop be xs f).1.fb ∧
    (Exec.evalLoop be xs f).2 = (Exec.evalLoop be xs e).2 ∧
    List.Forall₂ R (Exec.evalLoop be xs e).1.blocks (Exec.evalLoop be xs f).1.blocks := by
  intro xs
  induction xs with
  | nil => intro _ e f hf hb; exact ⟨hf, rfl, hb⟩
  | cons x xs ih =>
    intro hxs e f hf hb
    have hx : P x := hxs x (List.mem_cons_self ..)
    have hv : List.Forall₂ (fun b d => be.votes (be.evalExample b x) = be.votes (be.evalExample d x)) e.blocks f.blocks :=
      hb.imp fun b d h => hs.evalVotes b d x h hx
    -- the counters play no part in predictions
    let f' : Exec B := { f with fb := { f.fb with correct := e.fb.correct, total := e.fb.total } }
    have hc := loop_core (be.evalExample · x) be.votes hv
      (core_reset (f := e.fb) (g := f'.fb) ⟨hf.nClasses, hf.threshold, hf.length, hf.rng⟩ rfl rfl)
    have hcount : ∀ (bs : List B) (p : FB) (k l : Nat),
        (exampleLoop (be.evalExample · x) be.votes bs { p with correct := k, total := l }).2 =
          { (exampleLoop (be.evalExample · x) be.votes bs p).2 with correct := k, total := l } := by
      intro bs
      induction bs with
      | nil => intro p k l; rfl
      | cons b bs ih => intro p k l; exact ih (p.register (be.votes (be.evalExample b x))) k l
    have e1 : (exampleLoop (be.evalExample · x) be.votes f.blocks f'.fb.reset).2 =
        { (exampleLoop (be.evalExample · x) be.votes f.blocks f.fb.reset).2 with correct := e.fb.correct, total := e.fb.total } :=
      hcount f.blocks f.fb.reset _ _
    rw [e1] at hc
    have hsame : SameFeedback (e.evalOne be x).1.fb (f.evalOne be x).1.fb :=
      ⟨(core_same hc).nClasses, (core_same hc).threshold, (core_same hc).length, (core_same hc).rng⟩
    have hpred : (f.evalOne be x).2 = (e.evalOne be x).2 := (core_predict hc).symm
    have hblocks : List.Forall₂ R (e.evalOne be x).1.blocks (f.evalOne be x).1.blocks := by
      rw [OnePatch.evalOne_blocks, OnePatch.evalOne_blocks, List.forall₂_map_left_iff, List.forall₂_map_right_iff]
      exact hb.imp fun b d h => hs.evalStep b d x h hx
    obtain ⟨a, b, c⟩ := ih (fun z hz => hxs z (List.mem_cons_of_mem _ hz)) hsame hblocks
    exact ⟨a, by simp only [Exec.evalLoop]; rw [hpred, b], c⟩

theorem use_sim (hs : OnePatch.Sim be be (fun _ x => P x) R) (smp : List Rat → Rat → Nat) {e f : Exec B} (hf : SameFeedback e.fb f.fb)
    (hb : List.Forall₂ R e.blocks f.blocks) (u : TMUse E) (hu : u.All P) : (useOnce be smp f u).2 = (useOnce be smp e u).2 ∧
    SameFeedback (useOnce be smp e u).1.fb (useOnce be smp f u).1.fb ∧
    List.Forall₂ R (useOnce be smp e u).1.blocks (useOnce be smp f u).1.blocks := by
  cases u with
  | epoch shuffle data =>
    obtain ⟨a, b, c, d⟩ := trainIndices_sim hs smp data hu (((shuffle (List.range data.length)).take data.length).drop 0)
      (e := { e with fb := e.fb.resetCounter, index := shuffle (List.range data.length) })
      (f := { f with fb := f.fb.resetCounter, index := shuffle (List.range data.length) })
      ⟨hf.nClasses, hf.threshold, hf.length, hf.rng⟩ rfl rfl hb
    refine ⟨?_, a, d⟩
    show Got.accuracy (FB.accuracy _) = Got.accuracy (FB.accuracy _)
    simp only [FB.accuracy, Exec.trainSlice, if_true]
    rw [b, c]
  | predict data =>
    obtain ⟨a, b, c⟩ := evalLoop_sim hs data hu hf hb
    simp only [useOnce, Exec.evalPredict, ne_eq, not_true_eq_false, if_false]
    exact ⟨by rw [b], a, c⟩

theorem uses_sim (hs : OnePatch.Sim be be (fun _ x => P x) R) (smp : List Rat → Rat → Nat) : ∀ (us : List (TMUse E)), (∀ u ∈ us, u.All P) → ∀ {e f : Exec B},
    SameFeedback e.fb f.fb → List.Forall₂ R e.blocks f.blocks → gets be smp us f = gets be smp us e ∧
    SameFeedback (afterUses be smp us e).fb (afterUses be smp us f).fb ∧
    List.Forall₂ R (afterUses be smp us e).blocks (afterUses be smp us f).blocks := by
  intro us
  induction us with
  | nil => intro _ e f hf hb; exact ⟨rfl, hf, hb⟩
  | cons u us ih =>
    intro hu e f hf hb
    obtain ⟨a, b, c⟩ := use_sim hs smp hf hb u (hu u (List.mem_cons_self ..))
    obtain ⟨p, q, r⟩ := ih (fun z hz => hu z (List.mem_cons_of_mem _ hz)) b c
    exact ⟨by simp only [gets]; rw [a, p], q, r⟩
theorem uses_all (hs : OnePatch.Sim be be (fun _ _ => True) R) (smp : List Rat → Rat → Nat) (us : List (TMUse E)) {e f : Exec B}
    (hf : SameFeedback e.fb f.fb) (hb : List.Forall₂ R e.blocks f.blocks) : gets be smp us f = gets be smp us e ∧
    List.Forall₂ R (afterUses be smp us e).blocks (afterUses be smp us f).blocks := by
  obtain ⟨a, -, b⟩ := uses_sim (P := fun _ => True) hs smp us (fun u _ => by cases u <;> exact fun _ _ => trivial) hf hb
  exact ⟨a, b⟩
end

/-! ### Portable blocks -/

def blankC (c : Clause) : Clause := { c with out := 0 }

/-- The block without its outputs and votes. -/
def blank (b : DBlock) : DBlock := { b with clauses := b.clauses.map blankC, votes := [] }

theorem blank_train (b : DBlock) (x : List Nat) : (blank b).apply (.trainExample x) = b.apply (.trainExample x) := by
  have : (b.clauses.map blankC).map (setOutClause b.cfg x) = b.clauses.map (setOutClause b.cfg x) := by
    rw [List.map_map]
    exact List.map_congr_left fun c _ => rfl
  simp only [DBlock.apply, DBlock.trainSetOutput, DBlock.countVotes, blank, this]

theorem blank_eval (b : DBlock) (x : List Nat) : (blank b).apply (.evalExample x) = b.apply (.evalExample x) := by
  have : (b.clauses.map blankC).map (evalOutClause x) = b.clauses.map (evalOutClause x) := by
    rw [List.map_map]
    exact List.map_congr_left fun c _ => rfl
  simp only [DBlock.apply, DBlock.evalSetOutput, DBlock.countVotes, blank, this]

theorem shown_blank (cs ds : List Clause) (h : cs.map shown = ds.map shown) : (cs.map blankC).map shown = (ds.map blankC).map shown := by
  rw [List.map_map, List.map_map]
  refine Fresh.map_congr_of _ _ h fun a c hac => ?_
  obtain ⟨e1, e2, e3, -⟩ := Fresh.seenBase_iff _ _ hac
  simp only [Function.comp, shown, blankC, e1, e2, e3]

theorem learned_shown (cs ds : List Clause) (h : ds.map learned = cs.map learned) : (cs.map blankC).map shown = (ds.map blankC).map shown := by
  rw [List.map_map, List.map_map]
  refine Fresh.map_congr_of _ _ h.symm fun a c hac => ?_
  simp only [learned, Prod.mk.injEq] at hac
  simp only [Function.comp, shown, blankC, hac.1, hac.2.1, hac.2.2]

theorem shown_learned (cs ds : List Clause) (h : (cs.map blankC).map shown = (ds.map blankC).map shown) : ds.map learned = cs.map learned := by
  have : ∀ l : List Clause, l.map learned = ((l.map blankC).map shown).map learned := by
    intro l
    rw [List.map_map, List.map_map]
    rfl
  rw [this, this cs, h]

def DR (b d : DBlock) : Prop := Fresh.DLike (blank b) (blank d)

theorem dr_iff (b d : DBlock) : DR b d ↔ SameState b d :=
  ⟨fun h => ⟨h.nClasses, h.cfg, shown_learned _ _ h.clauses, h.fast, h.rng⟩,
    fun h => ⟨h.nClasses, h.cfg, learned_shown _ _ h.learned, rfl, h.fast, h.rng⟩⟩

theorem dr_of {b d : DBlock} (h : Fresh.DLike b d) : DR b d :=
  ⟨h.nClasses, h.cfg, shown_blank _ _ h.clauses, rfl, h.fast, h.rng⟩

theorem dtrain {b d : DBlock} (h : DR b d) (x : List Nat) (fb : Feedback) :
    Fresh.DLike ((b.apply (.trainExample x)).apply (.trainUpdate x fb)) ((d.apply (.trainExample x)).apply (.trainUpdate x fb)) := by
  have := Fresh.dstep_like h (.train x fb)
  rw [← blank_train b, ← blank_train d]
  exact this

theorem deval {b d : DBlock} (h : DR b d) (x : List Nat) : Fresh.DLike (b.apply (.evalExample x)) (d.apply (.evalExample x)) := by
  have := Fresh.dstep_like h (.eval x)
  rw [← blank_eval b, ← blank_eval d]
  exact this

theorem dsim : OnePatch.Sim denseBackend denseBackend (fun _ _ => True) DR where
  trainVotes := fun _ _ x h _ => (dtrain h x ⟨0, 0, 0, 0⟩).votes.symm
  trainStep := fun _ _ x fb h _ => dr_of (dtrain h x fb)
  evalVotes := fun _ _ x h _ => (deval h x).votes.symm
  evalStep := fun _ _ x h _ => dr_of (deval h x)
  okTrain := fun _ _ _ _ h => h
  okEval := fun _ _ _ h => h
  left := fun _ => rfl
  right := fun _ => rfl

/-! ### Sparse blocks -/

def sblankC (c : SClause) : SClause := { c with out := 0 }

def sblank (b : SBlock) : SBlock := { b with clauses := b.clauses.map sblankC, votes := [] }

theorem sblank_train (b : SBlock) (x : List Nat) : (sblank b).apply (.trainExample x) = b.apply (.trainExample x) := by
  have : (b.clauses.map sblankC).map (sSetClause b.cfg x) = b.clauses.map (sSetClause b.cfg x) := by
    rw [List.map_map]
    exact List.map_congr_left fun c _ => rfl
  simp only [SBlock.apply, sblank, this]

theorem sblank_eval (b : SBlock) (x : List Nat) : (sblank b).apply (.evalExample x) = b.apply (.evalExample x) := by
  have : (b.clauses.map sblankC).map (sEvalClause x) = b.clauses.map (sEvalClause x) := by
    rw [List.map_map]
    exact List.map_congr_left fun c _ => rfl
  simp only [SBlock.apply, sblank, this]

def SR (b d : SBlock) : Prop := Fresh.SLike (sblank b) (sblank d)

theorem sr_iff (b d : SBlock) : SR b d ↔ SameSparseState b d := by
  have hl : ∀ cs ds : List SClause, (cs.map sblankC).map shownS = (ds.map sblankC).map shownS ↔
      (ds.map fun c => (c.pos, c.neg, c.w)) = cs.map fun c => (c.pos, c.neg, c.w) := by
    intro cs ds
    constructor
    · intro h
      have : ∀ l : List SClause, (l.map fun c => (c.pos, c.neg, c.w)) = ((l.map sblankC).map shownS).map fun c => (c.pos, c.neg, c.w) := by
        intro l
        rw [List.map_map, List.map_map]
        rfl
      rw [this, this cs, h]
    · intro h
      rw [List.map_map, List.map_map]
      refine Fresh.map_congr_of _ _ h.symm fun a c hac => ?_
      simp only [Prod.mk.injEq] at hac
      simp only [Function.comp, shownS, sblankC, hac.1, hac.2.1, hac.2.2]
  exact ⟨fun h => ⟨h.nClasses, h.cfg, (hl _ _).1 h.clauses, h.al, h.fast⟩, fun h => ⟨h.nClasses, h.cfg, (hl _ _).2 h.learned, h.al, rfl, h.fast⟩⟩

theorem sr_of {b d : SBlock} (h : Fresh.SLike b d) : SR b d := by
  rw [sr_iff]
  refine ⟨h.nClasses, h.cfg, ?_, h.al, h.fast⟩
  have : ∀ l : List SClause, (l.map fun c => (c.pos, c.neg, c.w)) = (l.map shownS).map fun c => (c.pos, c.neg, c.w) := by
    intro l
    rw [List.map_map]
    rfl
  rw [this, this b.clauses, h.clauses]

theorem strain {b d : SBlock} (h : SR b d) (x : List Nat) (fb : Feedback) :
    Fresh.SLike ((b.apply (.trainExample x)).apply (.trainUpdate x fb)) ((d.apply (.trainExample x)).apply (.trainUpdate x fb)) := by
  have := Fresh.sstep_like h (.train x fb)
  rw [← sblank_train b, ← sblank_train d]
  exact this

theorem seval {b d : SBlock} (h : SR b d) (x : List Nat) : Fresh.SLike (b.apply (.evalExample x)) (d.apply (.evalExample x)) := by
  have := Fresh.sstep_like h (.eval x)
  rw [← sblank_eval b, ← sblank_eval d]
  exact this

theorem ssim : OnePatch.Sim sparseBackend sparseBackend (fun _ _ => True) SR where
  trainVotes := fun _ _ x h _ => (strain h x ⟨0, 0, 0, 0⟩).votes.symm
  trainStep := fun _ _ x fb h _ => sr_of (strain h x fb)
  evalVotes := fun _ _ x h _ => (seval h x).votes.symm
  evalStep := fun _ _ x h _ => sr_of (seval h x)
  okTrain := fun _ _ _ _ h => h
  okEval := fun _ _ _ h => h
  left := fun _ => rfl
  right := fun _ => rfl

/-! ### Convolutional blocks -/

def cblank (b : ConvBlock) : ConvBlock := { b with clauses := b.clauses.map fun c => { c with base := blankC c.base }, votes := [] }

theorem csets_blank (cfg : Cfg) (n np : Nat) (x : List Nat) : ∀ (cs : List ConvClause) (k : Nat → Nat) (g : Rng),
    convSetClauses cfg n np x (cs.map fun c => { c with base := blankC c.base }) k g = convSetClauses cfg n np x cs k g := by
  intro cs
  induction cs with
  | nil => intro k g; rfl
  | cons c cs ih =>
    intro k g
    have e : convSetClause cfg n np x { c with base := blankC c.base } k g = convSetClause cfg n np x c k g := rfl
    simp only [List.map_cons, convSetClauses, e, ih]

theorem cblank_train (b : ConvBlock) (x : List Nat) : (cblank b).apply (.trainExample x) = b.apply (.trainExample x) := by
  simp only [ConvBlock.apply, cblank, csets_blank]

theorem cblank_eval (b : ConvBlock) (x : List Nat) : (cblank b).apply (.evalExample x) = b.apply (.evalExample x) := by
  have : (b.clauses.map fun c => { c with base := blankC c.base }).map (convEvalClause b.nLits b.nPatches x) =
      b.clauses.map (convEvalClause b.nLits b.nPatches x) := by
    rw [List.map_map]
    exact List.map_congr_left fun c _ => rfl
  simp only [ConvBlock.apply, cblank, this]

def CR (b d : ConvBlock) : Prop := Fresh.CLike (cblank b) (cblank d)

theorem cr_iff (b d : ConvBlock) : CR b d ↔ SameConvState b d := by
  have h1 : ∀ b : ConvBlock, (cblank b).clauses.map (shown ·.base) = ((b.clauses.map (·.base)).map blankC).map shown := by
    intro b
    simp only [cblank, List.map_map]
    rfl
  have h2 : ∀ b : ConvBlock, (b.clauses.map fun c => learned c.base) = (b.clauses.map (·.base)).map learned := by
    intro b
    rw [List.map_map]
    rfl
  constructor
  · intro h
    refine ⟨h.nLits, h.nClasses, h.nPatches, h.cfg, ?_, h.fast, h.rng⟩
    rw [h2, h2]
    exact shown_learned _ _ (by rw [← h1, ← h1]; exact h.clauses)
  · intro h
    refine ⟨h.nLits, h.nClasses, h.nPatches, h.cfg, ?_, rfl, h.fast, h.rng⟩
    rw [h1, h1]
    exact learned_shown _ _ (by rw [← h2, ← h2]; exact h.learned)

theorem cr_of {b d : ConvBlock} (h : Fresh.CLike b d) : CR b d := by
  rw [cr_iff]
  refine ⟨h.nLits, h.nClasses, h.nPatches, h.cfg, ?_, h.fast, h.rng⟩
  have : ∀ l : List ConvClause, (l.map fun c => learned c.base) = (l.map (shown ·.base)).map learned := by
    intro l
    rw [List.map_map]
    rfl
  rw [this, this b.clauses, h.clauses]

/-- The same, and one patch or no counting of literals. -/
def CR1 (b d : ConvBlock) : Prop := CR b d ∧ (b.cfg.budget = none ∨ b.nPatches = 1)

theorem ctrain {b d : ConvBlock} (h : CR1 b d) (x : List Nat) (fb : Feedback) :
    Fresh.CLike ((b.apply (.trainExample x)).apply (.trainUpdate x fb)) ((d.apply (.trainExample x)).apply (.trainUpdate x fb)) := by
  have := (Fresh.cstep_like (b := cblank b) (d := cblank d) h.2 h.1 (.train x fb)).1
  rw [← cblank_train b, ← cblank_train d]
  exact this

theorem ceval {b d : ConvBlock} (h : CR1 b d) (x : List Nat) : Fresh.CLike (b.apply (.evalExample x)) (d.apply (.evalExample x)) := by
  have := (Fresh.cstep_like (b := cblank b) (d := cblank d) h.2 h.1 (.eval x)).1
  rw [← cblank_eval b, ← cblank_eval d]
  exact this

theorem csim : OnePatch.Sim convBackend convBackend (fun _ _ => True) CR1 where
  trainVotes := fun _ _ x h _ => (ctrain h x ⟨0, 0, 0, 0⟩).votes.symm
  trainStep := fun _ _ x fb h _ => ⟨cr_of (ctrain h x fb), h.2⟩
  evalVotes := fun _ _ x h _ => (ceval h x).votes.symm
  evalStep := fun _ _ x h _ => ⟨cr_of (ceval h x), h.2⟩
  okTrain := fun _ _ _ _ h => h
  okEval := fun _ _ _ h => h
  left := fun _ => rfl
  right := fun _ => rfl

/-- The same, and a budget that nothing exceeds. -/
def CRv (v : Nat) (b d : ConvBlock) : Prop := CR b d ∧ b.cfg.budget = some v ∧ Fresh.Low v b ∧ Fresh.Low v d

theorem low_blank {v : Nat} {b : ConvBlock} (h : Fresh.Low v b) : Fresh.Low v (cblank b) := by
  refine ⟨h.counts, ?_, ?_⟩
  · intro c hc
    obtain ⟨c', hc', rfl⟩ := List.mem_map.mp hc
    exact h.cnt c' hc'
  · intro c hc
    obtain ⟨c', hc', rfl⟩ := List.mem_map.mp hc
    exact h.len c' hc'

theorem ltrain {v : Nat} {b d : ConvBlock} (h : CRv v b d) (x : List Nat) (fb : Feedback) :
    Fresh.CLike ((b.apply (.trainExample x)).apply (.trainUpdate x fb)) ((d.apply (.trainExample x)).apply (.trainUpdate x fb)) ∧
    CRv v ((b.apply (.trainExample x)).apply (.trainUpdate x fb)) ((d.apply (.trainExample x)).apply (.trainUpdate x fb)) := by
  have := Fresh.lstep_like v (b := cblank b) (d := cblank d) h.2.1 h.1 (low_blank h.2.2.1) (low_blank h.2.2.2) (.train x fb)
  rw [← cblank_train b, ← cblank_train d]
  exact ⟨this.1, cr_of this.1, h.2.1, this.2.2⟩

theorem leval {v : Nat} {b d : ConvBlock} (h : CRv v b d) (x : List Nat) :
    Fresh.CLike (b.apply (.evalExample x)) (d.apply (.evalExample x)) ∧ CRv v (b.apply (.evalExample x)) (d.apply (.evalExample x)) := by
  have := Fresh.lstep_like v (b := cblank b) (d := cblank d) h.2.1 h.1 (low_blank h.2.2.1) (low_blank h.2.2.2) (.eval x)
  rw [← cblank_eval b, ← cblank_eval d]
  exact ⟨this.1, cr_of this.1, h.2.1, this.2.2⟩

/-- One patch, or a budget that nothing exceeds. -/
def CRA (b d : ConvBlock) : Prop := CR1 b d ∨ ∃ v, CRv v b d

theorem asim : OnePatch.Sim convBackend convBackend (fun _ _ => True) CRA where
  trainVotes := by
    rintro _ _ x (h | ⟨v, h⟩) _
    · exact (ctrain h x ⟨0, 0, 0, 0⟩).votes.symm
    · exact (ltrain h x ⟨0, 0, 0, 0⟩).1.votes.symm
  trainStep := by
    rintro _ _ x fb (h | ⟨v, h⟩) _
    · exact Or.inl ⟨cr_of (ctrain h x fb), h.2⟩
    · exact Or.inr ⟨v, (ltrain h x fb).2⟩
  evalVotes := by
    rintro _ _ x (h | ⟨v, h⟩) _
    · exact (ceval h x).votes.symm
    · exact (leval h x).1.votes.symm
  evalStep := by
    rintro _ _ x (h | ⟨v, h⟩) _
    · exact Or.inl ⟨cr_of (ceval h x), h.2⟩
    · exact Or.inr ⟨v, (leval h x).2⟩
  okTrain := fun _ _ _ _ h => h
  okEval := fun _ _ _ h => h
  left := fun _ => rfl
  right := fun _ => rfl

/-! ### AVX2 blocks -/

def vblankC (c : VClause) : VClause := { c with out := 0 }

def vblank (b : VBlock) : VBlock := { b with clauses := b.clauses.map vblankC, votes := [] }

theorem vblank_train (b : VBlock) (x : Mem) : (vblank b).apply (.trainExample x) = b.apply (.trainExample x) := by
  have : (b.clauses.map vblankC).map (avxSetClause b.cfg x) = b.clauses.map (avxSetClause b.cfg x) := by
    rw [List.map_map]
    exact List.map_congr_left fun c _ => rfl
  simp only [VBlock.apply, vblank, this]

theorem vblank_eval (b : VBlock) (x : Mem) : (vblank b).apply (.evalExample x) = b.apply (.evalExample x) := by
  have : (b.clauses.map vblankC).map (avxEvalClause b.cfg x) = b.clauses.map (avxEvalClause b.cfg x) := by
    rw [List.map_map]
    exact List.map_congr_left fun c _ => rfl
  simp only [VBlock.apply, vblank, this]

/-- The same up to the padding, the outputs and the votes. -/
def VR (b d : VBlock) : Prop := SameAvxState b d

theorem vboth {b d : VBlock} (h : VR b d) (s : Step) : VR (vstep (vblank b) s) (vstep (vblank d) s) ∧
    (vstep (vblank b) s).votes = (vstep (vblank d) s).votes := by
  have hv : (vblank b).clauses.map (visible (vblank b).cfg.nLits) = (vblank d).clauses.map (visible (vblank b).cfg.nLits) := by
    simp only [vblank, List.map_map]
    refine Fresh.map_congr_of _ _ h.learned.symm fun a c hac => ?_
    simp only [learned, unpad, Prod.mk.injEq] at hac
    simp only [Function.comp, visible, unpad, vblankC, hac.1, hac.2.1, hac.2.2]
  obtain ⟨a1, a2, a3, a4⟩ := C07_padding_is_invisible (vblank b) (vblank d) h.lits h.cfg h.nClasses h.fast h.vrng rfl hv [s] [s] rfl (by
    intro i t t' e1 e2
    rw [e1] at e2
    cases e2
    cases t with
    | train l fb => exact ⟨fun _ _ => rfl, rfl⟩
    | eval l => exact fun _ _ => rfl)
  simp only [List.foldl_cons, List.foldl_nil] at a1 a2 a3 a4
  have hcfg : ∀ b : VBlock, (vstep b s).cfg = b.cfg := by intro b; cases s <;> rfl
  have hcls : ∀ b : VBlock, (vstep b s).nClasses = b.nClasses := by intro b; cases s <;> rfl
  refine ⟨⟨by rw [hcfg]; exact h.lits, by rw [hcls, hcls]; exact h.nClasses, by rw [hcfg, hcfg]; exact h.cfg, ?_, a3.symm, a4.symm⟩, a2⟩
  rw [hcfg]
  have : ∀ l : List VClause, (l.map fun c => learned (unpad (vblank b).cfg.nLits c)) = (l.map (visible (vblank b).cfg.nLits)).map learned := by
    intro l
    rw [List.map_map]
    rfl
  rw [this, this (vstep (vblank b) s).clauses, a1]

theorem vtrain (b : VBlock) (x : Mem) (fb : Feedback) : vstep (vblank b) (.train x fb) = (b.apply (.trainExample x)).apply (.trainUpdate x fb) := by
  simp only [vstep, vblank_train]

theorem veval (b : VBlock) (x : Mem) : vstep (vblank b) (.eval x) = b.apply (.evalExample x) := by
  simp only [vstep, vblank_eval]

theorem vsim : OnePatch.Sim avxBackend avxBackend (fun _ _ => True) VR where
  trainVotes := by
    intro b d x h _
    have := (vboth h (.train x ⟨0, 0, 0, 0⟩)).2
    rw [vtrain, vtrain] at this
    exact this
  trainStep := by
    intro b d x fb h _
    have := (vboth h (.train x fb)).1
    rw [vtrain, vtrain] at this
    exact this
  evalVotes := by
    intro b d x h _
    have := (vboth h (.eval x)).2
    rw [veval, veval] at this
    exact this
  evalStep := by
    intro b d x h _
    have := (vboth h (.eval x)).1
    rw [veval, veval] at this
    exact this
  okTrain := fun _ _ _ _ h => h
  okEval := fun _ _ _ h => h
  left := fun _ => rfl
  right := fun _ => rfl

/-! ### NEON blocks -/

/-- No recoding. -/
def plain (n : Nat) : Recoding := ⟨List.range n, fun _ => false⟩

theorem plain_of (n : Nat) : (plain n).Of n := List.Perm.refl _

theorem plain_col {n j : Nat} (hj : j < n) : RecodeV.col (plain n) j = j := by
  simp [RecodeV.col, plain, List.getD_eq_getElem?_getD, hj]

theorem plain_lit {n : Nat} {x : Mem} (hx : Binary (unpadExample n x)) : RecodeV.LitR (plain n) n x x := by
  refine RecodeV.lit_of (plain_of n) hx ?_
  simp only [Recoding.lits, plain, Bool.false_eq_true, if_false, unpadExample]
  refine List.map_congr_left fun j hj => ?_
  simp [List.getD_eq_getElem?_getD, List.mem_range.1 hj]

theorem plain_gen (n : Nat) (g : VRng) : RecodeN.GenR (plain n) n g g := by
  intro t j s hj hs
  rw [plain_col hj]
  simp [plain]

def nblank (b : NBlock) : NBlock := { b with clauses := b.clauses.map vblankC, votes := [] }

theorem nset_blank (cfg : VCfg) (x : Mem) (c : VClause) : neonSetClause cfg x (vblankC c) = neonSetClause cfg x c := rfl

theorem neval_blank (cfg : VCfg) (x : Mem) (a : Bool) (c : VClause) : neonEvalClause cfg x a (vblankC c) = neonEvalClause cfg x a c := rfl

theorem nblank_train (b : NBlock) (x : Mem) : (nblank b).apply (.trainExample x) = b.apply (.trainExample x) := by
  have : neonSetClauses b.cfg x (b.clauses.map vblankC) = neonSetClauses b.cfg x b.clauses := by
    simp only [neonSetClauses, ne_eq, List.map_eq_nil_iff, List.map_map]
    have : neonSetClause b.cfg x ∘ vblankC = neonSetClause b.cfg x := funext fun c => nset_blank _ _ c
    rw [this]
  simp only [NBlock.apply, nblank, this]

theorem nevals_blank (cfg : VCfg) (x : Mem) : ∀ (cs : List VClause) (a : Bool), neonEvalClauses cfg x a (cs.map vblankC) = neonEvalClauses cfg x a cs := by
  intro cs
  induction cs with
  | nil => intro a; rfl
  | cons c cs ih => intro a; simp only [List.map_cons, neonEvalClauses, neval_blank, ih]

theorem nblank_eval (b : NBlock) (x : Mem) : (nblank b).apply (.evalExample x) = b.apply (.evalExample x) := by
  simp only [NBlock.apply, nblank, nevals_blank]

theorem plain_row {n : Nat} {p q : Mem} : RecodeN.RowR (plain n) n p q ↔ ∀ j, j < n → q j = p j ∧ q (neonMem n + j) = p (neonMem n + j) := by
  constructor
  · intro h j hj
    have := h j hj
    rw [plain_col hj] at this
    simpa [plain] using this
  · intro h j hj
    rw [plain_col hj]
    simpa [plain] using h j hj

theorem plain_learned {n : Nat} (c d : VClause) : learned (neonUnpad n d) = learned (neonUnpad n c) ↔
    RecodeN.RowR (plain n) n c.row d.row ∧ d.w = c.w := by
  rw [plain_row]
  simp only [learned, neonUnpad, Prod.mk.injEq, List.map_inj_left, List.mem_range, BitVec.toInt_inj]
  constructor
  · rintro ⟨h1, h2, h3⟩
    exact ⟨fun j hj => ⟨h1 j hj, h2 j hj⟩, h3⟩
  · rintro ⟨h1, h2⟩
    exact ⟨fun j hj => (h1 j hj).1, fun j hj => (h1 j hj).2, h2⟩

theorem forall₂_map_eq {α β : Type} {f : α → β} {as bs : List α} : List.Forall₂ (fun a b => f b = f a) as bs ↔ bs.map f = as.map f := by
  constructor
  · intro h
    induction h with
    | nil => rfl
    | cons h _ ih => rw [List.map_cons, List.map_cons, h, ih]
  · intro h
    induction as generalizing bs with
    | nil =>
      cases bs with
      | nil => exact .nil
      | cons b bs => exact absurd h (by simp)
    | cons a as ih =>
      cases bs with
      | nil => exact absurd h (by simp)
      | cons b bs =>
        simp only [List.map_cons, List.cons.injEq] at h
        exact .cons h.1 (ih h.2)

/-- The same up to the padding, the outputs and the votes; or both have crashed. -/
def NR (n : Nat) (b d : Option NBlock) : Prop := RecodeN.OV (plain n) n (b.map nblank) (d.map nblank)

theorem nr_of_same {n : Nat} {b d : NBlock} (hn : b.cfg.nLits = n) (h : SameNeonState b d) : NR n (some b) (some d) := by
  refine ⟨hn, fun _ _ => rfl, h.cfg, h.nClasses, rfl, h.fast, ?_, ?_⟩
  · show RecodeN.GenR _ _ b.vrng d.vrng
    rw [h.vrng]
    exact plain_gen n _
  · show List.Forall₂ _ (b.clauses.map vblankC) (d.clauses.map vblankC)
    rw [List.forall₂_map_left_iff, List.forall₂_map_right_iff]
    refine (forall₂_map_eq.2 h.learned).imp fun c e hce => ?_
    rw [hn] at hce
    obtain ⟨h1, h2⟩ := (plain_learned c e).1 hce
    exact ⟨h1, h2, rfl⟩

theorem nr_of {n : Nat} {b d : Option NBlock} (h : RecodeN.OV (plain n) n b d) : NR n b d := by
  rcases RecodeN.ov_cases h with ⟨rfl, rfl⟩ | ⟨b, d, rfl, rfl, h⟩
  · exact trivial
  · refine ⟨h.nLits, fun _ _ => rfl, h.cfg, h.nClasses, rfl, h.fast, h.vrng, ?_⟩
    show List.Forall₂ _ (b.clauses.map vblankC) (d.clauses.map vblankC)
    rw [List.forall₂_map_left_iff, List.forall₂_map_right_iff]
    exact h.clauses.imp fun c e hce => ⟨hce.row, hce.w, rfl⟩

theorem nr_learned {n : Nat} {b d : Option NBlock} (h : NR n b d) :
    (d.map fun b => b.clauses.map fun c => learned (neonUnpad n c)) = b.map fun b => b.clauses.map fun c => learned (neonUnpad n c) := by
  cases b <;> cases d
  · rfl
  · exact h.elim
  · exact h.elim
  · rename_i b d
    have hc : List.Forall₂ (RecodeN.CV (plain n) n) (b.clauses.map vblankC) (d.clauses.map vblankC) := RecodeN.BV.clauses h
    rw [List.forall₂_map_left_iff, List.forall₂_map_right_iff] at hc
    have h2 : List.Forall₂ (fun c e => learned (neonUnpad n e) = learned (neonUnpad n c)) b.clauses d.clauses :=
      hc.imp fun c e hce => (plain_learned c e).2 ⟨hce.row, hce.w⟩
    have := forall₂_map_eq.1 h2
    simp only [Option.map_some, this]

theorem ntrain_eq (b : Option NBlock) (x : Mem) : (b.map nblank).bind (·.apply (.trainExample x)) = b.bind (·.apply (.trainExample x)) := by
  cases b with
  | none => rfl
  | some b => exact nblank_train b x

theorem neval_eq (b : Option NBlock) (x : Mem) : (b.map nblank).bind (·.apply (.evalExample x)) = b.bind (·.apply (.evalExample x)) := by
  cases b with
  | none => rfl
  | some b => exact nblank_eval b x

theorem nsim {n : Nat} (h0 : 0 < n) : OnePatch.Sim neonBackend neonBackend (fun _ x => Binary (unpadExample n x)) (NR n) where
  trainVotes := by
    intro b d x h hx
    have := RecodeN.trainVotes_ov (plain_of n) h0 h (plain_lit hx)
    rw [ntrain_eq, ntrain_eq] at this
    exact this
  trainStep := by
    intro b d x fb h hx
    have := RecodeN.trainStep_ov (plain_of n) h0 h (plain_lit hx) fb
    rw [ntrain_eq, ntrain_eq] at this
    exact nr_of this
  evalVotes := by
    intro b d x h hx
    have := RecodeN.eval_ov (plain_of n) h0 h (plain_lit hx)
    rw [neval_eq, neval_eq] at this
    exact RecodeN.votes_ov this
  evalStep := by
    intro b d x h hx
    have := RecodeN.eval_ov (plain_of n) h0 h (plain_lit hx)
    rw [neval_eq, neval_eq] at this
    exact nr_of this
  okTrain := fun _ _ _ _ h => h
  okEval := fun _ _ _ h => h
  left := fun _ => rfl
  right := fun _ => rfl

/-! ### Putting a saved state into a new machine -/

theorem put_learned (t : List (List Int × List Int × List Int)) : ∀ cs : List Clause, cs.length = t.length →
    (List.zipWith (fun (c : Clause) (t : List Int × List Int × List Int) => { c with pos := t.1, neg := t.2.1, w := t.2.2 }) cs t).map learned = t := by
  induction t with
  | nil => intro cs h; cases cs <;> simp_all
  | cons a t ih =>
    intro cs h
    cases cs with
    | nil => simp at h
    | cons c cs =>
      simp only [List.zipWith_cons_cons, List.map_cons]
      rw [ih cs (by simpa using h)]
      rfl

theorem put_blocks : ∀ (bs ds : List DBlock),
    (ds.map fun b => (b.nClasses, b.cfg, b.clauses.length)) = (bs.map fun b => (b.nClasses, b.cfg, b.clauses.length)) →
    List.Forall₂ SameState (List.zipWith (fun (b d : DBlock) => { b with fast := d.fast, rng := d.rng }) bs ds)
      (putState ds ((bs.flatMap (·.clauses)).map learned)) := by
  intro bs
  induction bs with
  | nil =>
    intro ds h
    cases ds with
    | nil => exact .nil
    | cons d ds => exact absurd h (by simp)
  | cons b bs ih =>
    intro ds h
    cases ds with
    | nil => exact absurd h (by simp)
    | cons d ds =>
      simp only [List.map_cons, List.cons.injEq, Prod.mk.injEq] at h
      obtain ⟨⟨h1, h2, h3⟩, h4⟩ := h
      simp only [List.zipWith_cons_cons, putState, List.flatMap_cons, List.map_append]
      have e1 : (b.clauses.map learned ++ (bs.flatMap (·.clauses)).map learned).take d.clauses.length = b.clauses.map learned := by
        rw [h3, List.take_append_of_le_length (by simp), List.take_of_length_le (by simp)]
      have e2 : (b.clauses.map learned ++ (bs.flatMap (·.clauses)).map learned).drop d.clauses.length = (bs.flatMap (·.clauses)).map learned := by
        rw [h3, List.drop_append_of_le_length (by simp), List.drop_of_length_le (by simp), List.nil_append]
      rw [e1, e2]
      exact .cons ⟨h1, h2, put_learned _ _ (by simp [h3]), rfl, rfl⟩ (ih ds h4)

end GT.Resume

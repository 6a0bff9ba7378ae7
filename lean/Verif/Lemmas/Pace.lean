import Verif.Spec.Pace
import Verif.Model.SparseExec
import Verif.Model.ConvExec
import Verif.Lemmas.OnePatch

/-! # Lemmas: how far a machine can move in some training (C106) -/

namespace GT.Pace
open GT GT.Spec

/-! ### One clause -/

/-- Each weight stayed, or moved by `t` in 16 bits. -/
def Nudged (t : Int) (w w' : List Int) : Prop := List.Forall₂ (fun a b => b = a ∨ b = wrap16 (a + t)) w w'

theorem Nudged.refl (t : Int) (w : List Int) : Nudged t w w := List.forall₂_same.2 fun _ _ => .inl rfl

theorem nudged_set (t : Int) : ∀ (w : List Int) (j : Nat), Nudged t w (w.set j (wrap16 (w.getD j 0 + t))) := by
  intro w
  induction w with
  | nil => intro j; exact .nil
  | cons a w ih =>
    intro j
    cases j with
    | zero => exact .cons (.inr rfl) (Nudged.refl t w)
    | succ j => exact .cons (.inl rfl) (ih j)

theorem nudged_sign {t : Int} (w : List Int) (j : Nat) (s : Int) (ht : t = 1 ∨ t = -1) (hs : s = 1 ∨ s = -1) :
    (t * s > 0 → Nudged t w (w.set j (wrap16 (w.getD j 0 + s)))) ∧ (t * s < 0 → Nudged t w (w.set j (wrap16 (w.getD j 0 - s)))) := by
  have h := nudged_set t w j
  rcases ht with rfl | rfl <;> rcases hs with rfl | rfl <;> exact ⟨fun h' => by first | exact h | omega, fun h' => by first | exact h | omega⟩

theorem sign_cases (v : Int) : (if v ≥ 0 then (1 : Int) else -1) = 1 ∨ (if v ≥ 0 then (1 : Int) else -1) = -1 := by
  split <;> simp

theorem clauseUpdate_nudged (cfg : Cfg) (x : List Nat) (j : Nat) {t : Int} (ht : t = 1 ∨ t = -1) (c : Clause) (g : Rng) :
    Nudged t c.w (clauseUpdate cfg x j t c g).1.w := by
  have h := nudged_sign c.w j _ ht (sign_cases (c.w.getD j 0))
  simp only [clauseUpdate]
  generalize (if c.w.getD j 0 ≥ 0 then (1 : Int) else -1) = s at h ⊢
  split
  · rename_i h1
    split
    · exact h.1 h1
    · exact Nudged.refl _ _
  · split
    · rename_i h2; exact h.2 h2.1
    · exact Nudged.refl _ _

theorem avxClauseUpdate_nudged (cfg : VCfg) (x : Mem) (j : Nat) {t : Int} (ht : t = 1 ∨ t = -1) (c : VClause) (g : VRng) :
    Nudged t c.w (avxClauseUpdate cfg x j t c g).1.w := by
  have h := nudged_sign c.w j _ ht (sign_cases (c.w.getD j 0))
  simp only [avxClauseUpdate]
  generalize (if c.w.getD j 0 ≥ 0 then (1 : Int) else -1) = s at h ⊢
  split
  · rename_i h1
    split
    · exact h.1 h1
    · exact Nudged.refl _ _
  · split
    · rename_i h2; exact h.2 h2.1
    · exact Nudged.refl _ _

theorem neonClauseUpdate_nudged (cfg : VCfg) (x : Mem) (j : Nat) {t : Int} (ht : t = 1 ∨ t = -1) (c : VClause) (g : VRng) :
    Nudged t c.w (neonClauseUpdate cfg x j t c g).1.w := by
  have h := nudged_sign c.w j _ ht (sign_cases (c.w.getD j 0))
  simp only [neonClauseUpdate]
  generalize (if c.w.getD j 0 ≥ 0 then (1 : Int) else -1) = s at h ⊢
  split
  · rename_i h1
    split
    · exact h.1 h1
    · exact Nudged.refl _ _
  · split
    · rename_i h2; exact h.2 h2.1
    · exact Nudged.refl _ _

theorem sUpdateWith_nudged (cfg : SCfg) (x : List Nat) (j : Nat) {t : Int} (ht : t = 1 ∨ t = -1) (c : SClause) (al : AL) (g : Rng) :
    Nudged t c.w (sUpdateWith cfg x j t c al g).1.w := by
  have h := nudged_sign c.w j _ ht (sign_cases (c.w.getD j 0))
  simp only [sUpdateWith, sClauseUpdate]
  generalize (if c.w.getD j 0 ≥ 0 then (1 : Int) else -1) = s at h ⊢
  split
  · rename_i h1
    split
    · exact h.1 h1
    · split <;> exact Nudged.refl _ _
  · split
    · rename_i h2; exact h.2 h2.1
    · exact Nudged.refl _ _

/-- One weight row, moved at most by `n`. -/
def RowMoved (n : Nat) (w w' : List Int) : Prop := List.Forall₂ (fun a b => a.natAbs + n ≤ 32767 → (b - a).natAbs ≤ n) w w'

theorem forall₂_comp {α : Type} {R S T : α → α → Prop} (h : ∀ a b c, R a b → S b c → T a c) : ∀ {l m n : List α}, List.Forall₂ R l m →
    List.Forall₂ S m n → List.Forall₂ T l n := by
  intro l m n h1
  induction h1 generalizing n with
  | nil => intro h2; cases h2; exact .nil
  | cons r _ ih => intro h2; cases h2 with | cons s t => exact .cons (h _ _ _ r s) (ih t)

theorem moved_of_nudged {w v u : List Int} (h1 : Nudged 1 w v) (h2 : Nudged (-1) v u) : RowMoved 1 w u := by
  refine forall₂_comp (fun a b c hb hc => ?_) h1 h2
  intro ha
  rcases hb with rfl | rfl <;> rcases hc with rfl | rfl <;> (try unfold wrap16) <;> omega

theorem RowMoved.refl (n : Nat) (w : List Int) : RowMoved n w w := List.forall₂_same.2 fun _ _ _ => by omega

theorem RowMoved.trans {m n : Nat} {u v w : List Int} (h1 : RowMoved m u v) (h2 : RowMoved n v w) : RowMoved (m + n) u w := by
  refine forall₂_comp (fun a b c hb hc ha => ?_) h1 h2
  have := hb (by omega)
  have := hc (by omega)
  omega

theorem moved_refl (n : Nat) (r : List (List Int)) : MovedAtMost n r r := List.forall₂_same.2 fun w _ => RowMoved.refl n w

theorem moved_trans {m n : Nat} {r s t : List (List Int)} (h1 : MovedAtMost m r s) (h2 : MovedAtMost n s t) : MovedAtMost (m + n) r t :=
  forall₂_comp (R := RowMoved m) (S := RowMoved n) (T := RowMoved (m + n)) (fun _ _ _ a b => RowMoved.trans a b) h1 h2

theorem trainClause_moved (cfg : Cfg) (x : List Nat) (fb : Feedback) (c : Clause) (fast rng : Rng) :
    RowMoved 1 c.w (trainClause cfg x fb c fast rng).1.w := by
  have hg : (budgetGate cfg c).w = c.w := by
    simp only [budgetGate]; split
    · split <;> rfl
    · rfl
  simp only [trainClause]
  rw [← hg]
  refine moved_of_nudged (v := (if fast.next.1 < fb.posProb then clauseUpdate cfg x fb.posClass 1 (budgetGate cfg c) rng
    else (budgetGate cfg c, rng)).1.w) ?_ ?_
  · split
    · exact clauseUpdate_nudged cfg x _ (.inl rfl) _ _
    · exact Nudged.refl _ _
  · generalize (if fast.next.1 < fb.posProb then clauseUpdate cfg x fb.posClass 1 (budgetGate cfg c) rng
    else (budgetGate cfg c, rng)) = a
    split
    · exact clauseUpdate_nudged cfg x _ (.inr rfl) _ _
    · exact Nudged.refl _ _

theorem avxTrainClause_moved (cfg : VCfg) (x : Mem) (fb : Feedback) (c : VClause) (fast : Rng) (g : VRng) :
    RowMoved 1 c.w (avxTrainClause cfg x fb c fast g).1.w := by
  have hg : (avxBudgetGate cfg c).w = c.w := by
    simp only [avxBudgetGate]; split
    · split <;> rfl
    · rfl
  simp only [avxTrainClause]
  rw [← hg]
  refine moved_of_nudged (v := (if fast.next.1 < fb.posProb then avxClauseUpdate cfg x fb.posClass 1 (avxBudgetGate cfg c) g
    else (avxBudgetGate cfg c, g)).1.w) ?_ ?_
  · split
    · exact avxClauseUpdate_nudged cfg x _ (.inl rfl) _ _
    · exact Nudged.refl _ _
  · generalize (if fast.next.1 < fb.posProb then avxClauseUpdate cfg x fb.posClass 1 (avxBudgetGate cfg c) g
    else (avxBudgetGate cfg c, g)) = a
    split
    · exact avxClauseUpdate_nudged cfg x _ (.inr rfl) _ _
    · exact Nudged.refl _ _

theorem neonTrainClause_moved (cfg : VCfg) (x : Mem) (fb : Feedback) (c : VClause) (fast : Rng) (g : VRng) :
    RowMoved 1 c.w (neonTrainClause cfg x fb c fast g).1.w := by
  have hg : (neonBudgetGate cfg c).w = c.w := by
    simp only [neonBudgetGate]; split
    · split <;> rfl
    · rfl
  simp only [neonTrainClause]
  rw [← hg]
  refine moved_of_nudged (v := (if fast.next.1 < fb.posProb then neonClauseUpdate cfg x fb.posClass 1 (neonBudgetGate cfg c) g
    else (neonBudgetGate cfg c, g)).1.w) ?_ ?_
  · split
    · exact neonClauseUpdate_nudged cfg x _ (.inl rfl) _ _
    · exact Nudged.refl _ _
  · generalize (if fast.next.1 < fb.posProb then neonClauseUpdate cfg x fb.posClass 1 (neonBudgetGate cfg c) g
    else (neonBudgetGate cfg c, g)) = a
    split
    · exact neonClauseUpdate_nudged cfg x _ (.inr rfl) _ _
    · exact Nudged.refl _ _

theorem sTrainClause_moved (cfg : SCfg) (x : List Nat) (fb : Feedback) (c : SClause) (al : AL) (g : Rng) :
    RowMoved 1 c.w (sTrainClause cfg x fb c al g).1.w := by
  have hg : (sBudgetGate cfg c).w = c.w := by
    simp only [sBudgetGate]; split
    · split <;> rfl
    · rfl
  simp only [sTrainClause]
  rw [← hg]
  refine moved_of_nudged (v := (if g.next.1 < fb.posProb then sUpdateWith cfg x fb.posClass 1 (sBudgetGate cfg c) al g.next.2
    else (sBudgetGate cfg c, al, g.next.2)).1.w) ?_ ?_
  · split
    · exact sUpdateWith_nudged cfg x _ (.inl rfl) _ _ _
    · exact Nudged.refl _ _
  · generalize (if g.next.1 < fb.posProb then sUpdateWith cfg x fb.posClass 1 (sBudgetGate cfg c) al g.next.2
    else (sBudgetGate cfg c, al, g.next.2)) = a
    split
    · exact sUpdateWith_nudged cfg x _ (.inr rfl) _ _ _
    · exact Nudged.refl _ _

/-! ### One block -/

theorem dense_update (b : DBlock) (x : List Nat) (fb : Feedback) : MovedAtMost 1 (weightsOf b) (weightsOf (b.apply (.trainUpdate x fb))) := by
  show MovedAtMost 1 _ ((trainClauses b.cfg x fb b.clauses b.fast b.rng).1.map fun c => c.w)
  unfold weightsOf
  generalize b.fast = f; generalize b.rng = g
  generalize b.clauses = cs
  induction cs generalizing f g with
  | nil => exact .nil
  | cons c cs ih => exact .cons (trainClause_moved b.cfg x fb c f g) (ih _ _)

theorem avx_update (b : VBlock) (x : Mem) (fb : Feedback) : MovedAtMost 1 (avxWeightsOf b) (avxWeightsOf (b.apply (.trainUpdate x fb))) := by
  show MovedAtMost 1 _ ((avxTrainClauses b.cfg x fb b.clauses b.fast b.vrng).1.map fun c => c.w)
  unfold avxWeightsOf
  generalize b.fast = f; generalize b.vrng = g
  generalize b.clauses = cs
  induction cs generalizing f g with
  | nil => exact .nil
  | cons c cs ih => exact .cons (avxTrainClause_moved b.cfg x fb c f g) (ih _ _)

theorem neon_update (b : NBlock) (x : Mem) (fb : Feedback) :
    MovedAtMost 1 (neonWeightsOf b) ((neonTrainClauses b.cfg x fb b.clauses b.fast b.vrng).1.map fun c => c.w) := by
  unfold neonWeightsOf
  generalize b.fast = f; generalize b.vrng = g
  generalize b.clauses = cs
  induction cs generalizing f g with
  | nil => exact .nil
  | cons c cs ih => exact .cons (neonTrainClause_moved b.cfg x fb c f g) (ih _ _)

theorem sparse_update (b : SBlock) (x : List Nat) (fb : Feedback) :
    MovedAtMost 1 (sparseWeightsOf b) (sparseWeightsOf (b.apply (.trainUpdate x fb))) := by
  show MovedAtMost 1 _ ((sTrainClauses b.cfg x fb b.clauses b.al b.fast).1.map fun c => c.w)
  unfold sparseWeightsOf
  generalize b.fast = f; generalize b.al = g
  generalize b.clauses = cs
  induction cs generalizing f g with
  | nil => exact .nil
  | cons c cs ih => exact .cons (sTrainClause_moved b.cfg x fb c g f) (ih _ _)

theorem conv_update (b : ConvBlock) (x : List Nat) (fb : Feedback) :
    MovedAtMost 1 (convWeightsOf b) (convWeightsOf (b.apply (.trainUpdate x fb))) := by
  show MovedAtMost 1 _ ((convTrainClauses b.cfg b.nLits x fb b.clauses b.fast b.rng).1.map fun c => c.base.w)
  unfold convWeightsOf
  generalize b.fast = f; generalize b.rng = g
  generalize b.clauses = cs
  induction cs generalizing f g with
  | nil => exact .nil
  | cons c cs ih => exact .cons (trainClause_moved b.cfg _ fb c.base f g) (ih _ _)

theorem avxConv_update (b : VConvBlock) (x : Mem) (fb : Feedback) :
    MovedAtMost 1 (avxConvWeightsOf b) (avxConvWeightsOf (b.apply (.trainUpdate x fb))) := by
  show MovedAtMost 1 _ ((avxConvTrainClauses b.cfg x fb b.clauses b.fast b.vrng).1.map fun c => c.base.w)
  unfold avxConvWeightsOf
  generalize b.fast = f; generalize b.vrng = g
  generalize b.clauses = cs
  induction cs generalizing f g with
  | nil => exact .nil
  | cons c cs ih => exact .cons (avxTrainClause_moved b.cfg _ fb c.base f g) (ih _ _)

theorem avxSet_w (cfg : VCfg) (x : Mem) (c : VClause) : (avxSetClause cfg x c).w = c.w := by
  simp only [avxSetClause]; split
  · rfl
  · split
    · rfl
    · split <;> rfl

theorem avxEval_w (cfg : VCfg) (x : Mem) (c : VClause) : (avxEvalClause cfg x c).w = c.w := by
  simp only [avxEvalClause]; split
  · rfl
  · split
    · rfl
    · split <;> rfl

theorem neonSet_w (cfg : VCfg) (x : Mem) (c : VClause) : (neonSetClause cfg x c).w = c.w := by
  simp only [neonSetClause]; split
  · rfl
  · split
    · rfl
    · split <;> rfl

theorem neonEval_w (cfg : VCfg) (x : Mem) (a : Bool) (c : VClause) : (neonEvalClause cfg x a c).1.w = c.w := by
  simp only [neonEvalClause]; split
  · rfl
  · split
    · rfl
    · split <;> rfl

theorem sSet_w (cfg : SCfg) (x : List Nat) (c : SClause) : (sSetClause cfg x c).w = c.w := by
  simp only [sSetClause]; split <;> rfl

theorem sEval_w (x : List Nat) (c : SClause) : (sEvalClause x c).w = c.w := by
  simp only [sEvalClause]; split <;> rfl

theorem dense_example (b : DBlock) (x : List Nat) : weightsOf (b.apply (.trainExample x)) = weightsOf b ∧
    weightsOf (b.apply (.evalExample x)) = weightsOf b := by
  simp only [weightsOf, DBlock.apply, DBlock.trainSetOutput, DBlock.evalSetOutput, DBlock.countVotes, List.map_map]
  exact ⟨rfl, rfl⟩

theorem avx_example (b : VBlock) (x : Mem) : avxWeightsOf (b.apply (.trainExample x)) = avxWeightsOf b ∧
    avxWeightsOf (b.apply (.evalExample x)) = avxWeightsOf b := by
  simp only [avxWeightsOf, VBlock.apply, List.map_map]
  exact ⟨List.map_congr_left fun c _ => avxSet_w b.cfg x c, List.map_congr_left fun c _ => avxEval_w b.cfg x c⟩

theorem sparse_example (b : SBlock) (x : List Nat) : sparseWeightsOf (b.apply (.trainExample x)) = sparseWeightsOf b ∧
    sparseWeightsOf (b.apply (.evalExample x)) = sparseWeightsOf b := by
  simp only [sparseWeightsOf, SBlock.apply, List.map_map]
  exact ⟨List.map_congr_left fun c _ => sSet_w b.cfg x c, List.map_congr_left fun c _ => sEval_w x c⟩

theorem conv_example (b : ConvBlock) (x : List Nat) : convWeightsOf (b.apply (.trainExample x)) = convWeightsOf b ∧
    convWeightsOf (b.apply (.evalExample x)) = convWeightsOf b := by
  constructor
  · show ((convSetClauses b.cfg b.nLits b.nPatches x b.clauses b.counts b.rng).1.map fun c => c.base.w) = _
    unfold convWeightsOf
    generalize b.counts = f; generalize b.rng = g
    generalize b.clauses = cs
    induction cs generalizing f g with
    | nil => rfl
    | cons c cs ih => exact congrArg (c.base.w :: ·) (ih _ _)
  · simp only [convWeightsOf, ConvBlock.apply, List.map_map]
    rfl

theorem avxConv_example (b : VConvBlock) (x : Mem) : avxConvWeightsOf (b.apply (.trainExample x)) = avxConvWeightsOf b ∧
    avxConvWeightsOf (b.apply (.evalExample x)) = avxConvWeightsOf b := by
  constructor
  · show ((avxConvSetClauses b.cfg b.nPatches x b.clauses b.counts b.rng).1.map fun c => c.base.w) = _
    unfold avxConvWeightsOf
    generalize b.counts = f; generalize b.rng = g
    generalize b.clauses = cs
    induction cs generalizing f g with
    | nil => rfl
    | cons c cs ih => exact congrArg (c.base.w :: ·) (ih _ _)
  · simp only [avxConvWeightsOf, VConvBlock.apply, List.map_map]
    rfl

/-! ### Whole uses -/

/-- A relation between a block and what it became after training on that many examples. -/
structure Paced {B E : Type} (be : Backend B E) (R : Nat → B → B → Prop) : Prop where
  refl : ∀ n b, R n b b
  trans : ∀ m n b c d, R m b c → R n c d → R (m + n) b d
  train : ∀ b x fb, R 1 b (be.trainUpdate (be.trainExample b x) x fb)
  eval : ∀ b x, R 0 b (be.evalExample b x)
  trainable : ∀ b, be.trainable b = true

section
variable {B E : Type} {be : Backend B E} {R : Nat → B → B → Prop}

theorem all_refl (h : Paced be R) (n : Nat) (bs : List B) : List.Forall₂ (R n) bs bs := List.forall₂_same.2 fun b _ => h.refl n b

theorem all_trans (h : Paced be R) {m n : Nat} {a b c : List B} (h1 : List.Forall₂ (R m) a b) (h2 : List.Forall₂ (R n) b c) :
    List.Forall₂ (R (m + n)) a c :=
  forall₂_comp (R := R m) (S := R n) (T := R (m + n)) (fun _ _ _ p q => h.trans m n _ _ _ p q) h1 h2

theorem indices_paced (h : Paced be R) (smp : List Rat → Rat → Nat) (data : List (E × Nat)) : ∀ (is : List Nat) (e : Exec B),
    List.Forall₂ (R is.length) e.blocks (Exec.trainIndices be smp data is e).blocks := by
  intro is
  induction is with
  | nil => intro e; exact all_refl h 0 _
  | cons i is ih =>
    intro e
    simp only [Exec.trainIndices]
    rw [List.length_cons, Nat.add_comm]
    cases data[i]? with
    | none => exact all_trans h (all_refl h 1 _) (ih e)
    | some d =>
      refine all_trans h (b := (e.trainOne be smp d.1 d.2).blocks) ?_ (ih _)
      rw [OnePatch.trainOne_blocks be smp e d.1 d.2 h.trainable, List.forall₂_map_right_iff]
      exact List.forall₂_same.2 fun b _ => h.train b _ _

theorem evalLoop_paced (h : Paced be R) : ∀ (xs : List E) (e : Exec B), List.Forall₂ (R 0) e.blocks (Exec.evalLoop be xs e).1.blocks := by
  intro xs
  induction xs with
  | nil => intro e; exact all_refl h 0 _
  | cons x xs ih =>
    intro e
    refine all_trans h (m := 0) (n := 0) (b := (e.evalOne be x).1.blocks) ?_ (ih _)
    rw [OnePatch.evalOne_blocks, List.forall₂_map_right_iff]
    exact List.forall₂_same.2 fun b _ => h.eval b _

theorem weaken (h : Paced be R) {m n : Nat} (hmn : m ≤ n) {a b : List B} (h1 : List.Forall₂ (R m) a b) : List.Forall₂ (R n) a b := by
  have := all_trans h h1 (all_refl h (n - m) b)
  rwa [Nat.add_sub_cancel' hmn] at this

theorem use_paced (h : Paced be R) (smp : List Rat → Rat → Nat) (u : TMUse E) (e : Exec B) :
    List.Forall₂ (R u.size) e.blocks (useOnce be smp e u).1.blocks := by
  cases u with
  | epoch shuffle data =>
    refine weaken h ?_ (indices_paced h smp data _ { e with fb := e.fb.resetCounter, index := shuffle (List.range data.length) })
    simp only [TMUse.size, List.drop_zero, List.length_take]
    omega
  | predict data =>
    simp only [useOnce, Exec.evalPredict, ne_eq, not_true_eq_false, if_false]
    exact evalLoop_paced h data e

theorem uses_paced (h : Paced be R) (smp : List Rat → Rat → Nat) : ∀ (us : List (TMUse E)) (e : Exec B),
    List.Forall₂ (R (examplesShown us)) e.blocks (afterUses be smp us e).blocks := by
  intro us
  induction us with
  | nil => intro e; exact all_refl h 0 _
  | cons u us ih =>
    intro e
    have := all_trans h (use_paced h smp u e) (ih (useOnce be smp e u).1)
    simpa only [examplesShown, List.map_cons, List.sum_cons, afterUses, List.foldl_cons] using this

end

theorem paced_of {B E : Type} (be : Backend B E) (rows : B → List (List Int)) (h1 : ∀ b x fb, MovedAtMost 1 (rows b) (rows (be.trainUpdate b x fb)))
    (h2 : ∀ b x, rows (be.trainExample b x) = rows b ∧ rows (be.evalExample b x) = rows b) (h3 : ∀ b, be.trainable b = true) :
    Paced be fun n b d => MovedAtMost n (rows b) (rows d) where
  refl n b := moved_refl n _
  trans m n b c d h h' := moved_trans h h'
  train b x fb := by rw [← (h2 b x).1]; exact h1 _ x fb
  eval b x := by rw [(h2 b x).2]; exact moved_refl 0 _
  trainable := h3

theorem dense_paced : Paced denseBackend fun n b d => MovedAtMost n (weightsOf b) (weightsOf d) :=
  paced_of _ _ dense_update dense_example fun _ => rfl

theorem avx_paced : Paced avxBackend fun n b d => MovedAtMost n (avxWeightsOf b) (avxWeightsOf d) :=
  paced_of _ _ avx_update avx_example fun _ => rfl

theorem sparse_paced : Paced sparseBackend fun n b d => MovedAtMost n (sparseWeightsOf b) (sparseWeightsOf d) :=
  paced_of _ _ sparse_update sparse_example fun _ => rfl

theorem conv_paced : Paced convBackend fun n b d => MovedAtMost n (convWeightsOf b) (convWeightsOf d) :=
  paced_of _ _ conv_update conv_example fun _ => rfl

theorem avxConv_paced : Paced avxConvBackend fun n b d => MovedAtMost n (avxConvWeightsOf b) (avxConvWeightsOf d) :=
  paced_of _ _ avxConv_update avxConv_example fun _ => rfl

theorem neon_example {b d : NBlock} {x : Mem} (h : b.apply (.trainExample x) = some d) : neonWeightsOf d = neonWeightsOf b := by
  simp only [NBlock.apply, neonSetClauses] at h
  split at h
  · cases h
  · simp only [Option.map_some, Option.some.injEq] at h
    subst h
    simp only [neonWeightsOf, List.map_map]
    exact List.map_congr_left fun c _ => neonSet_w b.cfg x c

theorem neon_eval {b d : NBlock} {x : Mem} (h : b.apply (.evalExample x) = some d) : neonWeightsOf d = neonWeightsOf b := by
  simp only [NBlock.apply, Option.some.injEq] at h
  subst h
  show ((neonEvalClauses b.cfg x false b.clauses).map fun c => c.w) = _
  unfold neonWeightsOf
  generalize false = a
  generalize b.clauses = cs
  induction cs generalizing a with
  | nil => rfl
  | cons c cs ih =>
    simp only [neonEvalClauses, List.map_cons]
    rw [ih, neonEval_w]

theorem neon_paced : Paced neonBackend fun n b d => ∀ d', d = some d' → ∃ b', b = some b' ∧ MovedAtMost n (neonWeightsOf b') (neonWeightsOf d') where
  refl n b d' h := ⟨d', h, moved_refl n _⟩
  trans m n b c d h h' d' hd := by
    obtain ⟨c', hc, h2⟩ := h' d' hd
    obtain ⟨b', hb, h1⟩ := h c' hc
    exact ⟨b', hb, moved_trans h1 h2⟩
  train b x fb d' h := by
    cases b with
    | none => cases h
    | some b =>
      refine ⟨b, rfl, ?_⟩
      simp only [neonBackend, Option.bind_some] at h
      obtain ⟨c, hc, hd⟩ := Option.bind_eq_some_iff.1 h
      rw [← neon_example hc]
      simp only [NBlock.apply, Option.some.injEq] at hd
      subst hd
      exact neon_update c x fb
  eval b x d' h := by
    cases b with
    | none => cases h
    | some b =>
      refine ⟨b, rfl, ?_⟩
      simp only [neonBackend, Option.bind_some] at h
      rw [neon_eval h]
      exact moved_refl 0 _
  trainable _ := rfl

/-! ### The states of the literals -/

theorem states_refl (n : Nat) (l : List Int) : StatesMovedAtMost n l l := List.forall₂_same.2 fun _ _ _ _ => ⟨by omega, by omega, by omega⟩

theorem states_trans {m n : Nat} {r s t : List Int} (h1 : StatesMovedAtMost m r s) (h2 : StatesMovedAtMost n s t) : StatesMovedAtMost (m + n) r t := by
  refine forall₂_comp (fun a b c hb hc h h' => ?_) h1 h2
  obtain ⟨p, q, r⟩ := hb h h'
  obtain ⟨u, v, w⟩ := hc q r
  exact ⟨by omega, v, w⟩

/-- One state moved by at most 1. -/
abbrev Step (v v' : Int) : Prop := -128 ≤ v → v ≤ 127 → (v' - v).natAbs ≤ 1 ∧ -128 ≤ v' ∧ v' ≤ 127

theorem step_refl (v : Int) : Step v v := fun h h' => ⟨by omega, h, h'⟩

theorem step_inc (v : Int) : Step v (incState v) := by
  intro h h'
  unfold incState
  split
  · unfold wrap8; omega
  · omega

theorem step_dec (v : Int) : Step v (decState v) := by
  intro h h'
  unfold decState
  split
  · unfold wrap8; omega
  · omega

theorem t1a_states (cfg : Cfg) : ∀ (ps qs : List Int) (xs : List Nat) (g : Rng),
    StatesMovedAtMost 1 ps (t1a cfg ps qs xs g).1 ∧ StatesMovedAtMost 1 qs (t1a cfg ps qs xs g).2.1 := by
  intro ps
  induction ps with
  | nil => intro qs xs g; simp only [t1a]; exact ⟨states_refl 1 _, states_refl 1 _⟩
  | cons p ps ih =>
    intro qs xs g
    match qs, xs with
    | [], _ => simp only [t1a]; exact ⟨states_refl 1 _, states_refl 1 _⟩
    | q :: qs, [] => simp only [t1a]; exact ⟨states_refl 1 _, states_refl 1 _⟩
    | q :: qs, x :: xs =>
      simp only [t1a]
      split
      · refine ⟨.cons ?_ (ih qs xs _).1, .cons ?_ (ih qs xs _).2⟩
        · split
          · exact step_inc p
          · split
            · exact step_inc p
            · exact step_refl p
        · generalize (if cfg.boost = true then (incState p, g) else (if g.next.1 ≤ cfg.sMin1Inv then incState p else p, g.next.2)) = a
          split
          · exact step_dec q
          · exact step_refl q
      · refine ⟨.cons ?_ (ih qs xs _).1, .cons ?_ (ih qs xs _).2⟩
        · split
          · exact step_dec p
          · exact step_refl p
        · split
          · exact step_inc q
          · exact step_refl q

theorem t1b_states (cfg : Cfg) : ∀ (ps qs : List Int) (g : Rng),
    StatesMovedAtMost 1 ps (t1b cfg ps qs g).1 ∧ StatesMovedAtMost 1 qs (t1b cfg ps qs g).2.1 := by
  intro ps
  induction ps with
  | nil => intro qs g; simp only [t1b]; exact ⟨states_refl 1 _, states_refl 1 _⟩
  | cons p ps ih =>
    intro qs g
    match qs with
    | [] => simp only [t1b]; exact ⟨states_refl 1 _, states_refl 1 _⟩
    | q :: qs =>
      simp only [t1b]
      refine ⟨.cons ?_ (ih qs _).1, .cons ?_ (ih qs _).2⟩
      · split
        · exact step_dec p
        · exact step_refl p
      · split
        · exact step_dec q
        · exact step_refl q

theorem step_t2 (v : Int) : Step v (if v < 0 then wrap8 (v + 1) else v) := by
  intro h h'
  split
  · unfold wrap8; omega
  · omega

theorem t2_states : ∀ (ps qs : List Int) (xs : List Nat), StatesMovedAtMost 1 ps (t2 ps qs xs).1 ∧ StatesMovedAtMost 1 qs (t2 ps qs xs).2 := by
  intro ps
  induction ps with
  | nil => intro qs xs; simp only [t2]; exact ⟨states_refl 1 _, states_refl 1 _⟩
  | cons p ps ih =>
    intro qs xs
    match qs, xs with
    | [], _ => simp only [t2]; exact ⟨states_refl 1 _, states_refl 1 _⟩
    | q :: qs, [] => simp only [t2]; exact ⟨states_refl 1 _, states_refl 1 _⟩
    | q :: qs, x :: xs =>
      simp only [t2]
      split
      · exact ⟨.cons (step_t2 p) (ih qs xs).1, .cons (step_refl q) (ih qs xs).2⟩
      · exact ⟨.cons (step_refl p) (ih qs xs).1, .cons (step_t2 q) (ih qs xs).2⟩

/-- Both halves of a clause moved by at most `n`. -/
def Halves (n : Nat) (c d : Clause) : Prop := StatesMovedAtMost n c.pos d.pos ∧ StatesMovedAtMost n c.neg d.neg

theorem halves_refl (n : Nat) (c : Clause) : Halves n c c := ⟨states_refl n _, states_refl n _⟩

theorem halves_trans {m n : Nat} {a b c : Clause} (h : Halves m a b) (h' : Halves n b c) : Halves (m + n) a c :=
  ⟨states_trans h.1 h'.1, states_trans h.2 h'.2⟩

theorem clauseUpdate_states (cfg : Cfg) (x : List Nat) (j : Nat) (t : Int) (c : Clause) (g : Rng) : Halves 1 c (clauseUpdate cfg x j t c g).1 := by
  simp only [clauseUpdate]
  generalize (if c.w.getD j 0 ≥ 0 then (1 : Int) else -1) = s
  split
  · split
    · exact t1a_states cfg c.pos c.neg x g
    · exact t1b_states cfg c.pos c.neg g
  · split
    · exact t2_states c.pos c.neg x
    · exact halves_refl 1 c

theorem trainClause_states (cfg : Cfg) (x : List Nat) (fb : Feedback) (c : Clause) (fast rng : Rng) :
    Halves 2 c (trainClause cfg x fb c fast rng).1 := by
  have hg : Halves 0 c (budgetGate cfg c) := by
    simp only [budgetGate]; split
    · split <;> exact halves_refl 0 _
    · exact halves_refl 0 _
  simp only [trainClause]
  refine halves_trans (m := 1) (n := 1) (b := (if fast.next.1 < fb.posProb then clauseUpdate cfg x fb.posClass 1 (budgetGate cfg c) rng
    else (budgetGate cfg c, rng)).1) (halves_trans (m := 0) (n := 1) hg ?_) ?_
  · split
    · exact clauseUpdate_states cfg x _ _ _ _
    · exact halves_refl 1 _
  · generalize (if fast.next.1 < fb.posProb then clauseUpdate cfg x fb.posClass 1 (budgetGate cfg c) rng
    else (budgetGate cfg c, rng)) = a
    split
    · exact clauseUpdate_states cfg x _ _ _ _
    · exact halves_refl 1 _

/-- The states of all clauses moved by at most `2 * n`. -/
def ClausesMoved (n : Nat) (cs ds : List Clause) : Prop := List.Forall₂ (Halves (2 * n)) cs ds

theorem clauses_trans {m n : Nat} {a b c : List Clause} (h : ClausesMoved m a b) (h' : ClausesMoved n b c) : ClausesMoved (m + n) a c :=
  forall₂_comp (R := Halves (2 * m)) (S := Halves (2 * n)) (T := Halves (2 * (m + n))) (fun _ _ _ p q => by
    have := halves_trans p q
    rwa [← Nat.mul_add] at this) h h'

theorem clauses_refl (n : Nat) (cs : List Clause) : ClausesMoved n cs cs := List.forall₂_same.2 fun c _ => halves_refl _ c

theorem clauses_map (n : Nat) (f : Clause → Clause) (h : ∀ c, Halves (2 * n) c (f c)) (cs : List Clause) : ClausesMoved n cs (cs.map f) := by
  unfold ClausesMoved
  rw [List.forall₂_map_right_iff]
  exact List.forall₂_same.2 fun c _ => h c

theorem trainClauses_states (cfg : Cfg) (x : List Nat) (fb : Feedback) : ∀ (cs : List Clause) (f g : Rng),
    ClausesMoved 1 cs (trainClauses cfg x fb cs f g).1 := by
  intro cs
  induction cs with
  | nil => intro f g; exact .nil
  | cons c cs ih => intro f g; exact .cons (trainClause_states cfg x fb c f g) (ih _ _)

theorem dense_states : Paced denseBackend fun n b d => ClausesMoved n b.clauses d.clauses where
  refl n b := clauses_refl n _
  trans m n b c d h h' := clauses_trans h h'
  train b x fb := by
    have h1 : ClausesMoved 0 b.clauses (b.apply (.trainExample x)).clauses :=
      clauses_map 0 (setOutClause b.cfg x) (fun c => ⟨states_refl 0 _, states_refl 0 _⟩) _
    exact clauses_trans (m := 0) (n := 1) h1 (trainClauses_states b.cfg x fb _ _ _)
  eval b x := clauses_map 0 (evalOutClause x) (fun c => ⟨states_refl 0 _, states_refl 0 _⟩) _
  trainable _ := rfl

end GT.Pace

import Verif.Lemmas.Pace
import Verif.Lemmas.Avx2
import Verif.Lemmas.Neon

/-! # Lemmas: how far training moves the states of literals of the vector and convolutional blocks (C106) -/

namespace GT.Pace
open GT GT.Spec

/-! ### Bytes -/

theorem satAdd_near (v : Byte) : ((satAdd v 1#8).toInt - v.toInt).natAbs ≤ 1 ∧ ((satAdd v 0xFF#8).toInt - v.toInt).natAbs ≤ 1 := by
  revert v; decide +kernel

theorem self_near (v : Byte) : (v.toInt - v.toInt).natAbs ≤ 1 := by omega

theorem t1a_near (boost : Bool) (cmp : Byte) (up : Bool) (rnd v : Byte) : ((t1aLane boost cmp up rnd v).toInt - v.toInt).natAbs ≤ 1 := by
  unfold t1aLane
  split <;> split <;> first | exact (satAdd_near v).1 | exact (satAdd_near v).2 | exact self_near v

theorem t1b_near (cmp rnd v : Byte) : ((t1bLane cmp rnd v).toInt - v.toInt).natAbs ≤ 1 := by
  unfold t1bLane
  split <;> first | exact (satAdd_near v).2 | exact self_near v

theorem t2_near (b : Bool) (v : Byte) : ((t2Lane b v).toInt - v.toInt).natAbs ≤ 1 := by
  unfold t2Lane
  split <;> first | exact (satAdd_near v).1 | exact self_near v

theorem bytes_refl (n : Nat) (r : Mem) : BytesMovedAtMost n r r := fun a => by omega

theorem bytes_trans {m n : Nat} {r s t : Mem} (h : BytesMovedAtMost m r s) (h' : BytesMovedAtMost n s t) : BytesMovedAtMost (m + n) r t := by
  intro a
  have := h a
  have := h' a
  omega

/-! ### One clause, avx -/

theorem avxUpdate_bytes (cfg : VCfg) (x : Mem) (j : Nat) (t : Int) (c : VClause) (g : VRng) :
    BytesMovedAtMost 1 c.row (avxClauseUpdate cfg x j t c g).1.row := by
  simp only [avxClauseUpdate]
  generalize (if c.w.getD j 0 ≥ 0 then (1 : Int) else -1) = s
  split
  · split
    · rw [avxT1a_eq]
      intro a
      dsimp only
      split
      · exact t1a_near ..
      · split
        · exact t1a_near ..
        · exact self_near _
    · rw [avxT1b_eq]
      intro a
      dsimp only
      split
      · exact t1b_near ..
      · split
        · exact t1b_near ..
        · exact self_near _
  · split
    · rw [avxT2_eq]
      intro a
      dsimp only
      split
      · exact t2_near ..
      · split
        · exact t2_near ..
        · exact self_near _
    · exact bytes_refl 1 _

theorem avxTrain_bytes (cfg : VCfg) (x : Mem) (fb : Feedback) (c : VClause) (fast : Rng) (g : VRng) :
    BytesMovedAtMost 2 c.row (avxTrainClause cfg x fb c fast g).1.row := by
  have hg : (avxBudgetGate cfg c).row = c.row := by
    simp only [avxBudgetGate]; split
    · split <;> rfl
    · rfl
  simp only [avxTrainClause]
  rw [← hg]
  refine bytes_trans (m := 1) (n := 1) (s := (if fast.next.1 < fb.posProb then avxClauseUpdate cfg x fb.posClass 1 (avxBudgetGate cfg c) g
    else (avxBudgetGate cfg c, g)).1.row) ?_ ?_
  · split
    · exact avxUpdate_bytes cfg x _ _ _ _
    · exact bytes_refl 1 _
  · generalize (if fast.next.1 < fb.posProb then avxClauseUpdate cfg x fb.posClass 1 (avxBudgetGate cfg c) g
    else (avxBudgetGate cfg c, g)) = a
    split
    · exact avxUpdate_bytes cfg x _ _ _ _
    · exact bytes_refl 1 _

/-! ### One clause, neon -/

theorem neonUpdate_bytes (cfg : VCfg) (x : Mem) (j : Nat) (t : Int) (c : VClause) (g : VRng) :
    BytesMovedAtMost 1 c.row (neonClauseUpdate cfg x j t c g).1.row := by
  simp only [neonClauseUpdate]
  generalize (if c.w.getD j 0 ≥ 0 then (1 : Int) else -1) = s
  split
  · split
    · rw [Neon.neonT1a_eq]
      intro a
      dsimp only
      split
      · exact t1a_near ..
      · split
        · exact t1a_near ..
        · exact self_near _
    · rw [Neon.neonT1b_eq]
      intro a
      dsimp only
      split
      · exact t1b_near ..
      · split
        · exact t1b_near ..
        · exact self_near _
  · split
    · rw [Neon.neonT2_eq]
      intro a
      dsimp only
      split
      · exact t2_near ..
      · split
        · exact t2_near ..
        · exact self_near _
    · exact bytes_refl 1 _

theorem neonTrain_bytes (cfg : VCfg) (x : Mem) (fb : Feedback) (c : VClause) (fast : Rng) (g : VRng) :
    BytesMovedAtMost 2 c.row (neonTrainClause cfg x fb c fast g).1.row := by
  have hg : (neonBudgetGate cfg c).row = c.row := by
    simp only [neonBudgetGate]; split
    · split <;> rfl
    · rfl
  simp only [neonTrainClause]
  rw [← hg]
  refine bytes_trans (m := 1) (n := 1) (s := (if fast.next.1 < fb.posProb then neonClauseUpdate cfg x fb.posClass 1 (neonBudgetGate cfg c) g
    else (neonBudgetGate cfg c, g)).1.row) ?_ ?_
  · split
    · exact neonUpdate_bytes cfg x _ _ _ _
    · exact bytes_refl 1 _
  · generalize (if fast.next.1 < fb.posProb then neonClauseUpdate cfg x fb.posClass 1 (neonBudgetGate cfg c) g
    else (neonBudgetGate cfg c, g)) = a
    split
    · exact neonUpdate_bytes cfg x _ _ _ _
    · exact bytes_refl 1 _

/-! ### Whole blocks -/

/-- Corresponding rows of two blocks, moved by at most `2 * n`. -/
def RowsNear (n : Nat) (rs ss : List Mem) : Prop := List.Forall₂ (BytesMovedAtMost (2 * n)) rs ss

theorem rows_refl (n : Nat) (rs : List Mem) : RowsNear n rs rs := List.forall₂_same.2 fun r _ => bytes_refl _ r

theorem rows_trans {m n : Nat} {a b c : List Mem} (h : RowsNear m a b) (h' : RowsNear n b c) : RowsNear (m + n) a c :=
  forall₂_comp (R := BytesMovedAtMost (2 * m)) (S := BytesMovedAtMost (2 * n)) (T := BytesMovedAtMost (2 * (m + n))) (fun _ _ _ p q => by
    have := bytes_trans p q
    rwa [← Nat.mul_add] at this) h h'

theorem rows_paced {B E : Type} (be : Backend B E) (rows : B → List Mem) (h1 : ∀ b x fb, RowsNear 1 (rows b) (rows (be.trainUpdate b x fb)))
    (h2 : ∀ b x, rows (be.trainExample b x) = rows b ∧ rows (be.evalExample b x) = rows b) (h3 : ∀ b, be.trainable b = true) :
    Paced be fun n b d => RowsNear n (rows b) (rows d) where
  refl n b := rows_refl n _
  trans m n b c d h h' := rows_trans h h'
  train b x fb := by rw [← (h2 b x).1]; exact h1 _ x fb
  eval b x := by rw [(h2 b x).2]; exact rows_refl 0 _
  trainable := h3

theorem avxSet_row (cfg : VCfg) (x : Mem) (c : VClause) : (avxSetClause cfg x c).row = c.row := by
  simp only [avxSetClause]; split
  · rfl
  · split
    · rfl
    · split <;> rfl

theorem avxEval_row (cfg : VCfg) (x : Mem) (c : VClause) : (avxEvalClause cfg x c).row = c.row := by
  simp only [avxEvalClause]; split
  · rfl
  · split
    · rfl
    · split <;> rfl

theorem neonSet_row (cfg : VCfg) (x : Mem) (c : VClause) : (neonSetClause cfg x c).row = c.row := by
  simp only [neonSetClause]; split
  · rfl
  · split
    · rfl
    · split <;> rfl

theorem neonEval_row (cfg : VCfg) (x : Mem) (a : Bool) (c : VClause) : (neonEvalClause cfg x a c).1.row = c.row := by
  simp only [neonEvalClause]; split
  · rfl
  · split
    · rfl
    · split <;> rfl

theorem avx_rows : Paced avxBackend fun n b d => RowsNear n (b.clauses.map fun c => c.row) (d.clauses.map fun c => c.row) := by
  refine rows_paced avxBackend _ (fun b x fb => ?_) (fun b x => ?_) fun _ => rfl
  · show RowsNear 1 _ ((avxTrainClauses b.cfg x fb b.clauses b.fast b.vrng).1.map fun c => c.row)
    generalize b.fast = f; generalize b.vrng = g
    generalize b.clauses = cs
    induction cs generalizing f g with
    | nil => exact .nil
    | cons c cs ih => exact .cons (avxTrain_bytes b.cfg x fb c f g) (ih _ _)
  · simp only [avxBackend, VBlock.apply, List.map_map]
    exact ⟨List.map_congr_left fun c _ => avxSet_row b.cfg x c, List.map_congr_left fun c _ => avxEval_row b.cfg x c⟩

theorem avxConv_rows : Paced avxConvBackend fun n b d => RowsNear n (b.clauses.map fun c => c.base.row) (d.clauses.map fun c => c.base.row) := by
  refine rows_paced avxConvBackend _ (fun b x fb => ?_) (fun b x => ⟨?_, ?_⟩) fun _ => rfl
  · show RowsNear 1 _ ((avxConvTrainClauses b.cfg x fb b.clauses b.fast b.vrng).1.map fun c => c.base.row)
    generalize b.fast = f; generalize b.vrng = g
    generalize b.clauses = cs
    induction cs generalizing f g with
    | nil => exact .nil
    | cons c cs ih => exact .cons (avxTrain_bytes b.cfg _ fb c.base f g) (ih _ _)
  · show ((avxConvSetClauses b.cfg b.nPatches x b.clauses b.counts b.rng).1.map fun c => c.base.row) = _
    generalize b.counts = f; generalize b.rng = g
    generalize b.clauses = cs
    induction cs generalizing f g with
    | nil => rfl
    | cons c cs ih => exact congrArg (c.base.row :: ·) (ih _ _)
  · simp only [avxConvBackend, VConvBlock.apply, List.map_map]
    rfl

theorem neon_rows : Paced neonBackend fun n b d => ∀ d', d = some d' → ∃ b', b = some b' ∧
    RowsNear n (b'.clauses.map fun c => c.row) (d'.clauses.map fun c => c.row) where
  refl n b d' h := ⟨d', h, rows_refl n _⟩
  trans m n b c d h h' d' hd := by
    obtain ⟨c', hc, h2⟩ := h' d' hd
    obtain ⟨b', hb, h1⟩ := h c' hc
    exact ⟨b', hb, rows_trans h1 h2⟩
  train b x fb d' h := by
    cases b with
    | none => cases h
    | some b =>
      refine ⟨b, rfl, ?_⟩
      simp only [neonBackend, Option.bind_some] at h
      obtain ⟨c, hc, hd⟩ := Option.bind_eq_some_iff.1 h
      have e : (c.clauses.map fun c => c.row) = b.clauses.map fun c => c.row := by
        simp only [NBlock.apply, neonSetClauses] at hc
        split at hc
        · cases hc
        · simp only [Option.map_some, Option.some.injEq] at hc
          subst hc
          simp only [List.map_map]
          exact List.map_congr_left fun c _ => neonSet_row b.cfg x c
      rw [← e]
      simp only [NBlock.apply, Option.some.injEq] at hd
      subst hd
      show RowsNear 1 _ ((neonTrainClauses c.cfg x fb c.clauses c.fast c.vrng).1.map fun c => c.row)
      clear e hc h
      generalize c.fast = f; generalize c.vrng = g
      generalize c.clauses = cs
      induction cs generalizing f g with
      | nil => exact .nil
      | cons k cs ih => exact .cons (neonTrain_bytes c.cfg x fb k f g) (ih _ _)
  eval b x d' h := by
    cases b with
    | none => cases h
    | some b =>
      refine ⟨b, rfl, ?_⟩
      simp only [neonBackend, Option.bind_some, NBlock.apply, Option.some.injEq] at h
      subst h
      have e : ((neonEvalClauses b.cfg x false b.clauses).map fun c => c.row) = b.clauses.map fun c => c.row := by
        generalize false = a
        generalize b.clauses = cs
        induction cs generalizing a with
        | nil => rfl
        | cons c cs ih =>
          simp only [neonEvalClauses, List.map_cons]
          rw [ih, neonEval_row]
      show RowsNear 0 _ ((neonEvalClauses b.cfg x false b.clauses).map fun c => c.row)
      rw [e]
      exact rows_refl 0 _
  trainable _ := rfl

theorem conv_states : Paced convBackend fun n b d => ClausesMoved n (b.clauses.map fun c => c.base) (d.clauses.map fun c => c.base) where
  refl n b := clauses_refl n _
  trans m n b c d h h' := clauses_trans h h'
  train b x fb := by
    have h1 : ClausesMoved 0 (b.clauses.map fun c => c.base) ((b.apply (.trainExample x)).clauses.map fun c => c.base) := by
      show ClausesMoved 0 _ ((convSetClauses b.cfg b.nLits b.nPatches x b.clauses b.counts b.rng).1.map fun c => c.base)
      generalize b.counts = f; generalize b.rng = g
      generalize b.clauses = cs
      induction cs generalizing f g with
      | nil => exact .nil
      | cons c cs ih => exact .cons ⟨states_refl 0 _, states_refl 0 _⟩ (ih _ _)
    refine clauses_trans (m := 0) (n := 1) h1 ?_
    simp only [convBackend]
    generalize b.apply (.trainExample x) = d
    show ClausesMoved 1 _ ((convTrainClauses d.cfg d.nLits x fb d.clauses d.fast d.rng).1.map fun c => c.base)
    generalize d.fast = f; generalize d.rng = g
    generalize d.clauses = cs
    induction cs generalizing f g with
    | nil => exact .nil
    | cons c cs ih => exact .cons (trainClause_states d.cfg _ fb c.base f g) (ih _ _)
  eval b x := by
    simp only [convBackend, ConvBlock.apply, List.map_map]
    unfold ClausesMoved
    rw [List.forall₂_map_left_iff, List.forall₂_map_right_iff]
    exact List.forall₂_same.2 fun c _ => ⟨states_refl 0 _, states_refl 0 _⟩
  trainable _ := rfl

end GT.Pace

import Verif.Spec.Trainer
import Verif.Lemmas.Executor
import Mathlib.Order.Basic
import Mathlib.Algebra.Order.Ring.Rat

/-! # Lemmas about the training loop -/

namespace GT
open Spec

variable {S St : Type}

/-- What the loop has established before epoch `ep`: logs of the epochs so far, the best score above -1 so far. -/
structure LoopInv (env : Env S St) (loadBest : Bool) (b0 : Option St) (s0 : S) (ep : Nat) (l : LoopVars S St) : Prop where
  n : l.nTrained = ep
  tlog : l.trainLog = (List.range ep).map (accOf env s0)
  elog : l.evalLog = (List.range ep).map (scoreOf env s0)
  best : (l.bestEpoch = -1 ∧ l.best = -1 ∧ (∀ k, k < ep → scoreOf env s0 k ≤ -1) ∧ l.bestState = b0) ∨
    (∃ k : Nat, l.bestEpoch = k ∧ FirstBest (scoreOf env s0) ep k ∧ l.best = scoreOf env s0 k ∧ -1 < l.best ∧
      l.bestState = if loadBest then some (env.snap (afterEval env s0 (k + 1))) else b0)

theorem loopInv_step (env : Env S St) (loadBest : Bool) (b0 : Option St) (s0 : S) (ep : Nat) (l : LoopVars S St)
    (h : LoopInv env loadBest b0 s0 ep l) (hs : l.s = env.load .train (afterEval env s0 ep)) :
    LoopInv env loadBest b0 s0 (ep + 1)
      (let t := env.train l.s
       let e := env.eval (env.load .eval t.1)
       let l := { l with s := e.1, nTrained := l.nTrained + 1, trainLog := l.trainLog ++ [t.2],
                         evalLog := l.evalLog ++ [e.2] }
       if e.2 > l.best then
        { l with best := e.2, bestEpoch := (ep : Int),
                 bestState := if loadBest then some (env.snap l.s) else l.bestState }
      else l) := by
  have ht : (env.train l.s).2 = accOf env s0 ep := by rw [hs]; rfl
  have he : (env.eval (env.load .eval (env.train l.s).1)).2 = scoreOf env s0 ep := by rw [hs]; rfl
  have hs' : (env.eval (env.load .eval (env.train l.s).1)).1 = afterEval env s0 (ep + 1) := by rw [hs]; rfl
  simp only [ht, he, hs']
  by_cases hb : scoreOf env s0 ep > l.best
  · rw [if_pos hb]
    refine ⟨by simp [h.n], by simp [h.tlog, List.range_succ], by simp [h.elog, List.range_succ], Or.inr ⟨ep, rfl, ?_, rfl, ?_, ?_⟩⟩
    · rcases h.best with ⟨-, h2, h3, -⟩ | ⟨k, -, h2, h3, -⟩
      · rw [h2] at hb
        have hlt : ∀ j, j < ep → scoreOf env s0 j < scoreOf env s0 ep := fun j hj => lt_of_le_of_lt (h3 j hj) hb
        exact ⟨by omega, fun j hj => by
          rcases Nat.lt_succ_iff_lt_or_eq.mp hj with hj | rfl
          · exact le_of_lt (hlt j hj)
          · exact le_refl _, hlt⟩
      · rw [h3] at hb
        have hlt : ∀ j, j < ep → scoreOf env s0 j < scoreOf env s0 ep := fun j hj => lt_of_le_of_lt (h2.2.1 j hj) hb
        exact ⟨by omega, fun j hj => by
          rcases Nat.lt_succ_iff_lt_or_eq.mp hj with hj | rfl
          · exact le_of_lt (hlt j hj)
          · exact le_refl _, hlt⟩
    · show -1 < scoreOf env s0 ep
      rcases h.best with ⟨-, h2, -⟩ | ⟨k, -, -, -, h3, -⟩
      · rw [h2] at hb; exact hb
      · exact lt_trans h3 hb
    · show (if loadBest then _ else l.bestState) = _
      by_cases hl : loadBest
      · simp [hl]
      · simp only [hl, if_false, Bool.false_eq_true]
        rcases h.best with ⟨-, -, -, h2⟩ | ⟨k, -, -, -, -, h2⟩
        · exact h2
        · simpa [hl] using h2
  · rw [if_neg hb]
    have hle : scoreOf env s0 ep ≤ l.best := not_lt.mp hb
    refine ⟨by simp [h.n], by simp [h.tlog, List.range_succ], by simp [h.elog, List.range_succ], ?_⟩
    rcases h.best with ⟨h1, h2, h3, h4⟩ | ⟨k, h1, h2, h3, h4, h5⟩
    · refine Or.inl ⟨h1, h2, ?_, h4⟩
      intro j hj
      rcases Nat.lt_succ_iff_lt_or_eq.mp hj with hj | rfl
      · exact h3 j hj
      · rw [h2] at hle; exact hle
    · refine Or.inr ⟨k, h1, ⟨by have := h2.1; omega, ?_, h2.2.2⟩, h3, h4, h5⟩
      intro j hj
      rcases Nat.lt_succ_iff_lt_or_eq.mp hj with hj | rfl
      · exact h2.2.1 j hj
      · rw [h3] at hle; exact hle

theorem loop_spec (env : Env S St) (loadBest : Bool) (earlyAcc : Rat) (b0 : Option St) (s0 : S) (r : Nat) (ep : Nat)
    (l : LoopVars S St) (hr : 0 < r) (h : LoopInv env loadBest b0 s0 ep l)
    (hs : l.s = env.load .train (afterEval env s0 ep)) (he : l.early = false)
    (hk : ∀ k, k < ep → scoreOf env s0 k < earlyAcc) :
    ∃ n, LoopInv env loadBest b0 s0 n (epochLoop env loadBest earlyAcc ep r l) ∧
      (epochLoop env loadBest earlyAcc ep r l).s = afterEval env s0 n ∧
      RanEpochs (ep + r : Nat) earlyAcc (scoreOf env s0) n (epochLoop env loadBest earlyAcc ep r l).early := by
  induction r generalizing ep l with
  | zero => omega
  | succ r ih =>
    have hst := loopInv_step env loadBest b0 s0 ep l h hs
    have he2 : (env.eval (env.load .eval (env.train l.s).1)).2 = scoreOf env s0 ep := by rw [hs]; rfl
    have hs2 : (env.eval (env.load .eval (env.train l.s).1)).1 = afterEval env s0 (ep + 1) := by rw [hs]; rfl
    simp only [epochLoop]
    generalize hl' : (if (env.eval (env.load .eval (env.train l.s).1)).2 > l.best then _ else _ : LoopVars S St) = l' at hst ⊢
    have hs' : l'.s = afterEval env s0 (ep + 1) := by
      rw [← hl']; split <;> exact hs2
    have hee : l'.early = false := by
      rw [← hl']; split <;> exact he
    rw [he2]
    by_cases hx : scoreOf env s0 ep ≥ earlyAcc
    · rw [if_pos hx]
      refine ⟨ep + 1, ⟨hst.n, hst.tlog, hst.elog, hst.best⟩, hs', Or.inr ⟨rfl, by omega, by omega, hx, ?_⟩⟩
      simpa using hk
    · rw [if_neg hx]
      have hlt : scoreOf env s0 ep < earlyAcc := not_le.mp hx
      have hk' : ∀ k, k < ep + 1 → scoreOf env s0 k < earlyAcc := by
        intro k hk1
        rcases Nat.lt_succ_iff_lt_or_eq.mp hk1 with hk1 | rfl
        · exact hk k hk1
        · exact hlt
      by_cases hr0 : r = 0
      · subst hr0
        simp only [if_true, epochLoop]
        exact ⟨ep + 1, hst, hs', Or.inl ⟨hee, by omega, hk'⟩⟩
      · rw [if_neg hr0]
        obtain ⟨n, h1, h2, h3⟩ := ih (ep + 1) { l' with s := env.load .train l'.s } (by omega)
          ⟨hst.n, hst.tlog, hst.elog, hst.best⟩ (by simp [hs']) hee hk'
        rw [show ep + 1 + r = ep + (r + 1) by omega] at h3
        exact ⟨n, h1, h2, h3⟩

/-- All that `_train_inner` does, in terms of the epochs. -/
theorem trainInner_spec (env : Env S St) (t : Trainer St) (tm : Option St) (hn : 1 ≤ t.nEpochs) :
    ∃ (r : Results) (b : Option St), t.trainInner env tm =
        ({ t with bestState := b, results := some r },
          if t.loadBest then b else some (env.snap (afterEval env (env.start tm) r.nEpochs))) ∧
      r.trainLog = (List.range r.nEpochs).map (accOf env (env.start tm)) ∧
      r.evalLog = (List.range r.nEpochs).map (scoreOf env (env.start tm)) ∧
      RanEpochs t.nEpochs t.earlyAcc (scoreOf env (env.start tm)) r.nEpochs r.early ∧
      ((r.bestEpoch = -1 ∧ r.bestScore = -1 ∧ (∀ k, k < r.nEpochs → scoreOf env (env.start tm) k ≤ -1) ∧ b = t.bestState) ∨
       (∃ k : Nat, r.bestEpoch = k ∧ FirstBest (scoreOf env (env.start tm)) r.nEpochs k ∧
        r.bestScore = scoreOf env (env.start tm) k ∧ -1 < r.bestScore ∧
        b = if t.loadBest then some (env.snap (afterEval env (env.start tm) (k + 1))) else t.bestState)) := by
  have h0 : LoopInv env t.loadBest t.bestState (env.start tm) 0
      ⟨env.load .train (env.start tm), 0, -1, -1, [], [], false, t.bestState⟩ :=
    ⟨rfl, rfl, rfl, Or.inl ⟨rfl, rfl, by omega, rfl⟩⟩
  obtain ⟨n, h1, h2, h3⟩ := loop_spec env t.loadBest t.earlyAcc t.bestState (env.start tm) t.nEpochs.toNat 0 _
    (by omega) h0 rfl rfl (by omega)
  unfold Trainer.trainInner
  rw [if_neg (by omega)]
  dsimp only
  generalize epochLoop env t.loadBest t.earlyAcc 0 t.nEpochs.toNat _ = l at h1 h2 h3 ⊢
  have hn' : l.nTrained = n := h1.n
  subst hn'
  refine ⟨⟨l.best, l.bestEpoch, l.nTrained, l.trainLog, l.evalLog, l.early⟩, l.bestState, ?_, h1.tlog, h1.elog, ?_, h1.best⟩
  · simp only [h2]
  · have : ((0 + t.nEpochs.toNat : Nat) : Int) = t.nEpochs := by omega
    rw [this] at h3
    exact h3

/-- Evaluation leaves snapshots alone, so the state after an epoch is the one after its training. -/
theorem snap_afterEval (env : Env S St) (hro : ReadOnly env) (s : S) (k : Nat) :
    env.snap (afterEval env s (k + 1)) = env.snap (afterTrain env s k) := by
  show env.snap (env.eval (env.load .eval (afterTrain env s k))).1 = _
  rw [hro.2, hro.1]

theorem gather_perm {D : Type} (x : List D) (idx idx' : List Nat) (h : idx.Perm idx') :
    (gather x idx).Perm (gather x idx') := h.filterMap _

theorem gather_range {D : Type} (x : List D) : gather x (List.range x.length) = x := by
  unfold gather
  have h : ∀ (f : Nat → Option D) (g : Nat → Option D) (l : List Nat), (∀ i ∈ l, f i = g i) → l.filterMap f = l.filterMap g :=
    fun f g l h => List.filterMap_congr h
  induction x with
  | nil => rfl
  | cons a x ih =>
    rw [List.length_cons, List.range_succ_eq_map, List.filterMap_cons]
    simp only [List.getElem?_cons_zero, List.filterMap_map]
    congr 1

/-- The folds one after the other: scores of the fold's epochs, starting from the state left by the fold before. -/
theorem foldLoop_spec {D : Type} (mk : List D → List D → Env S St) (x : List D) (split : List (List Nat × List Nat))
    (t : Trainer St) (tm : Option St) (r : FoldResults) (hn : 1 ≤ t.nEpochs) :
    ∃ (t' : Trainer St) (tm' : Option St) (r' : FoldResults) (starts : List (Option St × Nat)),
      foldLoop mk x split t tm r = .ok (t', tm', r') ∧ starts.length = split.length ∧
      (∀ st, starts.head? = some st → st.1 = tm) ∧ (∀ st ∈ starts, 1 ≤ st.2 ∧ (st.2 : Int) ≤ t.nEpochs) ∧
      r'.kFolds = r.kFolds ∧
      r'.evalLog = r.evalLog ++ (List.zipWith (fun (f : List Nat × List Nat) (st : Option St × Nat) =>
        let env := mk (gather x f.1) (gather x f.2)
        (List.range st.2).map (scoreOf env (env.start st.1))) split starts).flatten ∧
      r'.trainLog = r.trainLog ++ (List.zipWith (fun (f : List Nat × List Nat) (st : Option St × Nat) =>
        let env := mk (gather x f.1) (gather x f.2)
        (List.range st.2).map (accOf env (env.start st.1))) split starts).flatten := by
  induction split generalizing t tm r with
  | nil => exact ⟨t, tm, r, [], rfl, rfl, by simp, by simp, rfl, by simp, by simp⟩
  | cons f fs ih =>
    obtain ⟨q, b, h1, h2, h3, h4, -⟩ := trainInner_spec (mk (gather x f.1) (gather x f.2)) t tm hn
    unfold foldLoop
    rw [h1]
    dsimp only
    obtain ⟨t', tm', r', starts, k1, k2, -, k3, k4, k5, k6⟩ := ih { t with bestState := b, results := some q }
      (if t.loadBest then b else some ((mk (gather x f.1) (gather x f.2)).snap
        (afterEval (mk (gather x f.1) (gather x f.2)) ((mk (gather x f.1) (gather x f.2)).start tm) q.nEpochs)))
      { r with trainLog := r.trainLog ++ q.trainLog, evalLog := r.evalLog ++ q.evalLog,
               bestScore := if q.bestScore > r.bestScore then q.bestScore else r.bestScore } hn
    refine ⟨t', tm', r', (tm, q.nEpochs) :: starts, k1, by simp [k2], by simp, ?_, k4, ?_, ?_⟩
    · intro st hst
      rcases List.mem_cons.mp hst with rfl | hst
      · rcases h4 with ⟨-, e1, -⟩ | ⟨-, e1, e2, -⟩
        · exact ⟨by simp only; omega, by simp only; omega⟩
        · exact ⟨e1, e2⟩
      · exact k3 st hst
    · rw [k5, h3]; simp
    · rw [k6, h2]; simp

/-- The best score of all folds. -/
theorem foldLoop_best {D : Type} (mk : List D → List D → Env S St) (x : List D) (split : List (List Nat × List Nat))
    (t : Trainer St) (tm : Option St) (r : FoldResults) (hn : 1 ≤ t.nEpochs)
    (h0 : -1 ≤ r.bestScore) (h1 : ∀ v ∈ r.evalLog, v ≤ r.bestScore) (h2 : r.bestScore = -1 ∨ r.bestScore ∈ r.evalLog)
    (t' : Trainer St) (tm' : Option St) (r' : FoldResults) (hr : foldLoop mk x split t tm r = .ok (t', tm', r')) :
    (∀ v ∈ r'.evalLog, v ≤ r'.bestScore) ∧ (r'.bestScore = -1 ∨ r'.bestScore ∈ r'.evalLog) := by
  induction split generalizing t tm r with
  | nil =>
    simp only [foldLoop, Except.ok.injEq, Prod.mk.injEq] at hr
    obtain ⟨-, -, rfl⟩ := hr
    exact ⟨h1, h2⟩
  | cons f fs ih =>
    obtain ⟨q, b, k1, -, k3, -, k5⟩ := trainInner_spec (mk (gather x f.1) (gather x f.2)) t tm hn
    unfold foldLoop at hr
    rw [k1] at hr
    dsimp only at hr
    have hq : (∀ v ∈ q.evalLog, v ≤ q.bestScore) ∧ (q.bestScore = -1 ∨ q.bestScore ∈ q.evalLog) := by
      rw [k3]
      rcases k5 with ⟨-, e1, e3, -⟩ | ⟨k, -, e2, e3, -⟩
      · refine ⟨?_, Or.inl e1⟩
        intro v hv
        obtain ⟨j, hj, rfl⟩ := List.mem_map.mp hv
        rw [e1]; exact e3 j (List.mem_range.mp hj)
      · refine ⟨?_, Or.inr ?_⟩
        · intro v hv
          obtain ⟨j, hj, rfl⟩ := List.mem_map.mp hv
          rw [e3]; exact e2.2.1 j (List.mem_range.mp hj)
        · rw [e3]; exact List.mem_map.mpr ⟨k, List.mem_range.mpr e2.1, rfl⟩
    refine ih { t with bestState := b, results := some q } _ _ hn ?_ ?_ ?_ hr
    · dsimp only; split
      · rename_i hlt; exact le_trans h0 (le_of_lt hlt)
      · exact h0
    · dsimp only
      intro v hv
      rcases List.mem_append.mp hv with hv | hv
      · have := h1 v hv
        split
        · rename_i hlt; exact le_trans this (le_of_lt hlt)
        · exact this
      · have := hq.1 v hv
        split
        · exact this
        · rename_i hlt; exact le_trans this (not_lt.mp hlt)
    · dsimp only
      split
      · rename_i hlt
        rcases hq.2 with e | e
        · rw [e] at hlt; exact absurd hlt (not_lt.mpr h0)
        · exact Or.inr (List.mem_append_right _ e)
      · rcases h2 with e | e
        · exact Or.inl e
        · exact Or.inr (List.mem_append_left _ e)

end GT

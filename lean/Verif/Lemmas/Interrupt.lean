import Verif.Spec.Interrupt
import Verif.Lemmas.Trainer

/-! # Lemmas about interrupted training -/

namespace GT.Intr
open Spec

variable {σ α β S St X Y : Type}

/-- What runs before the exception is what runs without it. -/
def Det (p : Py σ α) : Prop := ∀ a n v n', (p a n).2 = some (v, n') → p a none = ((p a n).1, some (v, none))

theorem det_pure (v : α) : Det (Py.pure v : Py σ α) := by
  intro a n w n' h
  simp only [Py.pure, Option.some.injEq, Prod.mk.injEq] at h ⊢
  simp [h.1]

theorem det_stmt (f : σ → σ × α) : Det (Py.stmt f) := by
  intro a n w n' h
  rcases n with _ | _ | n
  · simp only [Py.stmt, Option.some.injEq, Prod.mk.injEq] at h ⊢
    simp [h.1]
  · simp [Py.stmt] at h
  · simp only [Py.stmt, Option.some.injEq, Prod.mk.injEq] at h ⊢
    simp [h.1]

theorem bind_some {p : Py σ α} {q : α → Py σ β} {a : σ} {n : Option Nat} {v : α} {n' : Option Nat} (h : (p a n).2 = some (v, n')) :
    p.bind q a n = q v (p a n).1 n' := by simp [Py.bind, h]

theorem bind_none {p : Py σ α} {q : α → Py σ β} {a : σ} {n : Option Nat} (h : (p a n).2 = none) :
    p.bind q a n = ((p a n).1, none) := by simp [Py.bind, h]

theorem det_bind {p : Py σ α} {q : α → Py σ β} (hp : Det p) (hq : ∀ v, Det (q v)) : Det (p.bind q) := by
  intro a n w n' h
  cases e : (p a n).2 with
  | none => rw [bind_none e] at h; simp at h
  | some x =>
    obtain ⟨v, k⟩ := x
    rw [bind_some e] at h ⊢
    have h1 := hp a n v k e
    rw [bind_some (v := v) (n' := none) (by rw [h1]), h1]
    exact hq v _ k w n' h

theorem det_onBlocks {α : Type} (f : S → S × α) (d : α) : Det (onBlocks (St := St) (X := X) (Y := Y) f d) := det_stmt _

theorem det_keepBest (c : Settings S St X Y) (env : Env S St) (ep : Nat) (sc : Rat) (b : Rat × Int) : Det (keepBest c env ep sc b) := by
  unfold keepBest
  split_ifs
  · exact det_stmt _
  · exact det_pure _
  · exact det_pure _

theorem det_epochs (c : Settings S St X Y) (env : Env S St) (ep k : Nat) (r : Results) : Det (epochsPy c env ep k r) := by
  induction k generalizing ep r with
  | zero => exact det_pure _
  | succ k ih =>
    unfold epochsPy
    refine det_bind (det_onBlocks _ _) fun _ => det_bind (det_onBlocks _ _) fun _ => det_bind (det_onBlocks _ _) fun _ =>
      det_bind (det_keepBest _ _ _ _ _) fun _ => ?_
    dsimp only
    split_ifs
    · exact det_pure _
    · exact ih _ _
    · exact det_bind (det_onBlocks _ _) fun _ => ih _ _

theorem det_inner (c : Settings S St X Y) : Det (trainInnerPy c) := by
  intro a n v n' h
  unfold trainInnerPy at h ⊢
  refine det_bind (det_stmt _) (fun _ => ?_) a n v n' h
  split_ifs
  · exact det_pure _
  · exact det_bind (det_stmt _) fun _ => det_bind (det_epochs _ _ _ _ _) fun _ => det_bind (det_stmt _) fun _ =>
      det_bind (det_stmt _) fun _ => det_stmt _

theorem det_setFold (x : List X) (y : List Y) (f : List Nat × List Nat) : Det (setFold (S := S) (St := St) x y f) :=
  det_bind (det_stmt _) fun _ => det_bind (det_stmt _) fun _ => det_bind (det_stmt _) fun _ => det_stmt _

theorem det_collect (r : FoldResults) : Det (collectFold (S := S) (St := St) (X := X) (Y := Y) r) := by
  intro a n v n' h
  unfold collectFold at h ⊢
  cases e : a.results with
  | none => rw [e] at h; simp at h
  | some q =>
    cases q <;>
    · rw [e] at h
      simp only [Option.some.injEq, Prod.mk.injEq] at h ⊢
      simp [h.1]

theorem det_folds (c : Settings S St X Y) (x : List X) (y : List Y) (fs : List (List Nat × List Nat)) (r : FoldResults) :
    Det (foldsPy c x y fs r) := by
  induction fs generalizing r with
  | nil => exact det_pure _
  | cons f fs ih => exact det_bind (det_setFold _ _ _) fun _ => det_bind (det_inner _) fun _ => det_bind (det_collect _) fun _ => ih _

theorem det_train (c : Settings S St X Y) : Det (trainPy c) := by
  intro a n v n' h
  unfold trainPy at h ⊢
  split_ifs with hk
  · rw [if_pos hk] at h
    exact det_bind (det_folds _ _ _ _ _) (fun _ => det_stmt _) a n v n' h
  · rw [if_neg hk] at h
    exact det_inner c a n v n' h

/-! ## The loop -/

/-- The loop variables for results under construction. -/
def varsOf (s : S) (r : Results) (b : Option St) : LoopVars S St :=
  ⟨s, r.nEpochs, r.bestScore, r.bestEpoch, r.trainLog, r.evalLog, r.early, b⟩

/-- The results of the loop variables. -/
def resOf (l : LoopVars S St) : Results := ⟨l.best, l.bestEpoch, l.nTrained, l.trainLog, l.evalLog, l.early⟩

theorem loop_complete (c : Settings S St X Y) (env : Env S St) (ep k : Nat) (r : Results) (a : Attrs S St X Y) (s : S)
    (hs : a.blocks = .live s) :
    epochsPy c env ep k r a none =
      ({ a with best := (epochLoop env c.loadBest c.earlyAcc ep k (varsOf s r a.best)).bestState,
                blocks := .live (epochLoop env c.loadBest c.earlyAcc ep k (varsOf s r a.best)).s },
       some (resOf (epochLoop env c.loadBest c.earlyAcc ep k (varsOf s r a.best)), none)) := by
  induction k generalizing ep r a s with
  | zero => obtain ⟨⟩ := a; obtain ⟨⟩ := r; subst hs; rfl
  | succ k ih =>
    obtain ⟨x1, x2, x3, x4, b, res, tm, bl⟩ := a
    obtain ⟨r1, r2, r3, r4, r5, r6⟩ := r
    simp only at hs
    subst hs
    unfold epochsPy epochLoop
    simp only [Py.bind, onBlocks, Attrs.call, Attrs.current, Py.stmt, keepBest, varsOf]
    cases h2 : c.loadBest <;> rw [h2] at ih <;>
    by_cases h1 : (env.eval (env.load .eval (env.train s).1)).2 > r1 <;>
    by_cases h3 : (env.eval (env.load .eval (env.train s).1)).2 ≥ c.earlyAcc <;> by_cases h4 : k = 0 <;>
    simp only [h1, h3, h4, if_true, if_false, Bool.false_eq_true, Py.pure, Py.stmt] <;>
    first
      | rfl
      | (subst h4; rfl)
      | exact ih _ _ ⟨x1, x2, x3, x4, _, res, tm, .live (env.load .train (env.eval (env.load .eval (env.train s).1)).1)⟩ _ rfl

theorem loop_best_mono (env : Env S St) (lb : Bool) (ea : Rat) (ep k : Nat) (l : LoopVars S St) :
    l.best ≤ (epochLoop env lb ea ep k l).best := by
  induction k generalizing ep l with
  | zero => exact le_refl _
  | succ k ih =>
    unfold epochLoop
    dsimp only
    by_cases h1 : (env.eval (env.load .eval (env.train l.s).1)).2 > l.best <;>
    by_cases h3 : (env.eval (env.load .eval (env.train l.s).1)).2 ≥ ea <;> by_cases h4 : k = 0 <;>
    simp only [h1, h3, h4, if_true, if_false] <;>
    first
      | exact le_refl _
      | exact h1.le
      | exact h1.le.trans (h4 ▸ ih _ _)
      | exact h4 ▸ ih _ _
      | exact h1.le.trans (ih _ _)
      | exact ih _ _

theorem loop_best_step (env : Env S St) (lb : Bool) (ea : Rat) (ep k : Nat) (l : LoopVars S St) :
    (env.eval (env.load .eval (env.train l.s).1)).2 ≤ (epochLoop env lb ea ep (k + 1) l).best := by
  unfold epochLoop
  dsimp only
  by_cases h1 : (env.eval (env.load .eval (env.train l.s).1)).2 > l.best <;>
  by_cases h3 : (env.eval (env.load .eval (env.train l.s).1)).2 ≥ ea <;>
  simp only [h1, h3, if_true, if_false]
  · exact le_refl _
  · refine le_trans ?_ (loop_best_mono _ _ _ _ _ _)
    split_ifs <;> exact le_refl _
  · exact not_lt.mp h1
  · refine le_trans (not_lt.mp h1) (le_trans ?_ (loop_best_mono _ _ _ _ _ _))
    split_ifs <;> exact le_refl _

theorem bind_elim {p : Py σ α} {q : α → Py σ β} {a : σ} {n : Option Nat} {P : σ × Option (β × Option Nat) → Prop}
    (h0 : (p a n).2 = none → P ((p a n).1, none)) (h1 : ∀ v n', (p a n).2 = some (v, n') → P (q v (p a n).1 n')) :
    P (p.bind q a n) := by
  cases e : (p a n).2 with
  | none => rw [bind_none e]; exact h0 e
  | some x => obtain ⟨v, n'⟩ := x; rw [bind_some e]; exact h1 v n' e

theorem stmt_cases (f : σ → σ × α) (a : σ) (n : Option Nat) :
    Py.stmt f a n = (a, none) ∨ ∃ n', Py.stmt f a n = ((f a).1, some ((f a).2, n')) := by
  rcases n with _ | _ | n
  · exact .inr ⟨none, rfl⟩
  · exact .inl rfl
  · exact .inr ⟨some n, rfl⟩

theorem onBlocks_cases {α : Type} (f : S → S × α) (d : α) (a : Attrs S St X Y) (n : Option Nat) (s : S) (hs : a.blocks = .live s) :
    onBlocks f d a n = (a, none) ∨ ∃ n', onBlocks f d a n = ({ a with blocks := .live (f s).1 }, some ((f s).2, n')) := by
  rcases stmt_cases (Attrs.call f d) a n with h | ⟨n', h⟩
  · exact .inl h
  · refine .inr ⟨n', ?_⟩
    unfold onBlocks
    rw [h]
    simp only [Attrs.call, hs]

/-- Wherever the loop stops, only the blocks and the best state have changed, and the best state only if there was a better score. -/
theorem loop_any (c : Settings S St X Y) (env : Env S St) (ep k : Nat) (r : Results) (a : Attrs S St X Y) (s : S)
    (hs : a.blocks = .live s) (n : Option Nat) :
    ∃ (b : Option St) (s' : S), (epochsPy c env ep k r a n).1 = { a with best := b, blocks := .live s' } ∧
      (b = a.best ∨ r.bestScore < (epochLoop env c.loadBest c.earlyAcc ep k (varsOf s r a.best)).best) := by
  induction k generalizing ep r a s n with
  | zero => exact ⟨a.best, s, by obtain ⟨⟩ := a; subst hs; rfl, .inl rfl⟩
  | succ k ih =>
    have self : ∃ (b : Option St) (s' : S), a = { a with best := b, blocks := .live s' } ∧
      (b = a.best ∨ r.bestScore < (epochLoop env c.loadBest c.earlyAcc ep (k + 1) (varsOf s r a.best)).best) :=
      ⟨a.best, s, by obtain ⟨⟩ := a; subst hs; rfl, .inl rfl⟩
    unfold epochsPy
    refine bind_elim (P := fun o => ∃ (b : Option St) (s' : S), o.1 = { a with best := b, blocks := .live s' } ∧
      (b = a.best ∨ r.bestScore < (epochLoop env c.loadBest c.earlyAcc ep (k + 1) (varsOf s r a.best)).best)) ?_ ?_
    · intro h
      rcases onBlocks_cases env.train 0 a n s hs with e | ⟨n', e⟩ <;> rw [e] at h ⊢
      · exact self
      · simp at h
    intro acc n1 h1
    rcases onBlocks_cases env.train 0 a n s hs with e | ⟨n', e⟩ <;> rw [e] at h1 ⊢
    · simp at h1
    simp only [Option.some.injEq, Prod.mk.injEq] at h1 ⊢
    obtain ⟨rfl, rfl⟩ := h1
    refine bind_elim (P := fun o => ∃ (b : Option St) (s' : S), o.1 = { a with best := b, blocks := .live s' } ∧
      (b = a.best ∨ r.bestScore < (epochLoop env c.loadBest c.earlyAcc ep (k + 1) (varsOf s r a.best)).best)) ?_ ?_
    · intro h
      rcases onBlocks_cases (fun s => (env.load .eval s, ())) () { a with blocks := .live (env.train s).1 } n' _ rfl with e | ⟨n', e⟩ <;>
        rw [e] at h ⊢
      · exact ⟨_, _, rfl, .inl rfl⟩
      · simp at h
    intro _ n2 h2
    rcases onBlocks_cases (fun s => (env.load .eval s, ())) () { a with blocks := .live (env.train s).1 } n' _ rfl with e | ⟨n', e⟩ <;>
      rw [e] at h2 ⊢
    · simp at h2
    simp only [Option.some.injEq, Prod.mk.injEq] at h2 ⊢
    obtain ⟨-, rfl⟩ := h2
    refine bind_elim (P := fun o => ∃ (b : Option St) (s' : S), o.1 = { a with best := b, blocks := .live s' } ∧
      (b = a.best ∨ r.bestScore < (epochLoop env c.loadBest c.earlyAcc ep (k + 1) (varsOf s r a.best)).best)) ?_ ?_
    · intro h
      rcases onBlocks_cases env.eval 0 { a with blocks := .live (env.load .eval (env.train s).1) } n' _ rfl with e | ⟨n', e⟩ <;>
        rw [e] at h ⊢
      · exact ⟨_, _, rfl, .inl rfl⟩
      · simp at h
    intro score n3 h3
    rcases onBlocks_cases env.eval 0 { a with blocks := .live (env.load .eval (env.train s).1) } n' _ rfl with e | ⟨n', e⟩ <;>
      rw [e] at h3 ⊢
    · simp at h3
    simp only [Option.some.injEq, Prod.mk.injEq] at h3 ⊢
    obtain ⟨rfl, rfl⟩ := h3
    have step := loop_best_step env c.loadBest c.earlyAcc ep k (varsOf s r a.best)
    simp only [varsOf] at step
    by_cases hb : (env.eval (env.load .eval (env.train s).1)).2 > r.bestScore
    · -- a better score: only the shape is left to show
      have fin : r.bestScore < (epochLoop env c.loadBest c.earlyAcc ep (k + 1) (varsOf s r a.best)).best := lt_of_lt_of_le hb step
      have goal : ∀ (o : Attrs S St X Y), (∃ (b : Option St) (s' : S), o = { a with best := b, blocks := .live s' }) →
          ∃ (b : Option St) (s' : S), o = { a with best := b, blocks := .live s' } ∧
          (b = a.best ∨ r.bestScore < (epochLoop env c.loadBest c.earlyAcc ep (k + 1) (varsOf s r a.best)).best) := by
        rintro o ⟨b, s', h⟩
        exact ⟨b, s', h, .inr fin⟩
      apply goal
      have rest : ∀ (x : Attrs S St X Y) (r' : Results) (m : Option Nat) (z : S), x.blocks = .live z →
          (∃ (b : Option St) (s' : S), x = { a with best := b, blocks := .live s' }) →
          ∃ (b : Option St) (s' : S), (epochsPy c env (ep + 1) k r' x m).1 = { a with best := b, blocks := .live s' } := by
        rintro x r' m z hz ⟨b, s', rfl⟩
        obtain ⟨b, s', h, -⟩ := ih (ep + 1) r' _ z hz m
        exact ⟨b, s', h⟩
      refine bind_elim (P := fun o => ∃ (b : Option St) (s' : S), o.1 = { a with best := b, blocks := .live s' }) ?_ ?_
      · intro _
        unfold keepBest
        rw [if_pos hb]
        split_ifs
        · rcases stmt_cases (fun a : Attrs S St X Y =>
            ({ a with best := a.current env }, ((env.eval (env.load .eval (env.train s).1)).2, (ep : Int))))
            { a with blocks := .live (env.eval (env.load .eval (env.train s).1)).1 } n' with e | ⟨m, e⟩ <;> rw [e]
          · exact ⟨_, _, rfl⟩
          · exact ⟨_, _, rfl⟩
        · exact ⟨_, _, rfl⟩
      intro b m hm
      have shape : ∃ (b : Option St), (keepBest c env ep (env.eval (env.load .eval (env.train s).1)).2 (r.bestScore, r.bestEpoch)
          { a with blocks := .live (env.eval (env.load .eval (env.train s).1)).1 } n').1 =
          { a with best := b, blocks := .live (env.eval (env.load .eval (env.train s).1)).1 } := by
        unfold keepBest
        rw [if_pos hb]
        split_ifs
        · rcases stmt_cases (fun a : Attrs S St X Y =>
            ({ a with best := a.current env }, ((env.eval (env.load .eval (env.train s).1)).2, (ep : Int))))
            { a with blocks := .live (env.eval (env.load .eval (env.train s).1)).1 } n' with e | ⟨m, e⟩ <;> rw [e]
          · exact ⟨_, rfl⟩
          · exact ⟨_, rfl⟩
        · exact ⟨_, rfl⟩
      obtain ⟨b', hb'⟩ := shape
      rw [hb']
      split_ifs
      · exact ⟨_, _, rfl⟩
      · exact rest _ _ _ _ rfl ⟨_, _, rfl⟩
      · refine bind_elim (P := fun o => ∃ (b : Option St) (s' : S), o.1 = { a with best := b, blocks := .live s' }) ?_ ?_
        · intro _
          rcases onBlocks_cases (fun s => (env.load .train s, ()))
            () { a with best := b', blocks := .live (env.eval (env.load .eval (env.train s).1)).1 } m _ rfl with e | ⟨n', e⟩ <;> rw [e]
          · exact ⟨_, _, rfl⟩
          · exact ⟨_, _, rfl⟩
        · intro _ m' h'
          rcases onBlocks_cases (fun s => (env.load .train s, ()))
            () { a with best := b', blocks := .live (env.eval (env.load .eval (env.train s).1)).1 } m _ rfl with e | ⟨n', e⟩ <;> rw [e] at h' ⊢
          · simp at h'
          · exact rest _ _ _ _ rfl ⟨_, _, rfl⟩
    · have ek : keepBest c env ep (env.eval (env.load .eval (env.train s).1)).2 (r.bestScore, r.bestEpoch)
          = (Py.pure (r.bestScore, r.bestEpoch) : Py (Attrs S St X Y) (Rat × Int)) := by
        unfold keepBest; rw [if_neg hb]
      rw [ek, bind_some (v := (r.bestScore, r.bestEpoch)) (n' := n') rfl]
      simp only [Py.pure]
      unfold epochLoop
      simp only [varsOf, hb, if_false]
      split_ifs with h4 h5
      · exact ⟨_, _, rfl, .inl rfl⟩
      · obtain ⟨b, s', e1, e2⟩ := ih (ep + 1) { r with
          nEpochs := r.nEpochs + 1, trainLog := r.trainLog ++ [(env.train s).2],
          evalLog := r.evalLog ++ [(env.eval (env.load .eval (env.train s).1)).2] }
          { a with blocks := .live (env.eval (env.load .eval (env.train s).1)).1 } _ rfl n'
        exact ⟨b, s', e1, e2⟩
      · generalize hF : (epochLoop env c.loadBest c.earlyAcc (ep + 1) k _).best = F
        refine bind_elim (P := fun o => ∃ (b : Option St) (s' : S), o.1 = { a with best := b, blocks := .live s' } ∧
          (b = a.best ∨ r.bestScore < F)) ?_ ?_
        · intro h
          rcases onBlocks_cases (fun s => (env.load .train s, ()))
            () { a with blocks := .live (env.eval (env.load .eval (env.train s).1)).1 } n' _ rfl with e | ⟨n', e⟩ <;> rw [e]
          · exact ⟨_, _, rfl, .inl rfl⟩
          · exact ⟨_, _, rfl, .inl rfl⟩
        · intro _ m' h'
          rcases onBlocks_cases (fun s => (env.load .train s, ()))
            () { a with blocks := .live (env.eval (env.load .eval (env.train s).1)).1 } n' _ rfl with e | ⟨n', e⟩ <;> rw [e] at h' ⊢
          · simp at h'
          · obtain ⟨b, s', e1, e2⟩ := ih (ep + 1) { r with
              nEpochs := r.nEpochs + 1, trainLog := r.trainLog ++ [(env.train s).2],
              evalLog := r.evalLog ++ [(env.eval (env.load .eval (env.train s).1)).2] }
              { a with blocks := .live (env.load .train (env.eval (env.load .eval (env.train s).1)).1) } _ rfl m'
            exact ⟨b, s', e1, by rw [← hF]; exact e2⟩

/-! ## More time before the exception -/

/-- Code that ends before the exception also ends, with the same outcome, if the exception comes later. -/
def Shift (p : Py σ α) : Prop := ∀ a n v n', (p a (some n)).2 = some (v, n') →
  ∃ m, n' = some m ∧ m ≤ n ∧ ∀ j, p a (some (n + j)) = ((p a (some n)).1, some (v, some (m + j)))

theorem shift_pure (v : α) : Shift (Py.pure v : Py σ α) := by
  intro a n w n' h
  simp only [Py.pure, Option.some.injEq, Prod.mk.injEq] at h
  obtain ⟨rfl, rfl⟩ := h
  exact ⟨n, rfl, le_refl _, fun j => rfl⟩

theorem shift_stmt (f : σ → σ × α) : Shift (Py.stmt f) := by
  intro a n w n' h
  cases n with
  | zero => simp [Py.stmt] at h
  | succ n =>
    simp only [Py.stmt, Option.some.injEq, Prod.mk.injEq] at h
    obtain ⟨rfl, rfl⟩ := h
    refine ⟨n, rfl, by omega, fun j => ?_⟩
    rw [show n + 1 + j = n + j + 1 by omega]
    rfl

theorem shift_bind {p : Py σ α} {q : α → Py σ β} (hp : Shift p) (hq : ∀ v, Shift (q v)) : Shift (p.bind q) := by
  intro a n w n' h
  cases e : (p a (some n)).2 with
  | none => rw [bind_none e] at h; simp at h
  | some x =>
    obtain ⟨v, k⟩ := x
    obtain ⟨m, rfl, hm, hj⟩ := hp a n v k e
    rw [bind_some e] at h
    obtain ⟨m', rfl, hm', hj'⟩ := hq v _ m w n' h
    refine ⟨m', rfl, by omega, fun j => ?_⟩
    rw [bind_some e, bind_some (v := v) (n' := some (m + j)) (by rw [hj]), hj]
    exact hj' j

theorem shift_epochs (c : Settings S St X Y) (env : Env S St) (ep k : Nat) (r : Results) : Shift (epochsPy c env ep k r) := by
  induction k generalizing ep r with
  | zero => exact shift_pure _
  | succ k ih =>
    unfold epochsPy
    refine shift_bind (shift_stmt _) fun _ => shift_bind (shift_stmt _) fun _ => shift_bind (shift_stmt _) fun _ =>
      shift_bind ?_ fun _ => ?_
    · unfold keepBest
      split_ifs
      · exact shift_stmt _
      · exact shift_pure _
      · exact shift_pure _
    · dsimp only
      split_ifs
      · exact shift_pure _
      · exact ih _ _
      · exact shift_bind (shift_stmt _) fun _ => ih _ _

/-! ## One run -/

/-- The loop of a complete run. -/
def runLoop (c : Settings S St X Y) (a : Attrs S St X Y) : LoopVars S St :=
  epochLoop (c.env a) c.loadBest c.earlyAcc 0 c.nEpochs.toNat
    ⟨(c.env a).load .train ((c.env a).start a.tmState), 0, -1, -1, [], [], false, a.best⟩

theorem inner_complete (c : Settings S St X Y) (a : Attrs S St X Y) (hn : 1 ≤ c.nEpochs) :
    trainInnerPy c a none =
      ({ a with best := (runLoop c a).bestState, results := some (.inl (resOf (runLoop c a))),
                tmState := if c.loadBest then (runLoop c a).bestState else some ((c.env a).snap (runLoop c a).s),
                blocks := .raw }, some ((), none)) := by
  unfold trainInnerPy
  rw [if_neg (by omega)]
  simp only [Py.bind, Py.stmt]
  rw [loop_complete c (c.env a) 0 c.nEpochs.toNat ⟨-1, -1, 0, [], [], false⟩
    { a with blocks := .live ((c.env a).load .train ((c.env a).start a.tmState)) } _ rfl]
  rfl

theorem inner_zero (c : Settings S St X Y) (a : Attrs S St X Y) (hn : c.nEpochs < 1) (n : Option Nat) :
    trainInnerPy c a n = (a, none) ∨ ∃ n', trainInnerPy c a n = ({ a with blocks := .raw }, some ((), n')) := by
  unfold trainInnerPy
  rw [if_pos hn]
  rcases n with _ | _ | n
  · exact .inr ⟨none, rfl⟩
  · exact .inl rfl
  · exact .inr ⟨some n, rfl⟩

/-- Where an exception can leave a run: the state not yet given to the machine, or given to it and the results not yet there. -/
theorem inner_any (c : Settings S St X Y) (a : Attrs S St X Y) (hn : 1 ≤ c.nEpochs) (n : Nat)
    (h : (trainInnerPy c a (some n)).2 = none) :
    (∃ (b : Option St) (bl : Blocks S), (trainInnerPy c a (some n)).1 = { a with best := b, blocks := bl } ∧
      (b = a.best ∨ -1 < (runLoop c a).best)) ∨
    ((trainInnerPy c a (some (n + 2))).2 ≠ none ∧
      ∃ bl, (trainInnerPy c a (some n)).1 = { (trainInnerPy c a none).1 with results := a.results, blocks := bl }) := by
  rcases n with _ | _ | n
  · exact .inl ⟨a.best, a.blocks, rfl, .inl rfl⟩
  · refine .inl ⟨a.best, .raw, ?_, .inl rfl⟩
    unfold trainInnerPy
    rw [if_neg (by omega)]
    rfl
  obtain ⟨a1, ha1⟩ : ∃ a1, a1 = { a with blocks := .live ((c.env a).load .train ((c.env a).start a.tmState)) } := ⟨_, rfl⟩
  have unf : ∀ m, trainInnerPy c a (some (m + 2)) =
      ((epochsPy c (c.env a) 0 c.nEpochs.toNat ⟨-1, -1, 0, [], [], false⟩).bind fun r =>
        (storeState c (c.env a)).bind fun _ =>
        (Py.stmt fun a => ({ a with blocks := .raw }, ())).bind fun _ =>
        Py.stmt fun a => ({ a with results := some (.inl r) }, ())) a1 (some m) := by
    intro m
    rw [ha1]
    unfold trainInnerPy
    rw [if_neg (by omega)]
    rfl
  have hl := loop_any c (c.env a) 0 c.nEpochs.toNat ⟨-1, -1, 0, [], [], false⟩ a1 _ (by rw [ha1]) (some n)
  have hfin : (epochLoop (c.env a) c.loadBest c.earlyAcc 0 c.nEpochs.toNat
      (varsOf ((c.env a).load .train ((c.env a).start a.tmState)) ⟨-1, -1, 0, [], [], false⟩ a1.best)) = runLoop c a := by
    rw [ha1]; rfl
  rw [hfin] at hl
  obtain ⟨b, s', e1, e2⟩ := hl
  have e2' : b = a.best ∨ -1 < (runLoop c a).best := by rw [ha1] at e2; exact e2
  have e1' : (epochsPy c (c.env a) 0 c.nEpochs.toNat ⟨-1, -1, 0, [], [], false⟩ a1 (some n)).1 =
      { a with best := b, blocks := .live s' } := by rw [e1, ha1]
  cases e : (epochsPy c (c.env a) 0 c.nEpochs.toNat ⟨-1, -1, 0, [], [], false⟩ a1 (some n)).2 with
  | none =>
    left
    rw [unf, bind_none e]
    exact ⟨b, _, e1', e2'⟩
  | some x =>
    obtain ⟨r, n'⟩ := x
    obtain ⟨m, rfl, -, hj⟩ := shift_epochs _ _ _ _ _ _ _ _ _ e
    rw [unf, bind_some e, e1'] at h ⊢
    rcases m with _ | m
    · left
      exact ⟨b, _, rfl, e2'⟩
    · right
      constructor
      · rw [show n + 2 + 2 = (n + 2) + 2 by rfl, unf, bind_some (v := r) (n' := some (m + 1 + 2)) (by rw [hj])]
        simp [Py.bind, storeState, Py.stmt]
      · have hc := det_epochs _ _ _ _ _ _ _ _ _ e
        rw [inner_complete c a hn]
        rw [loop_complete c (c.env a) 0 c.nEpochs.toNat ⟨-1, -1, 0, [], [], false⟩ a1 _ (by rw [ha1]), hfin, e1'] at hc
        simp only [Prod.mk.injEq, Option.some.injEq] at hc
        obtain ⟨hc, -⟩ := hc
        rw [ha1] at hc
        simp only [Attrs.mk.injEq, Blocks.live.injEq, true_and] at hc
        obtain ⟨hb, hs'⟩ := hc
        rcases m with _ | m
        · refine ⟨.live s', ?_⟩
          simp only [Py.bind, storeState, Py.stmt, Attrs.current, hb, hs']
        · rcases m with _ | m
          · refine ⟨.raw, ?_⟩
            simp only [Py.bind, storeState, Py.stmt, Attrs.current, hb, hs']
          · simp [Py.bind, storeState, Py.stmt] at h

/-- The best state of an earlier run matters only if no score is better than -1. -/
theorem loop_other_best (env : Env S St) (lb : Bool) (ea : Rat) (ep k : Nat) (l : LoopVars S St) (b : Option St) :
    ∃ b', epochLoop env lb ea ep k { l with bestState := b } = { epochLoop env lb ea ep k l with bestState := b' } ∧
      (lb = true → l.best < (epochLoop env lb ea ep k l).best → b' = (epochLoop env lb ea ep k l).bestState) ∧
      (b = l.bestState → b' = (epochLoop env lb ea ep k l).bestState) := by
  induction k generalizing ep l b with
  | zero => exact ⟨b, rfl, fun _ h => absurd h (lt_irrefl _), fun h => h⟩
  | succ k ih =>
    unfold epochLoop
    dsimp only
    by_cases h1 : (env.eval (env.load .eval (env.train l.s).1)).2 > l.best <;>
    by_cases h3 : (env.eval (env.load .eval (env.train l.s).1)).2 ≥ ea <;>
    simp only [h1, h3, if_true, if_false]
    · refine ⟨_, rfl, fun hl _ => ?_, fun hb => ?_⟩
      · rw [hl]; rfl
      · rw [hb]
    · cases lb with
      | true =>
        simp only [if_true]
        refine ⟨_, rfl, fun _ _ => ?_, fun _ => rfl⟩
        rfl
      | false =>
        simp only [Bool.false_eq_true, if_false]
        split_ifs with h4
        · obtain ⟨b', e1, -, e3⟩ := ih (ep + 1) ⟨(env.eval (env.load .eval (env.train l.s).1)).1, l.nTrained + 1,
            (env.eval (env.load .eval (env.train l.s).1)).2, ep, l.trainLog ++ [(env.train l.s).2],
            l.evalLog ++ [(env.eval (env.load .eval (env.train l.s).1)).2], l.early, l.bestState⟩ b
          exact ⟨b', e1, fun h => absurd h (by decide), e3⟩
        · obtain ⟨b', e1, -, e3⟩ := ih (ep + 1) ⟨env.load .train (env.eval (env.load .eval (env.train l.s).1)).1, l.nTrained + 1,
            (env.eval (env.load .eval (env.train l.s).1)).2, ep, l.trainLog ++ [(env.train l.s).2],
            l.evalLog ++ [(env.eval (env.load .eval (env.train l.s).1)).2], l.early, l.bestState⟩ b
          exact ⟨b', e1, fun h => absurd h (by decide), e3⟩
    · exact ⟨b, rfl, fun _ h => absurd h (lt_irrefl _), fun h => h⟩
    · split_ifs with h4
      · obtain ⟨b', e1, e2, e3⟩ := ih (ep + 1) ⟨(env.eval (env.load .eval (env.train l.s).1)).1, l.nTrained + 1,
          l.best, l.bestEpoch, l.trainLog ++ [(env.train l.s).2],
          l.evalLog ++ [(env.eval (env.load .eval (env.train l.s).1)).2], l.early, l.bestState⟩ b
        exact ⟨b', e1, e2, e3⟩
      · obtain ⟨b', e1, e2, e3⟩ := ih (ep + 1) ⟨env.load .train (env.eval (env.load .eval (env.train l.s).1)).1, l.nTrained + 1,
          l.best, l.bestEpoch, l.trainLog ++ [(env.train l.s).2],
          l.evalLog ++ [(env.eval (env.load .eval (env.train l.s).1)).2], l.early, l.bestState⟩ b
        exact ⟨b', e1, e2, e3⟩

/-! ## Cross-validation -/

/-- The attributes with the arrays of a fold. -/
def withFold (x : List X) (y : List Y) (f : List Nat × List Nat) (a : Attrs S St X Y) : Attrs S St X Y :=
  { a with xTrain := gather x f.1, yTrain := gather y f.1, xEval := gather x f.2, yEval := gather y f.2 }

theorem setFold_complete (x : List X) (y : List Y) (f : List Nat × List Nat) (a : Attrs S St X Y) :
    setFold x y f a none = ({ a with xTrain := gather x f.1, yTrain := gather y f.1, xEval := gather x f.2, yEval := gather y f.2 },
      some ((), none)) := rfl

theorem setFold_any (x : List X) (y : List Y) (f : List Nat × List Nat) (a : Attrs S St X Y) (n : Nat) :
    (∃ d : List X × List Y × List X × List Y, Between (arrays a) (foldArrays x y f) d ∧
      setFold x y f a (some n) = ({ a with xTrain := d.1, yTrain := d.2.1, xEval := d.2.2.1, yEval := d.2.2.2 }, none)) ∨
    ∃ n', setFold x y f a (some n) = (withFold x y f a, some ((), n')) := by
  rcases n with _ | _ | _ | _ | n
  · exact .inl ⟨arrays a, .inl rfl, rfl⟩
  · exact .inl ⟨_, .inr (.inl rfl), rfl⟩
  · exact .inl ⟨_, .inr (.inr (.inl rfl)), rfl⟩
  · exact .inl ⟨_, .inr (.inr (.inr (.inl rfl))), rfl⟩
  · exact .inr ⟨_, rfl⟩

theorem collect_inl (r : FoldResults) (a : Attrs S St X Y) (q : Results) (h : a.results = some (.inl q)) (n : Option Nat) :
    collectFold r a n = (a, some ({ r with
      trainLog := r.trainLog ++ q.trainLog, evalLog := r.evalLog ++ q.evalLog,
      bestScore := if q.bestScore > r.bestScore then q.bestScore else r.bestScore }, n)) := by
  simp [collectFold, h]

/-- The results of a cross-validation after a fold. -/
def addFold (r : FoldResults) (q : Results) : FoldResults :=
  { r with trainLog := r.trainLog ++ q.trainLog, evalLog := r.evalLog ++ q.evalLog,
           bestScore := if q.bestScore > r.bestScore then q.bestScore else r.bestScore }

/-- The attributes after a complete run. -/
def afterRun (c : Settings S St X Y) (a : Attrs S St X Y) : Attrs S St X Y :=
  { a with best := (runLoop c a).bestState, results := some (.inl (resOf (runLoop c a))),
           tmState := if c.loadBest then (runLoop c a).bestState else some ((c.env a).snap (runLoop c a).s),
           blocks := .raw }

theorem folds_cons (c : Settings S St X Y) (hn : 1 ≤ c.nEpochs) (x : List X) (y : List Y) (f : List Nat × List Nat)
    (fs : List (List Nat × List Nat)) (r : FoldResults) (a : Attrs S St X Y) :
    foldsPy c x y (f :: fs) r a none =
      foldsPy c x y fs (addFold r (resOf (runLoop c (withFold x y f a)))) (afterRun c (withFold x y f a)) none := by
  unfold foldsPy
  rw [bind_some (v := ()) (n' := none) (by rw [setFold_complete]), setFold_complete]
  rw [bind_some (v := ()) (n' := none) (by rw [inner_complete c _ hn]), inner_complete c _ hn]
  rw [bind_some (by rw [collect_inl (q := resOf (runLoop c (withFold x y f a))) (h := rfl)]),
    collect_inl (q := resOf (runLoop c (withFold x y f a))) (h := rfl)]
  rw [← foldsPy.eq_def]
  rfl

/-- What an exception during one fold and the rest of the folds leaves. -/
theorem folds_cases (c : Settings S St X Y) (hn : 1 ≤ c.nEpochs) (x : List X) (y : List Y) (f : List Nat × List Nat)
    (fs : List (List Nat × List Nat)) (r : FoldResults) (a : Attrs S St X Y) (n : Nat) :
    (∃ d : List X × List Y × List X × List Y, Between (arrays a) (foldArrays x y f) d ∧
      foldsPy c x y (f :: fs) r a (some n) = ({ a with xTrain := d.1, yTrain := d.2.1, xEval := d.2.2.1, yEval := d.2.2.2 }, none)) ∨
    (∃ (b : Option St) (bl : Blocks S), foldsPy c x y (f :: fs) r a (some n) = ({ withFold x y f a with best := b, blocks := bl }, none)) ∨
    (∃ bl : Blocks S, foldsPy c x y (f :: fs) r a (some n) =
      ({ afterRun c (withFold x y f a) with results := a.results, blocks := bl }, none)) ∨
    (∃ n' : Nat, foldsPy c x y (f :: fs) r a (some n) =
      foldsPy c x y fs (addFold r (resOf (runLoop c (withFold x y f a)))) (afterRun c (withFold x y f a)) (some n')) := by
  have e0 : foldsPy c x y (f :: fs) r = (setFold x y f).bind fun _ => (trainInnerPy c).bind fun _ =>
      (collectFold r).bind fun r => foldsPy c x y fs r := rfl
  rw [e0]
  rcases setFold_any x y f a n with ⟨d, hd, e⟩ | ⟨n', e⟩
  · left
    refine ⟨d, hd, ?_⟩
    rw [bind_none (by rw [e]), e]
  right
  have hs := shift_bind (σ := Attrs S St X Y) (shift_stmt fun a => ({ a with xTrain := gather x f.1 }, ()))
    (fun _ => shift_bind (shift_stmt fun a => ({ a with yTrain := gather y f.1 }, ()))
    (fun _ => shift_bind (shift_stmt fun a => ({ a with xEval := gather x f.2 }, ()))
    (fun _ => shift_stmt fun a => ({ a with yEval := gather y f.2 }, ()))))
  obtain ⟨m, rfl, -⟩ := hs a n () n' (by rw [show (Py.bind _ _ : Py (Attrs S St X Y) Unit) = setFold x y f from rfl, e])
  rw [bind_some (v := ()) (n' := some m) (by rw [e]), e]
  cases h2 : (trainInnerPy c (withFold x y f a) (some m)).2 with
  | none =>
    rw [bind_none (show (trainInnerPy c _ (some m)).2 = none from h2)]
    rcases inner_any c (withFold x y f a) hn m h2 with ⟨b, bl, h3, -⟩ | ⟨-, bl, h3⟩
    · exact .inl ⟨b, bl, by rw [← h3]⟩
    · refine .inr (.inl ⟨bl, ?_⟩)
      rw [inner_complete c _ hn] at h3
      have : afterRun c (withFold x y f a) = { afterRun c (withFold x y f a) with blocks := .raw } := rfl
      refine Prod.ext ?_ rfl
      exact h3
  | some v =>
    obtain ⟨⟨⟩, n2⟩ := v
    have h3 := det_inner c _ _ _ _ h2
    rw [inner_complete c _ hn] at h3
    simp only [Prod.mk.injEq, and_true] at h3
    have hs : Shift (trainInnerPy c) := by
      intro a n v n' h
      unfold trainInnerPy at h ⊢
      refine shift_bind (shift_stmt _) (fun _ => ?_) a n v n' h
      rw [if_neg (by omega)]
      exact shift_bind (shift_stmt _) fun _ => shift_bind (shift_epochs _ _ _ _ _) fun _ => shift_bind (shift_stmt _) fun _ =>
        shift_bind (shift_stmt _) fun _ => shift_stmt _
    obtain ⟨m', rfl, -⟩ := hs _ _ _ _ h2
    rw [bind_some (v := ()) (n' := some m') (show (trainInnerPy c _ (some m)).2 = _ from h2)]
    have h4 : (trainInnerPy c (withFold x y f a) (some m)).1 = afterRun c (withFold x y f a) := h3.symm
    refine .inr (.inr ⟨m', ?_⟩)
    show (Py.bind _ _ (trainInnerPy c (withFold x y f a) (some m)).1 (some m')) = _
    rw [h4, bind_some (by rw [collect_inl (q := resOf (runLoop c (withFold x y f a))) (h := rfl)]),
      collect_inl (q := resOf (runLoop c (withFold x y f a))) (h := rfl)]
    rfl

/-- After an exception the machine has its old state or that of some number of folds. -/
theorem folds_state (c : Settings S St X Y) (hn : 1 ≤ c.nEpochs) (x : List X) (y : List Y)
    (fs : List (List Nat × List Nat)) (r : FoldResults) (a : Attrs S St X Y) (n : Nat) :
    ∃ j, j ≤ fs.length ∧ (foldsPy c x y fs r a (some n)).1.tmState = (foldsPy c x y (fs.take j) r a none).1.tmState := by
  induction fs generalizing r a n with
  | nil => exact ⟨0, le_refl _, rfl⟩
  | cons f fs ih =>
    rcases folds_cases c hn x y f fs r a n with ⟨d, -, e⟩ | ⟨b, bl, e⟩ | ⟨bl, e⟩ | ⟨n', e⟩ <;> rw [e]
    · exact ⟨0, Nat.zero_le _, rfl⟩
    · exact ⟨0, Nat.zero_le _, rfl⟩
    · refine ⟨1, by simp, ?_⟩
      rw [List.take_succ_cons, List.take_zero, folds_cons c hn]
      rfl
    · obtain ⟨j, hj, h⟩ := ih (addFold r (resOf (runLoop c (withFold x y f a)))) (afterRun c (withFold x y f a)) n'
      refine ⟨j + 1, by simpa using hj, ?_⟩
      rw [h, List.take_succ_cons, folds_cons c hn]

/-- After an exception the trainer has the arrays of two successive folds, or of the user's data and the first one. -/
theorem folds_arrays (c : Settings S St X Y) (hn : 1 ≤ c.nEpochs) (x : List X) (y : List Y)
    (fs : List (List Nat × List Nat)) (r : FoldResults) (a : Attrs S St X Y) (n : Nat) :
    ∃ p q, (p = arrays a ∨ ∃ f ∈ fs, p = foldArrays x y f) ∧ (q = arrays a ∨ ∃ f ∈ fs, q = foldArrays x y f) ∧
      Between p q (arrays (foldsPy c x y fs r a (some n)).1) := by
  induction fs generalizing r a n with
  | nil => exact ⟨arrays a, arrays a, .inl rfl, .inl rfl, .inl rfl⟩
  | cons f fs ih =>
    rcases folds_cases c hn x y f fs r a n with ⟨d, hd, e⟩ | ⟨b, bl, e⟩ | ⟨bl, e⟩ | ⟨n', e⟩ <;> rw [e]
    · exact ⟨arrays a, foldArrays x y f, .inl rfl, .inr ⟨f, by simp, rfl⟩, hd⟩
    · exact ⟨arrays a, foldArrays x y f, .inl rfl, .inr ⟨f, by simp, rfl⟩, .inr (.inr (.inr (.inr rfl)))⟩
    · exact ⟨arrays a, foldArrays x y f, .inl rfl, .inr ⟨f, by simp, rfl⟩, .inr (.inr (.inr (.inr rfl)))⟩
    · obtain ⟨p, q, hp, hq, h⟩ := ih (addFold r (resOf (runLoop c (withFold x y f a)))) (afterRun c (withFold x y f a)) n'
      refine ⟨p, q, ?_, ?_, h⟩
      · rcases hp with rfl | ⟨g, hg, rfl⟩
        · exact .inr ⟨f, by simp, rfl⟩
        · exact .inr ⟨g, by simp [hg], rfl⟩
      · rcases hq with rfl | ⟨g, hg, rfl⟩
        · exact .inr ⟨f, by simp, rfl⟩
        · exact .inr ⟨g, by simp [hg], rfl⟩

/-- While blocks are at work the trainer has the arrays of a fold. -/
theorem folds_live (c : Settings S St X Y) (hn : 1 ≤ c.nEpochs) (x : List X) (y : List Y)
    (fs : List (List Nat × List Nat)) (r : FoldResults) (a : Attrs S St X Y) (n : Nat) (h0 : ∀ s, a.blocks ≠ .live s) (s : S)
    (h : (foldsPy c x y fs r a (some n)).1.blocks = .live s) :
    ∃ f ∈ fs, arrays (foldsPy c x y fs r a (some n)).1 = foldArrays x y f := by
  induction fs generalizing r a n with
  | nil => exact absurd h (h0 s)
  | cons f fs ih =>
    rcases folds_cases c hn x y f fs r a n with ⟨d, hd, e⟩ | ⟨b, bl, e⟩ | ⟨bl, e⟩ | ⟨n', e⟩ <;> rw [e] at h ⊢
    · exact absurd h (h0 s)
    · exact ⟨f, by simp, rfl⟩
    · exact ⟨f, by simp, rfl⟩
    · obtain ⟨g, hg, h'⟩ := ih (addFold r (resOf (runLoop c (withFold x y f a)))) (afterRun c (withFold x y f a)) n'
        (by intro s; simp [afterRun]) h
      exact ⟨g, by simp [hg], h'⟩

theorem folds_complete_arrays (c : Settings S St X Y) (hn : 1 ≤ c.nEpochs) (x : List X) (y : List Y)
    (fs : List (List Nat × List Nat)) (r : FoldResults) (a : Attrs S St X Y) :
    ∃ r' a', foldsPy c x y fs r a none = (a', some (r', none)) ∧
      (fs = [] ∧ arrays a' = arrays a ∨ ∃ f ∈ fs, arrays a' = foldArrays x y f) := by
  induction fs generalizing r a with
  | nil => exact ⟨r, a, rfl, .inl ⟨rfl, rfl⟩⟩
  | cons f fs ih =>
    rw [folds_cons c hn]
    obtain ⟨r', a', e, h⟩ := ih (addFold r (resOf (runLoop c (withFold x y f a)))) (afterRun c (withFold x y f a))
    refine ⟨r', a', e, .inr ?_⟩
    rcases h with ⟨rfl, h⟩ | ⟨g, hg, h⟩
    · exact ⟨f, by simp, h⟩
    · exact ⟨g, by simp [hg], h⟩

theorem zip_gather (x : List X) (y : List Y) (h : x.length = y.length) (idx : List Nat) :
    (gather x idx).zip (gather y idx) = gather (x.zip y) idx ∧ (gather x idx).length = (gather y idx).length := by
  induction idx with
  | nil => exact ⟨rfl, rfl⟩
  | cons i idx ih =>
    obtain ⟨ih1, ih2⟩ := ih
    unfold gather at *
    by_cases hi : i < x.length
    · have hi' : i < y.length := by omega
      simp only [List.filterMap_cons, List.getElem?_eq_getElem hi, List.getElem?_eq_getElem hi', List.zip_cons_cons, ih1,
        List.length_cons, ih2]
      have : (x.zip y)[i]? = some (x[i], y[i]) := by
        rw [List.getElem?_eq_getElem (by simp; omega)]; simp
      simp [this]
    · have hi' : ¬ i < y.length := by omega
      have h1 : x[i]? = none := List.getElem?_eq_none (by omega)
      have h2 : y[i]? = none := List.getElem?_eq_none (by omega)
      have h3 : (x.zip y)[i]? = none := List.getElem?_eq_none (by simp; omega)
      simp only [List.filterMap_cons, h1, h2, h3]
      exact ⟨ih1, ih2⟩

theorem fst_gather (x : List X) (y : List Y) (h : x.length = y.length) (idx : List Nat) :
    (gather (x.zip y) idx).map Prod.fst = gather x idx ∧ (gather (x.zip y) idx).map Prod.snd = gather y idx := by
  obtain ⟨h1, h2⟩ := zip_gather x y h idx
  rw [← h1]
  exact ⟨List.map_fst_zip h2.le, List.map_snd_zip h2.ge⟩

/-- The complete cross-validation is the one of the model without interruptions. -/
theorem folds_refine (c : Settings S St X Y) (hn : 1 ≤ c.nEpochs) (x : List X) (y : List Y) (h : x.length = y.length)
    (fs : List (List Nat × List Nat)) (r : FoldResults) (a : Attrs S St X Y) (q : Option Results) :
    ∃ (a' : Attrs S St X Y) (r' : FoldResults) (q' : Option Results), foldsPy c x y fs r a none = (a', some (r', none)) ∧
      foldLoop (onExamples c) (x.zip y) fs (asTrainer c a q) a.tmState r = .ok (asTrainer c a' q', a'.tmState, r') := by
  induction fs generalizing r a q with
  | nil => exact ⟨a, r, q, rfl, rfl⟩
  | cons f fs ih =>
    rw [folds_cons c hn]
    obtain ⟨a', r', q', e1, e2⟩ := ih (addFold r (resOf (runLoop c (withFold x y f a)))) (afterRun c (withFold x y f a))
      (some (resOf (runLoop c (withFold x y f a))))
    refine ⟨a', r', q', e1, ?_⟩
    unfold foldLoop
    have eenv : onExamples c (gather (x.zip y) f.1) (gather (x.zip y) f.2) = c.env (withFold x y f a) := by
      obtain ⟨g1, g2⟩ := fst_gather x y h f.1
      obtain ⟨g3, g4⟩ := fst_gather x y h f.2
      unfold onExamples
      rw [g1, g2, g3, g4]
      rfl
    have einner : (asTrainer c a q).trainInner (onExamples c (gather (x.zip y) f.1) (gather (x.zip y) f.2)) a.tmState =
        (asTrainer c (afterRun c (withFold x y f a)) (some (resOf (runLoop c (withFold x y f a)))),
          (afterRun c (withFold x y f a)).tmState) := by
      rw [eenv]
      unfold Trainer.trainInner
      rw [if_neg (show ¬ (asTrainer c a q).nEpochs < 1 by simp only [asTrainer]; omega)]
      rfl
    rw [einner]
    exact e2

/-- An interrupted cross-validation is interrupted in its loop, or has only the results left. -/
theorem interrupted_folds (c : Settings S St X Y) (a : Attrs S St X Y) (hk : 1 < c.kFolds) (n : Nat) (h : Strikes c a n) :
    interrupted c a n = (foldsPy c (stackedX a) (stackedY a) (foldsOf c a) ⟨-1, c.kFolds, [], []⟩ a (some n)).1 := by
  have e : trainPy c a (some n) = ((foldsPy c (stackedX a) (stackedY a) (foldsOf c a) ⟨-1, c.kFolds, [], []⟩).bind fun r =>
      Py.stmt fun a => ({ a with results := some (.inr r) }, ())) a (some n) := by
    unfold trainPy; rw [if_pos (by omega)]; rfl
  unfold interrupted Strikes at *
  rw [e] at h ⊢
  cases h1 : (foldsPy c (stackedX a) (stackedY a) (foldsOf c a) ⟨-1, c.kFolds, [], []⟩ a (some n)).2 with
  | none => rw [bind_none h1]
  | some v =>
    obtain ⟨r, n'⟩ := v
    rw [bind_some h1] at h ⊢
    match n', h with
    | some 0, h => rfl
    | none, h => simp [Py.stmt] at h
    | some (m + 1), h => simp [Py.stmt] at h

/-- The arrays of a fold have every example once. -/
theorem fold_examples (a : Attrs S St X Y) (hm : Matched a) (fs : List (List Nat × List Nat)) (hs : IsSplit (examples a).length fs)
    (f : List Nat × List Nat) (hf : f ∈ fs) (b : Attrs S St X Y) (e : arrays b = foldArrays (stackedX a) (stackedY a) f) :
    Matched b ∧ (examples b).Perm (examples a) := by
  have hz : (stackedX a).zip (stackedY a) = examples a := List.zip_append hm.1
  have hl : (stackedX a).length = (stackedY a).length := by simp [stackedX, stackedY, hm.1, hm.2]
  obtain ⟨z1, l1⟩ := zip_gather _ _ hl f.1
  obtain ⟨z2, l2⟩ := zip_gather _ _ hl f.2
  simp only [arrays, foldArrays, Prod.mk.injEq] at e
  obtain ⟨e1, e2, e3, e4⟩ := e
  refine ⟨⟨by rw [e1, e2, l1], by rw [e3, e4, l2]⟩, ?_⟩
  rw [show examples b = b.xTrain.zip b.yTrain ++ b.xEval.zip b.yEval from rfl, e1, e2, e3, e4, z1, z2, hz]
  have := gather_perm (examples a) _ _ (hs.complement f hf)
  rw [gather_range] at this
  rwa [show gather (examples a) f.1 ++ gather (examples a) f.2 = gather (examples a) (f.1 ++ f.2) from (List.filterMap_append ..).symm]

end GT.Intr

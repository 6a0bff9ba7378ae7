import Verif.Lemmas.Interrupt
import Verif.Props.Trainer

/-! # C84: training that is interrupted by an exception -/

namespace GT
open Spec Intr

variable {S St X Y : Type}

/-! ## Without an exception -/

/-- Without an exception the statements do what the models of C30 to C32 say. -/
theorem C84_complete_run (c : Settings S St X Y) (a : Attrs S St X Y) (hk : c.kFolds ≤ 1) (hn : 1 ≤ c.nEpochs) (q : Option Results) :
    (trainPy c a none).2 = some ((), none) ∧
    ∃ r, (complete c a).results = some (.inl r) ∧
    (asTrainer c a q).trainInner (c.backend a.xTrain a.yTrain a.xEval a.yEval) a.tmState =
      (asTrainer c (complete c a) (some r), (complete c a).tmState) := by
  have e : trainPy c a none = trainInnerPy c a none := by unfold trainPy; rw [if_neg (by omega)]
  unfold complete
  rw [e, inner_complete c a hn]
  refine ⟨rfl, _, rfl, ?_⟩
  unfold Trainer.trainInner
  rw [if_neg (show ¬ (asTrainer c a q).nEpochs < 1 by simp only [asTrainer]; omega)]
  rfl

/-- Without an exception cross-validation does what the model of C33 says. -/
theorem C84_complete_folds (c : Settings S St X Y) (a : Attrs S St X Y) (hk : 1 < c.kFolds) (hn : 1 ≤ c.nEpochs) (hm : Matched a)
    (q : Option Results) :
    (trainPy c a none).2 = some ((), none) ∧
    ∃ r q', (complete c a).results = some (.inr r) ∧
      (asTrainer c a q).trainFolds (onExamples c) (a.xTrain.zip a.yTrain) (a.xEval.zip a.yEval) (foldsOf c a) c.kFolds a.tmState =
        .ok (asTrainer c (complete c a) q', (complete c a).tmState, r) := by
  have hz : (stackedX a).zip (stackedY a) = a.xTrain.zip a.yTrain ++ a.xEval.zip a.yEval := List.zip_append hm.1
  have hl : (stackedX a).length = (stackedY a).length := by simp [stackedX, stackedY, hm.1, hm.2]
  obtain ⟨a', r, q', e1, e2⟩ := folds_refine c hn (stackedX a) (stackedY a) hl (foldsOf c a) ⟨-1, c.kFolds, [], []⟩ a q
  have e : trainPy c a none = ((foldsPy c (stackedX a) (stackedY a) (foldsOf c a) ⟨-1, c.kFolds, [], []⟩).bind fun r =>
      Py.stmt fun a => ({ a with results := some (.inr r) }, ())) a none := by
    unfold trainPy; rw [if_pos (by omega)]; rfl
  unfold complete
  rw [e, bind_some (by rw [e1]), e1]
  refine ⟨rfl, r, q', rfl, ?_⟩
  unfold Trainer.trainFolds
  rw [← hz, e2]
  rfl

/-! ## One run -/

/-- Wherever an exception ends `train()`, the trainer's data and results are as before, and the machine has the state it had before or the
one the complete run gives it: never a partly trained one. -/
theorem C84_all_or_nothing (c : Settings S St X Y) (a : Attrs S St X Y) (hk : c.kFolds ≤ 1) (n : Nat) (h : Strikes c a n) :
    arrays (interrupted c a n) = arrays a ∧ (interrupted c a n).results = a.results ∧
    ((interrupted c a n).tmState = a.tmState ∨ (interrupted c a n).tmState = (complete c a).tmState) := by
  have e : ∀ m, trainPy c a m = trainInnerPy c a m := by intro m; unfold trainPy; rw [if_neg (by omega)]
  unfold interrupted Strikes complete at *
  rw [e] at h ⊢
  rw [e]
  by_cases hn : c.nEpochs < 1
  · rcases inner_zero c a hn (some n) with h' | ⟨n', h'⟩ <;> rw [h'] <;> exact ⟨rfl, rfl, .inl rfl⟩
  · have hn : 1 ≤ c.nEpochs := by omega
    rcases inner_any c a hn n h with ⟨b, bl, h', -⟩ | ⟨-, bl, h'⟩ <;> rw [h']
    · exact ⟨rfl, rfl, .inl rfl⟩
    · rw [inner_complete c a hn]
      exact ⟨rfl, rfl, .inr rfl⟩

/-- An exception during the epochs — from the callback, the metric or the backend — leaves everything visible as it was. -/
theorem C84_unchanged (c : Settings S St X Y) (a : Attrs S St X Y) (hk : c.kFolds ≤ 1) (n : Nat) (h : StrikesEarly c a n) :
    userView (interrupted c a n) = userView a := by
  have e : ∀ m, trainPy c a m = trainInnerPy c a m := by intro m; unfold trainPy; rw [if_neg (by omega)]
  unfold interrupted StrikesEarly Strikes at *
  rw [e] at h ⊢
  by_cases hn : c.nEpochs < 1
  · rcases inner_zero c a hn (some n) with h' | ⟨n', h'⟩ <;> rw [h'] <;> rfl
  · have hn : 1 ≤ c.nEpochs := by omega
    have hs : (trainInnerPy c a (some n)).2 = none := by
      by_contra hne
      obtain ⟨⟨v, n'⟩, hv⟩ := Option.ne_none_iff_exists'.mp hne
      have hsh : Shift (trainInnerPy c) := by
        intro a n v n' h
        unfold trainInnerPy at h ⊢
        refine shift_bind (shift_stmt _) (fun _ => ?_) a n v n' h
        rw [if_neg (by omega)]
        exact shift_bind (shift_stmt _) fun _ => shift_bind (shift_epochs _ _ _ _ _) fun _ => shift_bind (shift_stmt _) fun _ =>
          shift_bind (shift_stmt _) fun _ => shift_stmt _
      obtain ⟨m, -, -, hj⟩ := hsh a n v n' hv
      rw [hj 2] at h
      simp at h
    rcases inner_any c a hn n hs with ⟨b, bl, h', -⟩ | ⟨h', -⟩
    · rw [h']; rfl
    · exact absurd h h'

/-- Trying again after any number of such exceptions gives the results and the state that the first attempt would have given. -/
theorem C84_retry (c : Settings S St X Y) (a b : Attrs S St X Y) (hk : c.kFolds ≤ 1) (h : Attempts c a b) :
    userView (complete c b) = userView (complete c a) := by
  have e : ∀ (a : Attrs S St X Y) m, trainPy c a m = trainInnerPy c a m := by intro a m; unfold trainPy; rw [if_neg (by omega)]
  have key : userView b = userView a ∧ (b.best = a.best ∨ 1 ≤ c.nEpochs ∧ -1 < (runLoop c a).best) := by
    induction h with
    | none => exact ⟨rfl, .inl rfl⟩
    | @again b n h hs ih =>
      obtain ⟨i1, i2⟩ := ih
      have huser := C84_unchanged c b hk n hs
      refine ⟨huser.trans i1, ?_⟩
      by_cases hn : c.nEpochs < 1
      · unfold interrupted
        rw [e]
        rcases inner_zero c b hn (some n) with h' | ⟨n', h'⟩ <;> rw [h'] <;> exact i2
      · have hn : 1 ≤ c.nEpochs := by omega
        have same : -1 < (runLoop c b).best → -1 < (runLoop c a).best := by
          intro hb
          simp only [userView, Prod.mk.injEq] at i1
          obtain ⟨j1, j2, j3, j4, j5, j6⟩ := i1
          obtain ⟨b', hb', -⟩ := loop_other_best (c.env a) c.loadBest c.earlyAcc 0 c.nEpochs.toNat
            ⟨(c.env a).load .train ((c.env a).start a.tmState), 0, -1, -1, [], [], false, a.best⟩ b.best
          have : runLoop c b = { runLoop c a with bestState := b' } := by
            refine Eq.trans ?_ hb'
            unfold runLoop Settings.env
            rw [j1, j2, j3, j4, j6]
          rw [this] at hb
          exact hb
        unfold interrupted StrikesEarly Strikes at *
        rw [e] at hs ⊢
        cases hv : (trainInnerPy c b (some n)).2 with
        | none =>
          rcases inner_any c b hn n hv with ⟨b', bl, h', h2⟩ | ⟨h', -⟩
          · rw [h']
            rcases h2 with h2 | h2
            · simp only [h2]; exact i2
            · exact .inr ⟨hn, same h2⟩
          · exact absurd hs h'
        | some v =>
          have h0 := huser
          obtain ⟨v, n'⟩ := v
          have hsh : Shift (trainInnerPy c) := by
            intro a n v n' h
            unfold trainInnerPy at h ⊢
            refine shift_bind (shift_stmt _) (fun _ => ?_) a n v n' h
            rw [if_neg (by omega)]
            exact shift_bind (shift_stmt _) fun _ => shift_bind (shift_epochs _ _ _ _ _) fun _ => shift_bind (shift_stmt _) fun _ =>
              shift_bind (shift_stmt _) fun _ => shift_stmt _
          obtain ⟨m, -, -, hj⟩ := hsh b n v n' hv
          rw [hj 2] at hs
          simp at hs
  obtain ⟨h1, h2⟩ := key
  simp only [userView, Prod.mk.injEq] at h1
  obtain ⟨j1, j2, j3, j4, j5, j6⟩ := h1
  unfold complete
  rw [e, e]
  by_cases hn : c.nEpochs < 1
  · rcases inner_zero c a hn none with h' | ⟨n', h'⟩ <;> rcases inner_zero c b hn none with h3 | ⟨n3, h3⟩ <;> rw [h', h3] <;>
      simp [userView, j1, j2, j3, j4, j5, j6]
  · have hn : 1 ≤ c.nEpochs := by omega
    obtain ⟨b', hb', hb1, hb2⟩ := loop_other_best (c.env a) c.loadBest c.earlyAcc 0 c.nEpochs.toNat
      ⟨(c.env a).load .train ((c.env a).start a.tmState), 0, -1, -1, [], [], false, a.best⟩ b.best
    have hrun : runLoop c b = { runLoop c a with bestState := b' } := by
      refine Eq.trans ?_ hb'
      unfold runLoop Settings.env
      rw [j1, j2, j3, j4, j6]
    have henv : c.env b = c.env a := by unfold Settings.env; rw [j1, j2, j3, j4]
    rw [inner_complete c a hn, inner_complete c b hn, hrun, henv]
    simp only [userView, j1, j2, j3, j4, resOf, Prod.mk.injEq, true_and]
    by_cases hl : c.loadBest = true
    · simp only [hl, if_true]
      rcases h2 with h2 | ⟨-, h2⟩
      · exact hb2 h2
      · exact hb1 hl h2
    · simp [hl]

/-- Non-vacuity: three attempts at four epochs with scores 0.2, 0.5, 0.5, 0.1, interrupted in the second epoch, in the third, and while the
state is about to be stored. -/
def intrToy (k : Int) : Settings (Nat × DataSet) Nat Nat Nat :=
  ⟨4, 1, true, k, fun _ _ _ _ => toyEnv toyScore, fun _ _ => [([2, 3], [0, 1]), ([0, 1], [2, 3])]⟩

/-- A trainer with four examples. -/
def intrAttrs : Attrs (Nat × DataSet) Nat Nat Nat := ⟨[10, 11], [0, 1], [12, 13], [1, 1], none, none, none, .none⟩

example : Attempts (intrToy 0) intrAttrs (interrupted (intrToy 0) (interrupted (intrToy 0) intrAttrs 7) 12) :=
  .again 12 (.again 7 (.none _) (by decide +kernel)) (by decide +kernel)

example : (interrupted (intrToy 0) intrAttrs 7).tmState = none ∧ (interrupted (intrToy 0) intrAttrs 7).best = some 1 ∧
    (complete (intrToy 0) intrAttrs).tmState = some 2 ∧
    (complete (intrToy 0) (interrupted (intrToy 0) (interrupted (intrToy 0) intrAttrs 7) 12)).tmState = some 2 := by decide +kernel

/-- The code does not tie the state to the results: between the two assignments an exception leaves the new state with the old results. -/
theorem C84_state_without_results : Strikes (intrToy 0) intrAttrs 20 ∧ (interrupted (intrToy 0) intrAttrs 20).tmState = some 2 ∧
    (interrupted (intrToy 0) intrAttrs 20).results.isNone := by decide +kernel

/-! ## Saving after an exception -/

/-- A machine that had a state writes that state. -/
theorem C84_save_partial (c : Settings S St X Y) (a : Attrs S St X Y) (hk : c.kFolds ≤ 1) (n : Nat) (h : StrikesEarly c a n) (st : St)
    (hst : a.tmState = some st) (snap : S → St) :
    saveStatePy snap (interrupted c a n) = (interrupted c a n, .written st) := by
  have := C84_unchanged c a hk n h
  simp only [userView, Prod.mk.injEq] at this
  simp [saveStatePy, this.2.2.2.2.2, hst]

/-- A machine that had none writes the partly trained state of its blocks and keeps it; another `train()` then starts from it and gives
another result than trying again without saving. -/
theorem C84_save_keeps_unfinished :
    StrikesEarly (intrToy 0) intrAttrs 8 ∧ intrAttrs.tmState = none ∧
    (saveStatePy (toyEnv toyScore).snap (interrupted (intrToy 0) intrAttrs 8)).1.tmState = some 2 ∧
    (complete (intrToy 0) (interrupted (intrToy 0) intrAttrs 8)).tmState = some 2 ∧
    (complete (intrToy 0) (saveStatePy (toyEnv toyScore).snap (interrupted (intrToy 0) intrAttrs 8)).1).tmState = some 3 := by
  decide +kernel

/-- An exception before the blocks have arrays, for example from a refused seed: saving then reads arrays that do not exist. -/
theorem C84_save_undefined :
    StrikesEarly (intrToy 0) intrAttrs 1 ∧
    (saveStatePy (toyEnv toyScore).snap (interrupted (intrToy 0) intrAttrs 1)).2 = .undefined := by
  refine ⟨by decide +kernel, rfl⟩

/-! ## Cross-validation -/

/-- Wherever an exception ends a cross-validation, the machine has the state after some number of complete folds. -/
theorem C84_folds_state (c : Settings S St X Y) (a : Attrs S St X Y) (hk : 1 < c.kFolds) (hn : 1 ≤ c.nEpochs) (n : Nat) (h : Strikes c a n) :
    ∃ j, j ≤ (foldsOf c a).length ∧ (interrupted c a n).tmState = stateAfterFolds c a j := by
  obtain ⟨j, hj, e⟩ := folds_state c hn (stackedX a) (stackedY a) (foldsOf c a) ⟨-1, c.kFolds, [], []⟩ a n
  refine ⟨j, hj, ?_⟩
  rw [interrupted_folds c a hk n h]
  exact e

/-- The trainer's arrays are then those before the call, or those of a fold, or the first so many arrays of one and the rest of another. -/
theorem C84_folds_arrays (c : Settings S St X Y) (a : Attrs S St X Y) (hk : 1 < c.kFolds) (hn : 1 ≤ c.nEpochs) (n : Nat) (h : Strikes c a n) :
    ∃ p q, (p = arrays a ∨ ∃ f ∈ foldsOf c a, p = foldArrays (stackedX a) (stackedY a) f) ∧
      (q = arrays a ∨ ∃ f ∈ foldsOf c a, q = foldArrays (stackedX a) (stackedY a) f) ∧ Between p q (arrays (interrupted c a n)) := by
  obtain ⟨p, q, h1, h2, h3⟩ := folds_arrays c hn (stackedX a) (stackedY a) (foldsOf c a) ⟨-1, c.kFolds, [], []⟩ a n
  exact ⟨p, q, h1, h2, by rwa [interrupted_folds c a hk n h]⟩

/-- An exception while a fold is trained (the blocks have arrays) leaves every example once, each with its own label. -/
theorem C84_folds_examples_partial (c : Settings S St X Y) (a : Attrs S St X Y) (hk : 1 < c.kFolds) (hn : 1 ≤ c.nEpochs) (n : Nat)
    (h : Strikes c a n) (hm : Matched a) (hs : IsSplit (examples a).length (foldsOf c a)) (h0 : ∀ s, a.blocks ≠ .live s) (s : S)
    (hl : (interrupted c a n).blocks = .live s) :
    Matched (interrupted c a n) ∧ (examples (interrupted c a n)).Perm (examples a) := by
  rw [interrupted_folds c a hk n h] at hl ⊢
  obtain ⟨f, hf, e⟩ := folds_live c hn (stackedX a) (stackedY a) (foldsOf c a) ⟨-1, c.kFolds, [], []⟩ a n h0 s hl
  exact fold_examples a hm _ hs f hf _ e

/-- A complete cross-validation leaves every example once, each with its own label. -/
theorem C84_folds_complete (c : Settings S St X Y) (a : Attrs S St X Y) (hk : 1 < c.kFolds) (hn : 1 ≤ c.nEpochs) (hm : Matched a)
    (hs : IsSplit (examples a).length (foldsOf c a)) :
    Matched (complete c a) ∧ (examples (complete c a)).Perm (examples a) := by
  obtain ⟨r, a', e, h⟩ := folds_complete_arrays c hn (stackedX a) (stackedY a) (foldsOf c a) ⟨-1, c.kFolds, [], []⟩ a
  have ec : arrays (complete c a) = arrays a' := by
    unfold complete trainPy
    rw [if_pos (by omega)]
    unfold Py.bind
    rw [show c.split (a.xTrain ++ a.xEval) (a.yTrain ++ a.yEval) = foldsOf c a from rfl,
      show a.xTrain ++ a.xEval = stackedX a from rfl, show a.yTrain ++ a.yEval = stackedY a from rfl, e]
    rfl
  rcases h with ⟨-, h⟩ | ⟨f, hf, h⟩
  · rw [h] at ec
    simp only [arrays, Prod.mk.injEq] at ec
    unfold Matched examples at *
    rw [ec.1, ec.2.1, ec.2.2.1, ec.2.2.2]
    exact ⟨hm, .refl _⟩
  · exact fold_examples a hm _ hs f hf _ (ec.trans h)

example : Matched intrAttrs ∧ IsSplit (examples intrAttrs).length (foldsOf (intrToy 2) intrAttrs) ∧ Strikes (intrToy 2) intrAttrs 40 ∧
    ((interrupted (intrToy 2) intrAttrs 40).blocks = .live (4, .eval)) :=
  ⟨by decide, ⟨by decide, by decide⟩, by decide +kernel, by decide +kernel⟩

/-- Between the assignments of examples and labels an exception leaves examples with the labels of others, as many as before, so that the
next `train()` accepts them: example 12 has label 1, afterwards it has label 0. -/
theorem C84_labels_mixed :
    Strikes (intrToy 2) intrAttrs 1 ∧ Matched (interrupted (intrToy 2) intrAttrs 1) ∧ (12, 1) ∈ examples intrAttrs ∧
    examples (interrupted (intrToy 2) intrAttrs 1) = [(12, 0), (13, 1), (12, 1), (13, 1)] := by decide +kernel

/-- A cross-validation ended by an exception in its second fold has left the machine with the state of the first: it is not as before, has no
results, and trying again gives another state. -/
theorem C84_folds_not_undone :
    Strikes (intrToy 2) intrAttrs 40 ∧ intrAttrs.tmState = none ∧ (interrupted (intrToy 2) intrAttrs 40).tmState = some 2 ∧
    (complete (intrToy 2) (interrupted (intrToy 2) intrAttrs 40)).tmState ≠ (complete (intrToy 2) intrAttrs).tmState := by decide +kernel

end GT

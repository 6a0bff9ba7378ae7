import Verif.Spec.HpSearch
import Verif.Props.Trainer

/-!
# Hyper-parameter search: C51
-/

namespace GT
open Spec

variable {S St D : Type}

theorem pickS_in {t : OptTrial} (ht : OptunaTrial t) {sp : FloatSpace} {v : Rat} (h : t.pickS sp = .ok v) :
    InFloatSpace sp v := by
  match sp, h with
  | .float x, h => exact (Except.ok.inj h).symm
  | .tuple [low, high], h => exact ⟨(ht.float _ _ _ _ _ h).1, (ht.float _ _ _ _ _ h).2.1⟩
  | .tuple [low, high, st], h => exact ht.float _ _ _ _ _ h
  | .tuple (low :: high :: a :: b :: r), h => exact ⟨(ht.float _ _ _ _ _ h).1, (ht.float _ _ _ _ _ h).2.1⟩

theorem pickInt_in {t : OptTrial} (ht : OptunaTrial t) {name : String} {sp : IntSpace} {v : Int}
    (h : t.pickInt name sp = .ok v) : InIntSpace sp v := by
  match sp, h with
  | .int x, h => exact (Except.ok.inj h).symm
  | .bool x, h => exact (Except.ok.inj h).symm
  | .tuple [low, high], h =>
    have := ht.int _ _ _ _ _ h
    exact ⟨by exact_mod_cast this.1, by exact_mod_cast this.2.1⟩
  | .tuple [low, high, st], h => exact ht.int _ _ _ _ _ h
  | .tuple (low :: high :: a :: b :: r), h =>
    have := ht.int _ _ _ _ _ h
    exact ⟨by exact_mod_cast this.1, by exact_mod_cast this.2.1⟩

theorem params_ok {h : HpSearch D} {t : OptTrial} {p : HpParams} (e : h.params t = .ok p) :
    t.pickS h.sSpace = .ok p.s ∧ t.pickInt "n_clauses" h.clauseSpace = .ok p.clauses ∧
    t.pickInt "threshold" h.threshSpace = .ok p.threshold ∧ t.pickInt "literal_budget" h.budgetSpace = .ok p.budget ∧
    t.pickInt "max_epoch_per_trial" h.epochSpace = .ok p.epochs ∧ h.pickBoost t = .ok p.boost := by
  unfold HpSearch.params at e
  split at e
  · cases e
  rename_i e1
  split at e
  · cases e
  rename_i e2
  split at e
  · cases e
  rename_i e3
  split at e
  · cases e
  rename_i e4
  split at e
  · cases e
  rename_i e5
  split at e
  · cases e
  rename_i e6
  cases e
  exact ⟨e1, e2, e3, e4, e5, e6⟩

theorem hpMachine_ok {h : HpSearch D} {t : OptTrial} (ht : OptunaTrial t) {p : HpParams} {tr : HpData D} {tm : TM}
    (e : h.params t = .ok p) (em : hpMachine p tr = .ok tm) : TrialMachine h tr tm p.budget p.epochs := by
  obtain ⟨e1, e2, e3, e4, e5, e6⟩ := params_ok e
  unfold hpMachine TM.new at em
  dsimp only at em
  split at em
  · cases em
  split at em
  · cases em
  cases em
  refine ⟨rfl, ?_, ⟨p.s, rfl, pickS_in ht e1⟩, pickInt_in ht e2, pickInt_in ht e3, rfl, pickInt_in ht e4, pickInt_in ht e5,
    ?_, rfl⟩
  · simp [List.card_toFinset]
  · intro hb
    unfold HpSearch.pickBoost at e6
    rw [hb] at e6
    exact (Except.ok.inj e6).symm

theorem pickInt_recorded {t : OptTrial} {name : String} {sp : IntSpace} {v : Int} (h : t.pickInt name sp = .ok v) :
    RecordedInt t name sp v := by
  match sp, h with
  | .int _, _ => trivial
  | .bool _, _ => trivial
  | .tuple [_, _], h => exact h
  | .tuple [_, _, _], h => exact h
  | .tuple (_ :: _ :: _ :: _ :: _), h => exact h

theorem pickS_recorded {t : OptTrial} {sp : FloatSpace} {v : Rat} (h : t.pickS sp = .ok v) : RecordedFloat t "s" sp v := by
  match sp, h with
  | .float _, _ => trivial
  | .tuple [_, _], h => exact h
  | .tuple [_, _, _], h => exact h
  | .tuple (_ :: _ :: _ :: _ :: _), h => exact h

theorem hpMachine_recorded {h : HpSearch D} {t : OptTrial} (ht : OptunaTrial t) {p : HpParams} {tr : HpData D} {tm : TM}
    (e : h.params t = .ok p) (em : hpMachine p tr = .ok tm) : TrialRecord t h tm p.budget p.epochs := by
  obtain ⟨e1, e2, e3, e4, e5, e6⟩ := params_ok e
  unfold hpMachine TM.new at em
  dsimp only at em
  split at em
  · cases em
  split at em
  · cases em
  cases em
  refine ⟨?_, pickInt_recorded e2, pickInt_recorded e3, pickInt_recorded e4, pickInt_recorded e5, ?_⟩
  · intro s hs
    simp at hs
    subst hs
    exact pickS_recorded e1
  · intro hb
    unfold HpSearch.pickBoost at e6
    rw [if_pos hb] at e6
    cases hv : t.int "boost_true_positives" 0 1 1 with
    | error x => rw [hv] at e6; cases e6
    | ok v =>
      rw [hv] at e6
      have hg := ht.int _ _ _ _ _ hv
      have h0 : 0 ≤ v := by exact_mod_cast hg.1
      have h1 : v ≤ 1 := by exact_mod_cast hg.2.1
      refine ⟨v, rfl, by omega, ?_⟩
      have : p.boost = decide (v ≠ 0) := (Except.ok.inj e6).symm
      simp only [this]
      simp
      omega

theorem objective_ok {env : EnvOf S St D} {split : Int → Int → List (List Nat × List Nat)} {h : HpSearch D} {t : OptTrial}
    {r : Rat × Option Int} (e : h.objective env split t = .ok r) :
    ∃ tr ev p tm log, h.trainData = .val tr ∧ h.evalData = .val ev ∧ h.params t = .ok p ∧ hpMachine p tr = .ok tm ∧
      hpEvalLog env split h tm p.epochs tr ev = .ok log ∧ log.getLast? = some r.1 ∧
      r.2 = (if h.minimize then tm.budgets.head?.getD none else none) := by
  unfold HpSearch.objective at e
  split at e
  · cases e
  rename_i tr ev e1
  split at e
  · cases e
  rename_i p e2
  split at e
  · cases e
  rename_i tm e3
  split at e
  · cases e
  rename_i log e4
  split at e
  · cases e
  rename_i v e5
  cases e
  have hd : h.trainData = .val tr ∧ h.evalData = .val ev := by
    unfold HpSearch.checkData at e1
    cases he : h.evalData with
    | unset => rw [he] at e1; cases e1
    | none => rw [he] at e1; cases e1
    | val a =>
      rw [he] at e1
      cases htr : h.trainData with
      | unset => rw [htr] at e1; cases e1
      | none => rw [htr] at e1; cases e1
      | val b =>
        rw [htr] at e1
        simp only [Except.ok.injEq, Prod.mk.injEq] at e1
        exact ⟨by rw [e1.1], by rw [e1.2]⟩
  exact ⟨tr, ev, p, tm, log, hd.1, hd.2, e2, e3, e4, e5, rfl⟩

/-- **C51**, without cross-validation: when a trial succeeds, it trained a new machine for the training data with all
parameters in the ranges given and equal to what Optuna records under their names, and returns the evaluation score of
the last epoch that ran, with the sampled budget if that is to be minimised. The documentation promises the best score: see `C51_not_the_best`. -/
theorem C51_trial_partial (env : EnvOf S St D) (split : Int → Int → List (List Nat × List Nat)) (h : HpSearch D) (t : OptTrial)
    (ht : OptunaTrial t) (hk : h.kFolds ≤ 1) (score : Rat) (b : Option Int)
    (e : h.objective env split t = .ok (score, b)) :
    ∃ (tr ev : HpData D) (tm : TM) (budget epochs : Int) (n : Nat) (early : Bool),
      h.trainData = .val tr ∧ h.evalData = .val ev ∧ TrialMachine h tr tm budget epochs ∧ TrialRecord t h tm budget epochs ∧
      b = (if h.minimize then some budget else none) ∧
      (let E := env tm h.nJobs h.seed tr.rows ev.rows
       RanEpochs epochs 1 (scoreOf E (E.start none)) n early ∧ 1 ≤ n ∧ score = scoreOf E (E.start none) (n - 1)) := by
  obtain ⟨tr, ev, p, tm, log, h1, h2, h3, h4, h5, h6, h7⟩ := objective_ok e
  have hm := hpMachine_ok ht h3 h4
  have hrec := hpMachine_recorded ht h3 h4
  unfold hpEvalLog at h5
  rw [if_neg (by omega)] at h5
  by_cases hn : p.epochs < 1
  · rw [C30_no_epochs _ _ _ (show (newTrainer St p.epochs).nEpochs < 1 from hn)] at h5
    simp [newTrainer] at h5
  obtain ⟨r, hr, hl1, hl2, hran⟩ := C30_logs (env tm h.nJobs h.seed tr.rows ev.rows) (newTrainer St p.epochs) none
    (show 1 ≤ p.epochs by omega)
  rw [hr] at h5
  obtain rfl := Except.ok.inj h5
  have hpos : 1 ≤ r.nEpochs := by
    rcases hran with ⟨-, e, -⟩ | ⟨-, e, -⟩
    · have : (newTrainer St p.epochs).nEpochs = p.epochs := rfl
      omega
    · exact e
  refine ⟨tr, ev, tm, p.budget, p.epochs, r.nEpochs, r.early, h1, h2, hm, hrec, ?_, hran, hpos, ?_⟩
  · rw [show b = _ from h7, hm.budgets]; rfl
  · rw [hl2, List.getLast?_map, List.getLast?_range, if_neg (by omega)] at h6
    exact (Option.some.inj h6).symm

/-- **C51**, with cross-validation: the score is that of the last epoch of the last fold; the other folds do not count
(except that the last fold's machine starts from what they learned, `C33_folds_leak`). -/
theorem C51_folds_partial (env : EnvOf S St D) (split : Int → Int → List (List Nat × List Nat)) (h : HpSearch D) (t : OptTrial)
    (ht : OptunaTrial t) (hk : 1 < h.kFolds) (score : Rat) (b : Option Int)
    (e : h.objective env split t = .ok (score, b)) :
    ∃ (tr ev : HpData D) (tm : TM) (budget epochs : Int) (f : List Nat × List Nat) (st : Option St) (n : Nat),
      h.trainData = .val tr ∧ h.evalData = .val ev ∧ TrialMachine h tr tm budget epochs ∧ TrialRecord t h tm budget epochs ∧
      b = (if h.minimize then some budget else none) ∧ (split h.kFolds h.seed).getLast? = some f ∧
      (let E := env tm h.nJobs h.seed (gather (tr.rows ++ ev.rows) f.1) (gather (tr.rows ++ ev.rows) f.2)
       1 ≤ n ∧ (n : Int) ≤ epochs ∧ score = scoreOf E (E.start st) (n - 1)) := by
  obtain ⟨tr, ev, p, tm, log, h1, h2, h3, h4, h5, h6, h7⟩ := objective_ok e
  have hm := hpMachine_ok ht h3 h4
  have hrec := hpMachine_recorded ht h3 h4
  unfold hpEvalLog at h5
  rw [if_pos hk] at h5
  by_cases hs : (split h.kFolds h.seed) = []
  · rw [hs] at h5
    simp only [Trainer.trainFolds, foldLoop, Except.map, Except.ok.injEq] at h5
    rw [← h5] at h6
    simp at h6
  by_cases hn : p.epochs < 1
  · obtain ⟨f, fs, hfs⟩ := List.exists_cons_of_ne_nil hs
    rw [hfs] at h5
    simp only [Trainer.trainFolds, foldLoop] at h5
    rw [C30_no_epochs _ _ _ (show (newTrainer St p.epochs).nEpochs < 1 from hn)] at h5
    simp [newTrainer, Except.map] at h5
  obtain ⟨t', tm', r, starts, q1, -, q3, -, q5, q6, -⟩ := C33_fold_logs_partial (env tm h.nJobs h.seed) tr.rows ev.rows
    (split h.kFolds h.seed) h.kFolds (newTrainer St p.epochs) none (show 1 ≤ p.epochs by omega)
  rw [q1] at h5
  simp only [Except.map, Except.ok.injEq] at h5
  rw [← h5, q6] at h6
  have hst : starts ≠ [] := by
    intro hc
    rw [hc] at q3
    exact hs (List.length_eq_zero_iff.mp q3.symm)
  obtain ⟨fs, f, hf⟩ : ∃ fs f, split h.kFolds h.seed = fs ++ [f] :=
    ⟨_, _, (List.dropLast_append_getLast hs).symm⟩
  obtain ⟨ss, st, hss⟩ : ∃ ss st, starts = ss ++ [st] := ⟨_, _, (List.dropLast_append_getLast hst).symm⟩
  have hlen : fs.length = ss.length := by
    rw [hf, hss] at q3
    simpa using q3.symm
  have hst1 := q5 st (by rw [hss]; simp)
  rw [hf, hss, List.zipWith_append hlen] at h6
  simp only [List.zipWith_cons_cons, List.zipWith_nil_left, List.flatten_append, List.flatten_cons, List.flatten_nil,
    List.append_nil] at h6
  rw [List.getLast?_append_of_ne_nil _ (by
    intro hc
    have := congrArg List.length hc
    simp at this
    omega)] at h6
  rw [List.getLast?_map, List.getLast?_range, if_neg (by omega)] at h6
  refine ⟨tr, ev, tm, p.budget, p.epochs, f, st.1, st.2, h1, h2, hm, hrec, ?_, by rw [hf]; simp, hst1.1, hst1.2, ?_⟩
  · rw [show b = _ from h7, hm.budgets]; rfl
  · exact (Option.some.inj h6).symm

/-- A trial that always answers with the lower bound. -/
def lowTrial : OptTrial := ⟨fun _ low high _ => if low ≤ high then .ok low else .error .valueError,
  fun _ low high _ => if low ≤ high then .ok low else .error .valueError⟩

theorem lowTrial_ok : OptunaTrial lowTrial where
  float := by
    intro name low high step v h
    simp only [lowTrial] at h
    split at h
    · rename_i hl
      cases h
      exact ⟨le_refl _, hl, 0, by simp⟩
    · cases h
  int := by
    intro name low high step v h
    simp only [lowTrial] at h
    split at h
    · rename_i hl
      cases h
      exact ⟨le_refl _, by exact_mod_cast hl, 0, by simp⟩
    · cases h

def exSearch (k : Int) : HpSearch Nat where
  sSpace := .tuple [2, 20]
  clauseSpace := .tuple [5, 10]
  threshSpace := .int 3
  epochSpace := .int 4
  budgetSpace := .tuple [3, 9, 2]
  boost := (false, true)
  minimize := true
  seed := 42
  nJobs := 1
  kFolds := k
  trainData := .val ⟨[0, 1, 2], [0, 1, 1], 4⟩
  evalData := .val ⟨[3, 4], [1, 0], 4⟩

def exEnvOf : EnvOf (Nat × DataSet) Nat Nat := fun _ _ _ _ _ => toyEnv toyScore

/-- **C51 fails**: the value returned for a trial is not the best evaluation score of the training: here a trial with the
scores 1/5, 1/2, 1/2 and 1/10 is reported to the search as 1/10. -/
theorem C51_not_the_best :
    ∃ (h : HpSearch Nat) (t : OptTrial) (env : EnvOf (Nat × DataSet) Nat Nat) (split : Int → Int → List (List Nat × List Nat)),
      OptunaTrial t ∧ h.objective env split t = .ok (1 / 10, some 3) ∧
      ∀ tm, hpEvalLog env split h tm 4 ⟨[0, 1, 2], [0, 1, 1], 4⟩ ⟨[3, 4], [1, 0], 4⟩ = .ok [1 / 5, 1 / 2, 1 / 2, 1 / 10] := by
  refine ⟨exSearch 1, lowTrial, exEnvOf, fun _ _ => [], lowTrial_ok, by decide +kernel, ?_⟩
  intro tm
  refine Eq.trans (b := hpEvalLog exEnvOf (fun _ _ => []) (exSearch 1) ⟨4, 5, 2, [2], 3, [], none, true, false, none, none⟩ 4
    ⟨[0, 1, 2], [0, 1, 1], 4⟩ ⟨[3, 4], [1, 0], 4⟩) rfl ?_
  decide +kernel

example : ∃ score b, (exSearch 1).objective exEnvOf (fun _ _ => []) lowTrial = .ok (score, b) := ⟨1 / 10, some 3, by decide +kernel⟩

example : ∃ score b, (exSearch 2).objective exEnvOf (fun _ _ => [([0, 1, 2], [3, 4]), ([3, 4], [0, 1, 2])]) lowTrial =
    .ok (score, b) := ⟨1 / 10, some 3, by decide +kernel⟩

/-- **C51 fails**: a fixed `s` given as an int is not used; every trial raises TypeError. -/
theorem C51_int_s_fails (env : EnvOf S St D) (split : Int → Int → List (List Nat × List Nat)) (h : HpSearch D) (t : OptTrial)
    (v : Int) (hs : h.sSpace = .int v) (tr ev : HpData D) (h1 : h.trainData = .val tr) (h2 : h.evalData = .val ev) :
    h.objective env split t = .error .typeError := by
  simp [HpSearch.objective, HpSearch.checkData, h1, h2, HpSearch.params, hs, OptTrial.pickS]

/-- **C51 fails**: the documented step without a third value is 1, but `s` is searched in steps of 0.1. -/
theorem C51_s_step_default : ∃ (t : OptTrial), OptunaTrial t ∧ t.pickS (.tuple [2, 20]) = .ok (21 / 10) ∧
    ¬ OnGrid 2 20 1 (21 / 10) := by
  refine ⟨⟨fun _ low high step => if 0 ≤ step ∧ low + step ≤ high then .ok (low + step) else .error .valueError,
    fun _ _ _ _ => .error .valueError⟩, ⟨?_, ?_⟩, by decide +kernel, ?_⟩
  · intro name low high step v h
    dsimp only at h
    split at h
    · rename_i hc
      cases h
      refine ⟨?_, hc.2, 1, by simp⟩
      have := add_le_add_right hc.1 low
      simpa using this
    · cases h
  · intro name low high step v h; cases h
  · rintro ⟨-, -, k, hk⟩
    have h1 : (k : Rat) = 1 / 10 := by
      have : (k : Rat) * 1 = 21 / 10 - 2 := by rw [hk]; exact (add_sub_cancel_left _ _).symm
      rw [mul_one] at this
      rw [this]
      decide +kernel
    have h2 : (10 * k : Rat) = 1 := by rw [h1]; decide +kernel
    have h3 : (10 * k : Nat) = 1 := by exact_mod_cast h2
    omega

/-- **C51 fails**: before data are set, a trial raises AttributeError instead of the intended ValueError. -/
theorem C51_unset_data (env : EnvOf S St D) (split : Int → Int → List (List Nat × List Nat)) (h : HpSearch D) (t : OptTrial)
    (he : h.evalData = .unset) : h.objective env split t = .error .attributeError := by
  simp [HpSearch.objective, HpSearch.checkData, he]

/-- **C51**: if the training labels are exactly `0, ..., k-1`, the machine of a trial has `k` classes. -/
theorem C51_classes_partial (h : HpSearch D) (tr : HpData D) (tm : TM) (budget epochs : Int)
    (hm : TrialMachine h tr tm budget epochs) (k : Nat) (hl : ∀ y, y ∈ tr.labels ↔ y < k) : tm.nClasses = k := by
  rw [hm.classes]
  have : tr.labels.toFinset = Finset.range k := by
    ext y
    simp [hl]
  rw [this, Finset.card_range]

/-- **C51 fails**: if the training labels leave out a class, the machine has too few classes for them. -/
theorem C51_label_gap : ∃ (h : HpSearch Nat) (tr : HpData Nat) (tm : TM) (budget epochs : Int),
    TrialMachine h tr tm budget epochs ∧ ∃ y ∈ tr.labels, ¬ (y : Int) < tm.nClasses := by
  have h3 : (exSearch 1).params lowTrial = .ok ⟨2, 5, 3, 3, 4, true⟩ := by rfl
  refine ⟨exSearch 1, ⟨[0, 1, 2], [0, 2, 2], 4⟩, _, _, _, hpMachine_ok lowTrial_ok h3 rfl, 2, by simp, ?_⟩
  decide

/-- **C51**: `optimize` makes the trials asked for, one after the other, and tells the study exactly the values the
objective returned; the trial is asked for after all earlier values are known. -/
theorem C51_optimize {V : Type} (ask : List V → OptTrial) (obj : OptTrial → Except PyErr V) (n : Nat) (old new : List V)
    (h : optimizeLoop ask obj n old = .ok new) :
    new.length = old.length + n ∧ new.take old.length = old ∧
    ∀ i, i < n → ∃ v, new[old.length + i]? = some v ∧ obj (ask (new.take (old.length + i))) = .ok v := by
  induction n generalizing old with
  | zero => cases h; simp
  | succ n ih =>
    unfold optimizeLoop at h
    split at h
    · cases h
    rename_i v hv
    obtain ⟨h1, h2, h3⟩ := ih (old ++ [v]) h
    rw [List.length_append, List.length_singleton] at h1 h2 h3
    have hold : new.take old.length = old := by
      have := congrArg (List.take old.length) h2
      rw [List.take_take, List.take_left'] at this
      · rwa [Nat.min_eq_left (by omega)] at this
      · rfl
    refine ⟨by omega, hold, ?_⟩
    intro i hi
    rcases i with _ | i
    · refine ⟨v, ?_, by rw [Nat.add_zero, hold]; exact hv⟩
      have := congrArg (·[old.length]?) h2
      simpa [List.getElem?_take] using this
    · obtain ⟨w, hw1, hw2⟩ := h3 i (by omega)
      rw [show old.length + 1 + i = old.length + (i + 1) by omega] at hw1 hw2
      exact ⟨w, hw1, hw2⟩

example : optimizeLoop (fun _ => lowTrial) ((exSearch 1).objective exEnvOf fun _ _ => []) 2 [] =
    .ok [(1 / 10, some 3), (1 / 10, some 3)] := by decide +kernel

end GT

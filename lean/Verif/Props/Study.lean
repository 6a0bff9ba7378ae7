import Verif.Lemmas.Study
import Verif.Props.HpSearch

/-!
# Hyper-parameter search over several trials: C89
-/

namespace GT
open Spec

section
variable {T : Type} (sampler : Study T → T) (obj : T → Except PyErr (List Rat)) (minimize : Bool) (n : Int)
  (key : Option (String × String)) (w : SearchWorld T)

/-- **C89**: an `optimize` that returns has run exactly the number of trials asked for, each chosen from all earlier trials and told
what the objective returned for it; they are stored behind the earlier trials of the study, no other study is changed, and
`best_trials` are the completed trials of the whole study that no completed one beats. -/
theorem C89_optimize_partial (st : Study T) (hst : StudyFound w.store key minimize st) (hv : ValidStudy st) (w' : SearchWorld T)
    (h : optimizeRun sampler obj minimize n key w = (w', none)) :
    ∃ new bs, new.length = n.toNat ∧ (∀ i, i < n.toNat → TrialDone sampler obj st new i) ∧
      StudyStored w.store w'.store key ⟨st.dirs, st.trials ++ new⟩ ∧
      w'.best = .val bs ∧ BestOf ⟨st.dirs, st.trials ++ new⟩ bs := by
  unfold optimizeRun at h
  rw [StudyL.found_unique hst] at h
  obtain ⟨new, h1, h2⟩ := StudyL.loop sampler obj n.toNat st
  dsimp only at h
  split at h
  · cases h
  rename_i he
  rw [he] at h2
  cases h
  rw [h1]
  refine ⟨new, _, h2.1, h2.2, StudyL.kept _ _ _, rfl, StudyL.bestOf (StudyL.valid_after hv fun i hi => .inl (h2.2 i (h2.1 ▸ hi)))⟩

/-- **C89**: an exception in trial `k` reaches the caller; `best_trials` stays what it was, the finished trials stay in the study
and the one that raised stays unfinished. The only other exception is IndexError, for a study without any best trial. -/
theorem C89_interrupted (st : Study T) (hst : StudyFound w.store key minimize st) (w' : SearchWorld T) (e : PyErr)
    (h : optimizeRun sampler obj minimize n key w = (w', some e)) :
    w'.best = w.best ∧ ∃ (new : List (StudyTrial T)) (k : Nat), (k : Int) < n ∧ new.length = k + 1 ∧ (∀ i, i < k → TrialDone sampler obj st new i) ∧
      StudyStored w.store w'.store key ⟨st.dirs, st.trials ++ new⟩ ∧
      ((new[k]? = some ⟨sampler (studyAfter st new k), .running⟩ ∧ obj (sampler (studyAfter st new k)) = .error e) ∨
       (e = .indexError ∧ TrialDone sampler obj st new k ∧ Study.best ⟨st.dirs, st.trials ++ new⟩ = [])) := by
  unfold optimizeRun at h
  rw [StudyL.found_unique hst] at h
  obtain ⟨new, h1, h2⟩ := StudyL.loop sampler obj n.toNat st
  dsimp only at h
  split at h
  · rename_i e' he
    rw [he] at h2
    cases h
    obtain ⟨k, hk, h3, h4, h5⟩ := h2
    rw [h1] at h5 ⊢
    exact ⟨rfl, new, k, by omega, h3, h4, StudyL.kept _ _ _, h5⟩
  · cases h

/-- **C89**: with one value for every direction of the study (`C89_values` for the search's own objective), every exception is one
the objective raised. -/
theorem C89_only_the_objective_raises (st : Study T) (hst : StudyFound w.store key minimize st) (hv : ValidStudy st)
    (hobj : ∀ t values, obj t = .ok values → values.length = st.dirs.length) (w' : SearchWorld T) (e : PyErr)
    (h : optimizeRun sampler obj minimize n key w = (w', some e)) : ∃ t, obj t = .error e := by
  obtain ⟨_, new, k, _, h2, h3, _, h5⟩ := C89_interrupted sampler obj minimize n key w st hst w' e h
  rcases h5 with ⟨_, h5⟩ | ⟨_, h5, h6⟩
  · exact ⟨_, h5⟩
  · exfalso
    have hall : ∀ i, i < new.length → TrialDone sampler obj st new i := by
      intro i hi
      rcases Nat.lt_or_ge i k with h | h
      · exact h3 i h
      · rw [show i = k by omega]; exact h5
    obtain ⟨t, values, g1, _, g3, g4⟩ := h5
    rw [if_pos (hobj _ _ g3)] at g4
    refine StudyL.best_ne_nil (StudyL.valid_after hv fun i hi => .inl (hall i hi)) ?_ g4 h6
    exact List.mem_append.2 (.inr (List.mem_iff_getElem?.2 ⟨k, g1⟩))

/-- **C89**: every completed trial of the study is among `best_trials` or is beaten by one of them. -/
theorem C89_best_covers (st : Study T) (hv : ValidStudy st) (bs : List (StudyTrial T)) (h : BestOf st bs) (t : StudyTrial T)
    (ht : t ∈ st.trials) (v : List Rat) (hs : t.state = .complete v) :
    t ∈ bs ∨ ∃ u ∈ bs, ∃ x, u.state = .complete x ∧ Beats st.dirs x v := by
  obtain ⟨p, hp, rfl⟩ := h
  rcases StudyL.covered hv ht hs with g | ⟨u, hu, g, x, hx, hb⟩
  · exact .inl (List.mem_filter.2 ⟨ht, (hp t ht).2 g⟩)
  · exact .inr ⟨u, List.mem_filter.2 ⟨hu, (hp u hu).2 g⟩, x, hx, hb⟩

/-- **C89**: when only the score is maximised, `best_trials` are the completed trials with the highest score of the study. -/
theorem C89_best_is_highest (st : Study T) (hd : st.dirs = [.maximize]) (hv : ValidStudy st) (bs : List (StudyTrial T))
    (h : BestOf st bs) (t : StudyTrial T) :
    t ∈ bs ↔ t ∈ st.trials ∧ ∃ x, t.state = .complete [x] ∧ ∀ u ∈ st.trials, ∀ y, u.state = .complete [y] → y ≤ x := by
  obtain ⟨p, hp, rfl⟩ := h
  rw [List.mem_filter]
  have key : ∀ x y : Rat, Beats [.maximize] [x] [y] ↔ y < x := by
    intro x y
    constructor
    · rintro ⟨_, i, d, a, b, h1, h2, h3, h4⟩
      cases i with
      | zero => cases h1; cases h2; cases h3; exact h4
      | succ i => simp at h1
    · intro hlt
      refine ⟨?_, 0, .maximize, x, y, rfl, rfl, rfl, hlt⟩
      intro i d a b h1 h2 h3
      cases i with
      | zero => cases h1; cases h2; cases h3; exact le_of_lt hlt
      | succ i => simp at h1
  constructor
  · rintro ⟨ht, hb⟩
    refine ⟨ht, ?_⟩
    obtain ⟨v, hs, hall⟩ := (hp t ht).1 hb
    have hl := hv t ht v hs
    rw [hd] at hl hall
    match v, hl with
    | [x], _ =>
      refine ⟨x, hs, ?_⟩
      intro u hu y hy
      exact not_lt.1 fun hlt => hall u hu [y] hy ((key y x).2 hlt)
  · rintro ⟨ht, x, hs, hall⟩
    refine ⟨ht, (hp t ht).2 ⟨[x], hs, ?_⟩⟩
    intro u hu z hz hb
    have hl := hv u hu z hz
    rw [hd] at hl hb
    match z, hl with
    | [y], _ => exact absurd ((key y x).1 hb) (not_lt.2 (hall u hu y hz))

/-- **C89**: an interrupted search is continued: `n` trials and then `m` more of a stored study give the same storage, the same best
trials and the same exception as `n + m` trials in one call. -/
theorem C89_continue (k : String × String) (m : Int) (hn : 0 ≤ n) (hm : 0 ≤ m) (w1 : SearchWorld T)
    (h : optimizeRun sampler obj minimize n (some k) w = (w1, none)) (w2 : SearchWorld T) (e : Option PyErr)
    (h2 : optimizeRun sampler obj minimize m (some k) w1 = (w2, e)) :
    ∃ w3, optimizeRun sampler obj minimize (n + m) (some k) w = (w3, e) ∧ w3.store = w2.store ∧ (e = none → w3.best = w2.best) := by
  have split : ∀ (a b : Nat) (st : Study T), (optimizeTrials sampler obj a st).2 = none →
      optimizeTrials sampler obj (a + b) st = optimizeTrials sampler obj b (optimizeTrials sampler obj a st).1 := by
    intro a b
    induction a with
    | zero => intro st _; rw [Nat.zero_add]; rfl
    | succ a ih =>
      intro st hnone
      have step : ∀ c values b bs, obj (sampler st) = .ok values →
          ((st.ask sampler).2.tell st.trials.length values).best = b :: bs →
          optimizeTrials sampler obj (c + 1) st = optimizeTrials sampler obj c ((st.ask sampler).2.tell st.trials.length values) := by
        intro c values b bs ho hb
        conv_lhs => unfold optimizeTrials
        simp only [Study.ask] at hb ⊢
        rw [ho]
        dsimp only
        rw [hb]
      cases ho : obj (sampler st) with
      | error e' => unfold optimizeTrials at hnone; simp [Study.ask, ho] at hnone
      | ok values =>
        cases hb : ((st.ask sampler).2.tell st.trials.length values).best with
        | nil =>
          unfold optimizeTrials at hnone
          simp only [Study.ask] at hb hnone
          rw [ho] at hnone
          dsimp only at hnone
          rw [hb] at hnone
          cases hnone
        | cons x xs =>
          rw [step a values x xs ho hb] at hnone ⊢
          rw [show a + 1 + b = (a + b) + 1 by omega, step (a + b) values x xs ho hb]
          exact ih _ hnone
  unfold optimizeRun at h h2 ⊢
  dsimp only at h h2 ⊢
  cases hnone : (optimizeTrials sampler obj n.toNat (createStudy w.store (some k) (studyDirs minimize))).2 with
  | some e' => rw [hnone] at h; cases h
  | none =>
    rw [hnone] at h
    cases h
    have hsplit := split n.toNat m.toNat _ hnone
    rw [← Int.toNat_add hn hm] at hsplit
    have hc : createStudy (keepStudy w.store (some k) (optimizeTrials sampler obj n.toNat
        (createStudy w.store (some k) (studyDirs minimize))).1) (some k) (studyDirs minimize) =
        (optimizeTrials sampler obj n.toNat (createStudy w.store (some k) (studyDirs minimize))).1 := by
      simp [createStudy, keepStudy]
    dsimp only at h2
    rw [hc] at h2
    rw [hsplit]
    have hk : ∀ (a b : Study T), keepStudy (keepStudy w.store (some k) a) (some k) b = keepStudy w.store (some k) b := by
      intro a b
      funext k'
      simp only [keepStudy]
      split <;> rfl
    split at h2
    · rename_i e' he
      cases h2
      exact ⟨_, rfl, (hk _ _).symm, fun h => by cases h⟩
    · rename_i he
      cases h2
      exact ⟨_, rfl, (hk _ _).symm, fun _ => rfl⟩

/-- **C89**: without storage nothing is stored, and what is stored has no influence. -/
theorem C89_in_memory (w0 : SearchWorld T) (hb : w0.best = w.best) :
    (optimizeRun sampler obj minimize n none w).1.store = w.store ∧
    (optimizeRun sampler obj minimize n none w0).1.best = (optimizeRun sampler obj minimize n none w).1.best ∧
    (optimizeRun sampler obj minimize n none w0).2 = (optimizeRun sampler obj minimize n none w).2 := by
  unfold optimizeRun
  dsimp only [createStudy, Option.bind_none, keepStudy]
  cases (optimizeTrials sampler obj n.toNat ⟨studyDirs minimize, []⟩).2 with
  | none => exact ⟨rfl, rfl, rfl⟩
  | some e => exact ⟨rfl, hb, rfl⟩

/-- **C89** is false for a study that exists with another number of directions (`minimize_literal_budget` changed between the calls):
it is used as it is, every trial fails, and if the call returns, `best_trials` holds old trials only. -/
theorem C89_direction_conflict (st : Study T) (hst : StudyFound w.store key minimize st) (hv : ValidStudy st)
    (hobj : ∀ t values, obj t = .ok values → values.length ≠ st.dirs.length) (w' : SearchWorld T)
    (h : optimizeRun sampler obj minimize n key w = (w', none)) :
    ∃ new, new.length = n.toNat ∧ (∀ t ∈ new, t.state = .fail) ∧
      StudyStored w.store w'.store key ⟨st.dirs, st.trials ++ new⟩ ∧ ∃ bs, w'.best = .val bs ∧ BestOf st bs := by
  obtain ⟨new, bs, h1, h2, h3, h4, p, hp, h5⟩ := C89_optimize_partial sampler obj minimize n key w st hst hv w' h
  have hf : ∀ t ∈ new, t.state = .fail := by
    intro t ht
    obtain ⟨i, hi⟩ := List.mem_iff_getElem?.1 ht
    obtain ⟨u, values, g1, _, g3, g4⟩ := h2 i (h1 ▸ (List.getElem?_eq_some_iff.1 hi).1)
    rw [hi] at g1
    cases g1
    rw [if_neg (hobj _ _ g3)] at g4
    exact g4
  have hun : ∀ t, Unbeaten ⟨st.dirs, st.trials ++ new⟩ t ↔ Unbeaten st t := by
    intro t
    constructor
    · rintro ⟨v, g1, g2⟩
      exact ⟨v, g1, fun u hu => g2 u (List.mem_append.2 (.inl hu))⟩
    · rintro ⟨v, g1, g2⟩
      refine ⟨v, g1, fun u hu x hx => ?_⟩
      rcases List.mem_append.1 hu with hu | hu
      · exact g2 u hu x hx
      · rw [hf u hu] at hx; cases hx
  refine ⟨new, h1, hf, h3, bs, h4, p, fun t ht => ?_, ?_⟩
  · exact (hp t (List.mem_append.2 (.inl ht))).trans (hun t)
  · rw [h5]
    show List.filter p (st.trials ++ new) = _
    have hn : new.filter p = [] := by
      rw [List.filter_eq_nil_iff]
      intro t ht hpt
      obtain ⟨v, g1, _⟩ := (hp t (List.mem_append.2 (.inr ht))).1 hpt
      rw [hf t ht] at g1
      cases g1
    rw [List.filter_append, hn, List.append_nil]

end

/-- **C89**: the objective of a search returns one value for every direction of a study made for it: the score and, if the budget
is minimised, the literal budget the trial was trained with. -/
theorem C89_values {S St D : Type} (env : EnvOf S St D) (split : Int → Int → List (List Nat × List Nat)) (h : HpSearch D)
    (t : OptTrial) (ht : OptunaTrial t) (values : List Rat) (hv : h.objectiveList env split t = .ok values)
    (store : StudyStore OptTrial) (key : Option (String × String)) (hk : ∀ k, key = some k → store k = none)
    (st : Study OptTrial) (hst : StudyFound store key h.minimize st) :
    values.length = st.dirs.length ∧ ∃ score budget, h.objective env split t = .ok (score, budget) ∧
      (h.minimize = false → values = [score]) ∧
      (h.minimize = true → ∃ b, budget = some b ∧ InIntSpace h.budgetSpace b ∧ values = [score, (b : Rat)]) := by
  unfold HpSearch.objectiveList at hv
  cases ho : h.objective env split t with
  | error e => rw [ho] at hv; cases hv
  | ok r =>
    rw [ho] at hv
    have hv' := Except.ok.inj hv
    obtain ⟨tr, ev, p, tm, log, _, _, hp, hm, _, _, h2⟩ := objective_ok ho
    have hT := hpMachine_ok ht hp hm
    rw [hT.budgets] at h2
    have hdirs : st.dirs = if h.minimize then [.maximize, .minimize] else [.maximize] := by
      rcases hst with ⟨k, rfl, hst⟩ | hst
      · rw [hk k rfl] at hst; cases hst
      · exact hst.2.2
    obtain ⟨score, budget⟩ := r
    dsimp only at h2
    subst hv'
    cases hmin : h.minimize with
    | false =>
      rw [hmin] at h2 hdirs
      have h2 : budget = none := h2
      subst h2
      rw [hdirs]
      exact ⟨rfl, score, none, rfl, fun _ => rfl, fun h => by cases h⟩
    | true =>
      rw [hmin] at h2 hdirs
      have h2 : budget = some p.budget := h2
      subst h2
      rw [hdirs]
      exact ⟨rfl, score, _, rfl, (fun h => by cases h), fun _ => ⟨_, rfl, hT.budget, rfl⟩⟩

/-- An objective for the examples: trial `i` scores `scores[i]`. -/
def toyObjective (scores : List Rat) (i : Nat) : Except PyErr (List Rat) :=
  match scores[i]? with
  | some s => .ok [s]
  | none => .error .zeroDivisionError

/-- A stored study with one trial of score 1/2. -/
def toyWorld : SearchWorld Nat := ⟨fun k => if k = ("db", "xor") then some ⟨[.maximize], [⟨7, .complete [1 / 2]⟩]⟩ else none, .unset⟩

/-- `C89_optimize_partial` is used: three more trials, the best of which ties with the stored one. -/
example : (optimizeRun (fun st => st.trials.length - 1) (toyObjective [1 / 4, 1 / 2, 1 / 3]) false 3 (some ("db", "xor")) toyWorld).2 = none ∧
    (match (optimizeRun (fun st => st.trials.length - 1) (toyObjective [1 / 4, 1 / 2, 1 / 3]) false 3 (some ("db", "xor")) toyWorld).1.best with
      | .val bs => bs | _ => []) = [⟨7, .complete [1 / 2]⟩, ⟨1, .complete [1 / 2]⟩] := by
  decide +kernel

example : StudyFound toyWorld.store (some ("db", "xor")) false ⟨[.maximize], [⟨7, .complete [1 / 2]⟩]⟩ := .inl ⟨_, rfl, rfl⟩

example : ValidStudy (T := Nat) ⟨[.maximize], [⟨7, .complete [1 / 2]⟩]⟩ := by
  intro t ht v hv
  simp at ht
  subst ht
  cases hv
  rfl

/-- `C89_interrupted` is used: the third trial raises. -/
example : (optimizeRun (fun st => st.trials.length - 1) (toyObjective [1 / 4, 1 / 2]) false 3 (some ("db", "xor")) toyWorld).2 =
    some .zeroDivisionError := by decide +kernel

/-- The same for the search of the other examples, in memory: two trials, both on the front. -/
example : (optimizeRun (fun _ => lowTrial) ((exSearch 1).objectiveList exEnvOf fun _ _ => []) (exSearch 1).minimize 2 none
      ⟨fun _ => none, .unset⟩).2 = none ∧
    (match (optimizeRun (fun _ => lowTrial) ((exSearch 1).objectiveList exEnvOf fun _ _ => []) (exSearch 1).minimize 2 none
      ⟨fun _ => none, .unset⟩).1.best with | .val bs => bs.map (·.state) | _ => []) =
      [.complete [1 / 10, 3], .complete [1 / 10, 3]] := by
  decide +kernel

/-- **C89 fails**: a search that minimises the budget, in a study made without: it returns without an exception, none of its trials
counts, and `best_trials` shows the old trial. -/
theorem C89_conflict_is_silent :
    let r := optimizeRun (fun st => st.trials.length - 1) (fun i => (toyObjective [1, 1] i).map (· ++ [5])) true 2 (some ("db", "xor")) toyWorld
    r.2 = none ∧ (match r.1.best with | .val bs => bs | _ => []) = [⟨7, .complete [1 / 2]⟩] ∧
      (r.1.store ("db", "xor")).map (fun st => st.trials.map (·.state)) = some [.complete [1 / 2], .fail, .fail] := by
  decide +kernel

/-- **C89 fails**: in a study without completed trials the first such trial raises IndexError. -/
theorem C89_conflict_index_error :
    (optimizeRun (fun st => st.trials.length) (fun i => (toyObjective [1, 1] i).map (· ++ [5])) true 2 (some ("db", "xor"))
      ⟨fun k => if k = ("db", "xor") then some ⟨[.maximize], []⟩ else none, .unset⟩).2 = some .indexError := by
  decide +kernel

end GT

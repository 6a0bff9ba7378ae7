import Verif.Spec.Study
import Mathlib.Algebra.Order.Ring.Rat

/-! # Lemmas about studies -/

namespace GT.StudyL
open GT Spec

theorem norm_le {d : StudyDir} {x y : Rat} : studyNorm d x ≤ studyNorm d y ↔ AsGood d x y := by
  cases d <;> simp [studyNorm, AsGood]

theorem norm_lt {d : StudyDir} {x y : Rat} : studyNorm d x < studyNorm d y ↔ Better d x y := by
  cases d <;> simp [studyNorm, Better]

theorem dominates_iff {dirs : List StudyDir} {a b : List Rat} (ha : a.length = dirs.length) (hb : b.length = dirs.length) :
    studyDominates dirs a b = true ↔ Beats dirs a b := by
  unfold studyDominates
  have hall : ((List.zip (List.zipWith studyNorm dirs a) (List.zipWith studyNorm dirs b)).all fun p => decide (p.1 ≤ p.2)) = true ↔
      ∀ (i : Nat) d x y, dirs[i]? = some d → a[i]? = some x → b[i]? = some y → AsGood d x y := by
    rw [List.all_eq_true]
    constructor
    · intro h i d x y h1 h2 h3
      have hm : (studyNorm d x, studyNorm d y) ∈ List.zip (List.zipWith studyNorm dirs a) (List.zipWith studyNorm dirs b) := by
        refine List.mem_iff_getElem?.2 ⟨i, ?_⟩
        rw [List.getElem?_zip_eq_some]
        exact ⟨List.getElem?_zipWith_eq_some.2 ⟨d, x, h1, h2, rfl⟩, List.getElem?_zipWith_eq_some.2 ⟨d, y, h1, h3, rfl⟩⟩
      exact norm_le.1 (of_decide_eq_true (h _ hm))
    · rintro h ⟨p, q⟩ hm
      obtain ⟨i, hi⟩ := List.mem_iff_getElem?.1 hm
      rw [List.getElem?_zip_eq_some] at hi
      obtain ⟨d, x, h1, h2, rfl⟩ := List.getElem?_zipWith_eq_some.1 hi.1
      obtain ⟨d', y, h1', h3, rfl⟩ := List.getElem?_zipWith_eq_some.1 hi.2
      rw [h1] at h1'
      cases h1'
      exact decide_eq_true (norm_le.2 (h i d x y h1 h2 h3))
  dsimp only
  split
  · rename_i heq
    constructor
    · intro h; cases h
    · rintro ⟨_, i, d, x, y, h1, h2, h3, h4⟩
      have e1 : (List.zipWith studyNorm dirs a)[i]? = some (studyNorm d x) :=
        List.getElem?_zipWith_eq_some.2 ⟨d, x, h1, h2, rfl⟩
      have e2 : (List.zipWith studyNorm dirs b)[i]? = some (studyNorm d y) :=
        List.getElem?_zipWith_eq_some.2 ⟨d, y, h1, h3, rfl⟩
      rw [heq, e2] at e1
      have := norm_lt.2 h4
      rw [Option.some.inj e1] at this
      exact absurd this (lt_irrefl _)
  · rename_i hne
    rw [hall]
    constructor
    · intro h
      refine ⟨h, ?_⟩
      apply Classical.byContradiction
      intro hno
      apply hne
      apply List.ext_getElem?
      intro i
      by_cases hi : i < dirs.length
      · have h1 : dirs[i]? = some dirs[i] := List.getElem?_eq_getElem hi
        have h2 : a[i]? = some a[i] := List.getElem?_eq_getElem (ha ▸ hi)
        have h3 : b[i]? = some b[i] := List.getElem?_eq_getElem (hb ▸ hi)
        rw [List.getElem?_zipWith_eq_some.2 ⟨_, _, h1, h2, rfl⟩, List.getElem?_zipWith_eq_some.2 ⟨_, _, h1, h3, rfl⟩]
        refine congrArg some (le_antisymm (norm_le.2 (h i _ _ _ h1 h2 h3)) (not_lt.1 fun hlt => hno ?_))
        exact ⟨i, _, _, _, h1, h2, h3, norm_lt.1 hlt⟩
      · rw [List.getElem?_eq_none (by simp; omega), List.getElem?_eq_none (by simp; omega)]
    · exact fun h => h.1

theorem isBest_iff {T : Type} {st : Study T} (hv : ValidStudy st) {t : StudyTrial T} (ht : t ∈ st.trials) :
    st.isBest t = true ↔ Unbeaten st t := by
  unfold Study.isBest Unbeaten
  cases hs : t.state with
  | running => simp
  | fail => simp
  | complete v =>
    simp only [TrialState.complete.injEq, exists_eq_left', Bool.not_eq_true', List.any_eq_false]
    constructor
    · intro h u hu w hw hb
      have := h u hu
      rw [hw] at this
      exact this ((dominates_iff (hv u hu w hw) (hv t ht v hs)).2 hb)
    · intro h u hu
      cases hw : u.state with
      | running => simp
      | fail => simp
      | complete w =>
        intro hd
        exact h u hu w hw ((dominates_iff (hv u hu w hw) (hv t ht v hs)).1 hd)

theorem bestOf {T : Type} {st : Study T} (hv : ValidStudy st) : BestOf st st.best :=
  ⟨st.isBest, fun _ ht => isBest_iff hv ht, rfl⟩

/-- The sum of the normalised values decreases along `Beats`. -/
theorem sum_lt : ∀ {dirs : List StudyDir} {a b : List Rat}, a.length = dirs.length → b.length = dirs.length → Beats dirs a b →
    (List.zipWith studyNorm dirs a).sum < (List.zipWith studyNorm dirs b).sum := by
  have le : ∀ (dirs : List StudyDir) (a b : List Rat), a.length = dirs.length → b.length = dirs.length →
      (∀ (i : Nat) d x y, dirs[i]? = some d → a[i]? = some x → b[i]? = some y → AsGood d x y) →
      (List.zipWith studyNorm dirs a).sum ≤ (List.zipWith studyNorm dirs b).sum := by
    intro dirs
    induction dirs with
    | nil => intro a b _ _ _; simp
    | cons d ds ih =>
      intro a b ha hb h
      match a, b, ha, hb with
      | x :: xs, y :: ys, ha, hb =>
        simp only [List.zipWith_cons_cons, List.sum_cons]
        have h0 := norm_le.2 (h 0 d x y rfl rfl rfl)
        have := ih xs ys (by simpa using ha) (by simpa using hb) fun i => h (i + 1)
        exact add_le_add h0 this
  intro dirs
  induction dirs with
  | nil => rintro a b _ _ ⟨_, i, d, x, y, h1, _⟩; simp at h1
  | cons d ds ih =>
    rintro a b ha hb ⟨hall, i, e, p, q, h1, h2, h3, h4⟩
    match a, b, ha, hb with
    | x :: xs, y :: ys, ha, hb =>
      simp only [List.zipWith_cons_cons, List.sum_cons]
      have h0 := norm_le.2 (hall 0 d x y rfl rfl rfl)
      have ha' : xs.length = ds.length := by simpa using ha
      have hb' : ys.length = ds.length := by simpa using hb
      cases i with
      | zero =>
        cases h1; cases h2; cases h3
        exact add_lt_add_of_lt_of_le (norm_lt.2 h4) (le ds xs ys ha' hb' fun i => hall (i + 1))
      | succ i =>
        exact add_lt_add_of_le_of_lt h0 (ih ha' hb' ⟨fun i => hall (i + 1), i, e, p, q, h1, h2, h3, h4⟩)

theorem beats_trans {dirs : List StudyDir} {a b c : List Rat} (hb : b.length = dirs.length) (hc : c.length = dirs.length)
    (h1 : Beats dirs a b) (h2 : Beats dirs b c) : Beats dirs a c := by
  have key : ∀ (i : Nat) d x z, dirs[i]? = some d → a[i]? = some x → c[i]? = some z →
      ∃ y, b[i]? = some y ∧ AsGood d x y ∧ AsGood d y z := by
    intro i d x z e1 e2 e3
    have hi : i < b.length := by rw [hb]; exact (List.getElem?_eq_some_iff.1 e1).1
    have e4 : b[i]? = some b[i] := List.getElem?_eq_getElem hi
    exact ⟨_, e4, h1.1 i d x _ e1 e2 e4, h2.1 i d _ z e1 e4 e3⟩
  refine ⟨?_, ?_⟩
  · intro i d x z e1 e2 e3
    obtain ⟨y, _, g1, g2⟩ := key i d x z e1 e2 e3
    cases d
    · exact le_trans g2 g1
    · exact le_trans g1 g2
  · obtain ⟨i, d, x, y, e1, e2, e3, e4⟩ := h1.2
    have hi : i < c.length := by rw [hc]; exact (List.getElem?_eq_some_iff.1 e1).1
    have e5 : c[i]? = some c[i] := List.getElem?_eq_getElem hi
    refine ⟨i, d, x, _, e1, e2, e5, ?_⟩
    have g := h2.1 i d _ _ e1 e3 e5
    cases d
    · exact lt_of_le_of_lt g e4
    · exact lt_of_lt_of_le e4 g

/-- An element of a non-empty list with the least measure. -/
theorem exists_least {α : Type} (f : α → Rat) : ∀ (l : List α), l ≠ [] → ∃ x ∈ l, ∀ y ∈ l, f x ≤ f y := by
  intro l
  induction l with
  | nil => intro h; exact absurd rfl h
  | cons a l ih =>
    intro _
    by_cases hl : l = []
    · subst hl; exact ⟨a, by simp, by simp⟩
    obtain ⟨x, hx, hmin⟩ := ih hl
    rcases le_total (f a) (f x) with h | h
    · refine ⟨a, by simp, ?_⟩
      intro y hy
      rcases List.mem_cons.1 hy with rfl | hy
      · exact le_refl _
      · exact le_trans h (hmin y hy)
    · refine ⟨x, by simp [hx], ?_⟩
      intro y hy
      rcases List.mem_cons.1 hy with rfl | hy
      · exact h
      · exact hmin y hy

/-- Every completed trial is unbeaten or beaten by an unbeaten one. -/
theorem covered {T : Type} {st : Study T} (hv : ValidStudy st) {t : StudyTrial T} (ht : t ∈ st.trials) {v : List Rat}
    (hs : t.state = .complete v) : Unbeaten st t ∨ ∃ u ∈ st.trials, Unbeaten st u ∧ ∃ w, u.state = .complete w ∧ Beats st.dirs w v := by
  classical
  by_cases hu : Unbeaten st t
  · exact .inl hu
  refine .inr ?_
  let vals : StudyTrial T → List Rat := fun u => match u.state with
    | .complete w => w
    | _ => []
  let P : StudyTrial T → Prop := fun u => ∃ w, u.state = .complete w ∧ Beats st.dirs w v
  have hne : st.trials.filter (fun u => decide (P u)) ≠ [] := by
    intro he
    apply hu
    refine ⟨v, hs, ?_⟩
    intro u hu w hw hb
    have : u ∈ st.trials.filter (fun u => decide (P u)) := List.mem_filter.2 ⟨hu, decide_eq_true ⟨w, hw, hb⟩⟩
    rw [he] at this
    cases this
  obtain ⟨x, hx, hmin⟩ := exists_least (fun u => (List.zipWith studyNorm st.dirs (vals u)).sum) _ hne
  obtain ⟨hx1, hx2⟩ := List.mem_filter.1 hx
  obtain ⟨w, hw, hb⟩ := of_decide_eq_true hx2
  refine ⟨x, hx1, ⟨w, hw, ?_⟩, w, hw, hb⟩
  intro u hu z hz hzb
  have hu' : u ∈ st.trials.filter (fun u => decide (P u)) := by
    refine List.mem_filter.2 ⟨hu, decide_eq_true ⟨z, hz, ?_⟩⟩
    exact beats_trans (hv x hx1 w hw) (hv t ht v hs) hzb hb
  have h1 := hmin u hu'
  have h2 := sum_lt (hv u hu z hz) (hv x hx1 w hw) hzb
  have e1 : vals u = z := by simp [vals, hz]
  have e2 : vals x = w := by simp [vals, hw]
  rw [e1, e2] at h1
  exact absurd h2 (not_lt.2 h1)

/-- Some completed trial makes some best one. -/
theorem best_ne_nil {T : Type} {st : Study T} (hv : ValidStudy st) {t : StudyTrial T} (ht : t ∈ st.trials) {v : List Rat}
    (hs : t.state = .complete v) : st.best ≠ [] := by
  obtain ⟨u, hu, hb⟩ : ∃ u ∈ st.trials, Unbeaten st u := by
    rcases covered hv ht hs with h | ⟨u, hu, h, _⟩
    · exact ⟨t, ht, h⟩
    · exact ⟨u, hu, h⟩
  intro he
  have : u ∈ st.best := List.mem_filter.2 ⟨hu, (isBest_iff hv hu).2 hb⟩
  rw [he] at this
  cases this

theorem best_complete {T : Type} {st : Study T} {t : StudyTrial T} (h : t ∈ st.best) : ∃ v, t.state = .complete v := by
  have := (List.mem_filter.1 h).2
  unfold Study.isBest at this
  cases hs : t.state with
  | running => rw [hs] at this; cases this
  | fail => rw [hs] at this; cases this
  | complete v => exact ⟨v, rfl⟩

theorem modify_end {α : Type} (l : List α) (a : α) (f : α → α) : (l ++ [a]).modify l.length f = l ++ [f a] := by
  induction l with
  | nil => rfl
  | cons b l ih => simp [ih]

theorem ask_tell {T : Type} (sampler : Study T → T) (st : Study T) (values : List Rat) :
    (st.ask sampler).2.tell st.trials.length values = ⟨st.dirs, st.trials ++
      [⟨sampler st, if values.length = st.dirs.length then .complete values else .fail⟩]⟩ := by
  simp [Study.ask, Study.tell, modify_end]
  rfl

theorem trialDone_shift {T : Type} {sampler : Study T → T} {obj : T → Except PyErr (List Rat)} {st : Study T} {t : StudyTrial T}
    {new : List (StudyTrial T)} {i : Nat} (h : TrialDone sampler obj ⟨st.dirs, st.trials ++ [t]⟩ new i) :
    TrialDone sampler obj st (t :: new) (i + 1) := by
  obtain ⟨u, values, h1, h2, h3, h4⟩ := h
  refine ⟨u, values, by simpa using h1, ?_, h3, h4⟩
  rw [h2]
  simp [studyAfter]

theorem loop {T : Type} (sampler : Study T → T) (obj : T → Except PyErr (List Rat)) (n : Nat) (st : Study T) :
    ∃ new, (optimizeTrials sampler obj n st).1 = ⟨st.dirs, st.trials ++ new⟩ ∧
      match (optimizeTrials sampler obj n st).2 with
      | none => new.length = n ∧ ∀ i, i < n → TrialDone sampler obj st new i
      | some e => ∃ k, k < n ∧ new.length = k + 1 ∧ (∀ i, i < k → TrialDone sampler obj st new i) ∧
          ((new[k]? = some ⟨sampler (studyAfter st new k), .running⟩ ∧ obj (sampler (studyAfter st new k)) = .error e) ∨
           (e = .indexError ∧ TrialDone sampler obj st new k ∧ (optimizeTrials sampler obj n st).1.best = [])) := by
  induction n generalizing st with
  | zero => exact ⟨[], by simp [optimizeTrials]⟩
  | succ n ih =>
    cases ho : obj (sampler st) with
    | error e =>
      refine ⟨[⟨sampler st, .running⟩], ?_⟩
      have hE : optimizeTrials sampler obj (n + 1) st = ((st.ask sampler).2, some e) := by
        simp only [optimizeTrials, Study.ask, ho]
      rw [hE]
      refine ⟨rfl, 0, by omega, rfl, fun i hi => absurd hi (by omega), .inl ⟨?_, ?_⟩⟩
      · simp [studyAfter]
      · simpa [studyAfter] using ho
    | ok values =>
      let t : StudyTrial T := ⟨sampler st, if values.length = st.dirs.length then .complete values else .fail⟩
      have h0 : ∀ new, TrialDone sampler obj st (t :: new) 0 := fun new =>
        ⟨t, values, rfl, by simp [t, studyAfter], ho, rfl⟩
      cases hb : (Study.best ⟨st.dirs, st.trials ++ [t]⟩ : List (StudyTrial T)) with
      | nil =>
        have hE : optimizeTrials sampler obj (n + 1) st = (⟨st.dirs, st.trials ++ [t]⟩, some .indexError) := by
          have := ask_tell sampler st values
          simp only [optimizeTrials]
          simp only [Study.ask] at this ⊢
          rw [ho]
          dsimp only
          rw [this, hb]
        refine ⟨[t], ?_⟩
        rw [hE]
        exact ⟨rfl, 0, by omega, rfl, fun i hi => absurd hi (by omega), .inr ⟨rfl, h0 _, hb⟩⟩
      | cons b bs =>
        have hE : optimizeTrials sampler obj (n + 1) st = optimizeTrials sampler obj n ⟨st.dirs, st.trials ++ [t]⟩ := by
          have := ask_tell sampler st values
          conv_lhs => unfold optimizeTrials
          simp only [Study.ask] at this ⊢
          rw [ho]
          dsimp only
          rw [this, hb]
        rw [hE]
        obtain ⟨new, h1, h2⟩ := ih ⟨st.dirs, st.trials ++ [t]⟩
        refine ⟨t :: new, by rw [h1]; simp, ?_⟩
        have hdone : ∀ m, (∀ i, i < m → TrialDone sampler obj ⟨st.dirs, st.trials ++ [t]⟩ new i) →
            ∀ i, i < m + 1 → TrialDone sampler obj st (t :: new) i := by
          intro m hm i hi
          cases i with
          | zero => exact h0 new
          | succ i => exact trialDone_shift (hm i (by omega))
        have hafter : ∀ k, studyAfter ⟨st.dirs, st.trials ++ [t]⟩ new k = studyAfter st (t :: new) (k + 1) := by
          intro k; simp [studyAfter]
        split at h2
        · rename_i he
          exact ⟨by simp [h2.1], hdone n h2.2⟩
        · rename_i e he
          obtain ⟨k, hk, hl, hd, hend⟩ := h2
          refine ⟨k + 1, by omega, by simp [hl], hdone k hd, ?_⟩
          rcases hend with ⟨g1, g2⟩ | ⟨g1, g2, g3⟩
          · rw [hafter] at g1 g2
            exact .inl ⟨by simpa using g1, g2⟩
          · exact .inr ⟨g1, trialDone_shift g2, g3⟩

theorem valid_after {T : Type} {sampler : Study T → T} {obj : T → Except PyErr (List Rat)} {st : Study T} (hv : ValidStudy st)
    {new : List (StudyTrial T)}
    (h : ∀ i, i < new.length → TrialDone sampler obj st new i ∨ ∃ t, new[i]? = some t ∧ t.state = .running) :
    ValidStudy ⟨st.dirs, st.trials ++ new⟩ := by
  intro t ht v hs
  rcases List.mem_append.1 ht with ht | ht
  · exact hv t ht v hs
  · obtain ⟨i, hi⟩ := List.mem_iff_getElem?.1 ht
    rcases h i (List.getElem?_eq_some_iff.1 hi).1 with ⟨u, values, h1, _, _, h4⟩ | ⟨u, h1, h2⟩
    · rw [hi] at h1
      cases h1
      rw [hs] at h4
      split at h4
      · rename_i hl
        cases h4
        exact hl
      · cases h4
    · rw [hi] at h1
      cases h1
      rw [hs] at h2
      cases h2

theorem created {T : Type} (store : StudyStore T) (key : Option (String × String)) (minimize : Bool) :
    StudyFound store key minimize (createStudy store key (studyDirs minimize)) := by
  unfold createStudy
  cases key with
  | none => exact .inr ⟨(fun k h => by cases h), rfl, rfl⟩
  | some k =>
    cases hk : store k with
    | none => simp only [Option.bind_some, hk]; exact .inr ⟨fun k' h => by cases h; exact hk, rfl, rfl⟩
    | some st => simp only [Option.bind_some, hk]; exact .inl ⟨k, rfl, hk⟩

theorem found_unique {T : Type} {store : StudyStore T} {key : Option (String × String)} {minimize : Bool} {a : Study T}
    (h : StudyFound store key minimize a) : createStudy store key (studyDirs minimize) = a := by
  unfold createStudy
  rcases h with ⟨k, rfl, h⟩ | ⟨h1, h2, h3⟩
  · simp only [Option.bind_some, h]
  · have : key.bind store = none := by
      cases key with
      | none => rfl
      | some k => exact h1 k rfl
    rw [this]
    obtain ⟨d, t⟩ := a
    simp only at h2 h3
    subst h2 h3
    rfl

theorem kept {T : Type} (store : StudyStore T) (key : Option (String × String)) (st : Study T) :
    StudyStored store (keepStudy store key st) key st := by
  unfold keepStudy
  cases key with
  | none => exact ⟨(fun k h => by cases h), fun k _ => rfl⟩
  | some k =>
    refine ⟨fun k' h => by cases h; simp, fun k' h => ?_⟩
    dsimp only
    rw [if_neg]
    rintro rfl
    exact h rfl

end GT.StudyL

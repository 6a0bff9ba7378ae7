import Verif.Lemmas.Pool
import Verif.Lemmas.ExecGeneric
import Verif.Spec.PoolExec

/-! # Lemmas about the executor on its thread pool -/

namespace GT.Mt

open GT.Pool GT.Spec

/-! ## What the steps of the pool do to the queue and the running tasks -/

/-- The owning thread is between `wait_for_tasks` calls, pushing. -/
def Pushing (m : MPc) : Prop := m = .ready ∨ m = .counting ∨ m = .notifying

/-- The owning thread is in `wait_for_tasks`, or has just returned from it. -/
def Waiting (p : Pool) : Prop := inWait p.mpc = true ∨ (p.mpc = .ready ∧ p.total = 0)

/-- Queue and running tasks stay. -/
structure Same (p q : Pool) : Prop where
  queue : q.queue = p.queue
  prog : q.prog = p.prog
  len : q.workers.length = p.workers.length
  run : ∀ (i : Nat) (t : Nat), q.workers[i]? = some (.run t) ↔ p.workers[i]? = some (.run t)
  cnt : ∀ t, sumOf (runsTask t) q.workers = sumOf (runsTask t) p.workers

/-- Worker `i` takes the first task of the queue. -/
structure Grab (p q : Pool) (i t : Nat) : Prop where
  at' : p.workers[i]? = some .grab
  queue : p.queue = t :: q.queue
  prog : q.prog = p.prog
  workers : q.workers = p.workers.set i (.run t)
  mpc : q.mpc = p.mpc
  tot : q.total = p.total

theorem same_refl (p : Pool) : Same p p := ⟨rfl, rfl, rfl, fun _ _ => Iff.rfl, fun _ => rfl⟩

theorem same_set (p q : Pool) (i : Nat) (w w' : WPc) (hw : p.workers[i]? = some w) (h1 : ∀ t, w ≠ .run t)
    (h2 : ∀ t, w' ≠ .run t) (hq : q.queue = p.queue) (hg : q.prog = p.prog) (hs : q.workers = p.workers.set i w') :
    Same p q := by
  refine ⟨hq, hg, by rw [hs]; simp, ?_, ?_⟩
  · intro j t
    rw [hs, getElem?_set' _ _ _ _ _ _ hw]
    constructor
    · rintro (⟨_, h⟩ | ⟨_, h⟩)
      · exact absurd h.symm (h2 t)
      · exact h
    · intro h
      by_cases hij : i = j
      · subst hij; rw [hw] at h; exact absurd (Option.some.inj h) (h1 t)
      · exact Or.inr ⟨hij, h⟩
  · intro t
    have := sumOf_set (runsTask t) p.workers i w w' hw
    rw [hs]
    simp only [runsTask, if_neg (h1 t), if_neg (h2 t)] at this
    exact this

/-- A worker's step that is not the end of a task. -/
theorem worker_eff (p q : Pool) (i : Nat) (h : p.workerStep i = some q) (hr : p.running = true)
    (hn : ∀ t, p.workers[i]? ≠ some (.run t)) :
    (Same p q ∧ (p.mpc = .ready → q.mpc = .ready) ∧ (p.mpc = .counting → q.mpc = .counting) ∧ (p.mpc = .notifying → q.mpc = .notifying) ∧
      (inWait p.mpc = true → inWait q.mpc = true) ∧ (sumOf busy p.workers = 0 → q.total = p.total)) ∨ ∃ t, Grab p q i t := by
  unfold Pool.workerStep at h
  split at h
  · cases h
  all_goals rename_i hw
  · cases h
    refine Or.inl ⟨same_set p _ i _ _ hw (by simp) (by intro t; split <;> simp) rfl rfl rfl, ?_⟩
    simp
  · split at h
    · cases h
      exact Or.inl ⟨same_set p _ i _ _ hw (by simp) (by simp) rfl rfl rfl, by simp⟩
    · cases h
  · cases h
    refine Or.inl ⟨same_set p _ i _ _ hw (by simp) (by intro t; split <;> simp) rfl rfl rfl, ?_⟩
    simp
  · cases h
    exact Or.inl ⟨same_set p _ i _ _ hw (by simp) (by simp) rfl rfl rfl, by simp⟩
  · cases h
  · split at h
    · split at h
      · cases h
      · next t q' hq =>
        cases h
        exact Or.inr ⟨t, hw, hq, rfl, rfl, rfl, rfl⟩
    · next h' => exact absurd hr h'
  · exact absurd hw (hn _)
  · split at h
    · cases h
      exact Or.inl ⟨same_set p _ i _ _ hw (by simp) (by simp) rfl rfl rfl, by simp⟩
    · cases h
  · cases h
    refine Or.inl ⟨same_set p _ i _ _ hw (by simp) (by simp) rfl rfl rfl, by simp, by simp, by simp, by simp, ?_⟩
    intro h0
    have := sumOf_busy_zero _ h0 i _ hw
    simp [busy] at this
  · cases h
    refine Or.inl ⟨same_set p _ i _ _ hw (by simp) (by simp) rfl rfl rfl, ?_, ?_, ?_, ?_, by simp⟩
    all_goals (intro h; simp only; split <;> simp_all [inWait])
  · cases h

/-- The end of a task. -/
theorem finish_eff (p q : Pool) (i t : Nat) (h : p.workerStep i = some q) (hw : p.workers[i]? = some (.run t)) :
    q.queue = p.queue ∧ q.prog = p.prog ∧ q.workers = p.workers.set i .finish ∧ q.mpc = p.mpc ∧ q.total = p.total := by
  simp only [Pool.workerStep, hw] at h
  cases h
  exact ⟨rfl, rfl, rfl, rfl, rfl⟩

/-- A step of the owning thread inside a call. -/
theorem main_eff (p q : Pool) (k : Nat) (hp : GT.Pool.PInv p) (h : p.mainStep k = some q) (hn : p.mpc ≠ .ready) :
    (Pushing p.mpc → Same p q ∧ Pushing q.mpc) ∧ (Waiting p → Same p q ∧ Waiting q) := by
  unfold Pool.mainStep at h
  constructor
  · rintro (hm | hm | hm)
    · exact absurd hm hn
    · simp only [hm] at h; cases h
      exact ⟨⟨rfl, rfl, rfl, fun _ _ => Iff.rfl, fun _ => rfl⟩, Or.inr (Or.inr rfl)⟩
    · simp only [hm] at h
      split at h
      · split at h
        · next hw =>
          cases h
          exact ⟨same_set p _ k _ _ hw (by simp) (by simp) rfl rfl rfl, Or.inl rfl⟩
        · cases h
      · cases h
        exact ⟨⟨rfl, rfl, rfl, fun _ _ => Iff.rfl, fun _ => rfl⟩, Or.inl rfl⟩
  · rintro (hm | hm)
    · split at h <;> rename_i hm'
      all_goals (try (rw [hm'] at hm; simp [inWait] at hm; done))
      · split at h
        · cases h; exact ⟨⟨rfl, rfl, rfl, fun _ _ => Iff.rfl, fun _ => rfl⟩, Or.inl rfl⟩
        · cases h
      · split at h
        · cases h; exact ⟨⟨rfl, rfl, rfl, fun _ _ => Iff.rfl, fun _ => rfl⟩, Or.inl rfl⟩
        · cases h; exact ⟨⟨rfl, rfl, rfl, fun _ _ => Iff.rfl, fun _ => rfl⟩, Or.inl rfl⟩
      · cases h; exact ⟨⟨rfl, rfl, rfl, fun _ _ => Iff.rfl, fun _ => rfl⟩, Or.inl rfl⟩
      · cases h
      · cases h; exact ⟨⟨rfl, rfl, rfl, fun _ _ => Iff.rfl, fun _ => rfl⟩, Or.inr ⟨rfl, hp.mleave hm'⟩⟩
    · exact absurd hm.1 hn

/-- Nothing left to do when the owning thread has returned from waiting. -/
theorem quiet (p : Pool) (hp : GT.Pool.PInv p) (hm : p.mpc = .ready) (ht : p.total = 0) :
    p.queue = [] ∧ sumOf busy p.workers = 0 := by
  have := hp.tot
  rw [hm, ht] at this
  simp at this
  refine ⟨List.eq_nil_of_length_eq_zero (by omega), by omega⟩

theorem quiet_run (p : Pool) (h : sumOf busy p.workers = 0) (i t : Nat) : p.workers[i]? ≠ some (.run t) := by
  intro hw
  have := sumOf_busy_zero _ h i _ hw
  simp [busy] at this

theorem quiet_cnt (p : Pool) (h : sumOf busy p.workers = 0) (t : Nat) : sumOf (runsTask t) p.workers = 0 := by
  have := sumOf_le (runsTask t) busy p.workers (runsTask_le_busy t)
  omega

/-- A worker's step in the pool, not the end of a task, while the owning thread waits. -/
theorem worker_waiting (p q : Pool) (i : Nat) (hp : GT.Pool.PInv p) (h : p.workerStep i = some q) (hr : p.running = true)
    (hn : ∀ t, p.workers[i]? ≠ some (.run t)) (hm : Waiting p) :
    (Same p q ∧ Waiting q) ∨ ((∃ t, Grab p q i t) ∧ Waiting q) := by
  rcases worker_eff p q i h hr hn with ⟨hs, a, -, -, b, c⟩ | ⟨t, hg⟩
  · refine Or.inl ⟨hs, ?_⟩
    rcases hm with hm | ⟨hm, h0⟩
    · exact Or.inl (b hm)
    · exact Or.inr ⟨a hm, by rw [c (quiet p hp hm h0).2]; exact h0⟩
  · refine Or.inr ⟨⟨t, hg⟩, ?_⟩
    rcases hm with hm | ⟨hm, h0⟩
    · exact Or.inl (by rw [hg.mpc]; exact hm)
    · have := (quiet p hp hm h0).1
      rw [hg.queue] at this
      cases this

theorem worker_pushing (p q : Pool) (i : Nat) (h : p.workerStep i = some q) (hr : p.running = true)
    (hn : ∀ t, p.workers[i]? ≠ some (.run t)) (hm : Pushing p.mpc) :
    (Same p q ∧ Pushing q.mpc) ∨ ((∃ t, Grab p q i t) ∧ Pushing q.mpc) := by
  rcases worker_eff p q i h hr hn with ⟨hs, a, b, c, -, -⟩ | ⟨t, hg⟩
  · refine Or.inl ⟨hs, ?_⟩
    rcases hm with hm | hm | hm
    · exact Or.inl (a hm)
    · exact Or.inr (Or.inl (b hm))
    · exact Or.inr (Or.inr (c hm))
  · exact Or.inr ⟨⟨t, hg⟩, by rw [hg.mpc]; exact hm⟩

theorem spurious_eff (p q : Pool) (a : Act) (ha : a.spurious = true) (h : p.step a = some q) :
    Same p q ∧ (Pushing p.mpc → Pushing q.mpc) ∧ (Waiting p → Waiting q) := by
  cases a with
  | main k => cases ha
  | worker i => cases ha
  | spuriousMain =>
    simp only [Pool.step] at h
    split at h
    · next hm =>
      cases h
      refine ⟨⟨rfl, rfl, rfl, fun _ _ => Iff.rfl, fun _ => rfl⟩, ?_, fun _ => Or.inl rfl⟩
      rintro (h | h | h) <;> rw [hm] at h <;> cases h
    · cases h
  | spuriousWorker i =>
    simp only [Pool.step] at h
    split at h
    · next hw =>
      cases h
      exact ⟨same_set p _ i _ _ hw (by simp) (by simp) rfl rfl rfl, id, id⟩
    · cases h

/-! ## Following the tasks of one phase -/

theorem kindOf_taskOf (k : Kind) (j : Nat) : kindOf (taskOf k j) = k := by
  cases k <;> unfold kindOf
  · rw [if_pos (show taskOf .train j % 3 = 0 by simp only [taskOf]; omega)]
  · rw [if_neg (show ¬ taskOf .update j % 3 = 0 by simp only [taskOf]; omega),
      if_pos (show taskOf .update j % 3 = 1 by simp only [taskOf]; omega)]
  · rw [if_neg (show ¬ taskOf .eval j % 3 = 0 by simp only [taskOf]; omega),
      if_neg (show ¬ taskOf .eval j % 3 = 1 by simp only [taskOf]; omega)]

theorem blockOf_taskOf (k : Kind) (j : Nat) : blockOf (taskOf k j) = j := by
  cases k <;> simp only [taskOf, blockOf] <;> omega

theorem taskOf_inj (k : Kind) {i j : Nat} (h : taskOf k i = taskOf k j) : i = j := by
  rw [← blockOf_taskOf k i, h, blockOf_taskOf]

/-- How often task `t` still has to be run: not yet pushed, in the queue, or running. -/
def live (k : Kind) (js : List Nat) (p : Pool) (t : Nat) : Nat :=
  (js.map (taskOf k)).count t + p.queue.count t + sumOf (runsTask t) p.workers

/-- The tasks of one phase: `dom` the blocks that get one, `js` those not yet pushed, `pc` how far each task is. -/
structure Track (k : Kind) (dom js : List Nat) (p : Pool) (wpc pc : Nat → Pc) : Prop where
  once : ∀ t, live k js p t ≤ 1
  mem  : ∀ t, 0 < live k js p t → ∃ j ∈ dom, t = taskOf k j
  todo : ∀ j, j ∈ js ∨ taskOf k j ∈ p.queue → pc j = .start
  run  : ∀ i j, p.workers[i]? = some (.run (taskOf k j)) → pc j = wpc i
  fin  : ∀ j ∈ dom, live k js p (taskOf k j) = 0 → pc j = .done
  idle : ∀ i, (∀ t, p.workers[i]? ≠ some (.run t)) → wpc i = .start

theorem live_run (k : Kind) (js : List Nat) (p : Pool) (i t : Nat) (h : p.workers[i]? = some (.run t)) : 0 < live k js p t := by
  have := le_sumOf (runsTask t) p.workers i _ h
  simp [runsTask] at this
  unfold live; omega

theorem live_queue (k : Kind) (js : List Nat) (p : Pool) (t : Nat) (h : t ∈ p.queue) : 0 < live k js p t := by
  have := List.count_pos_iff.2 h
  unfold live; omega

theorem Track.ran {k dom js p wpc pc} (h : Track k dom js p wpc pc) (i t : Nat) (hw : p.workers[i]? = some (.run t)) :
    ∃ j ∈ dom, t = taskOf k j := h.mem t (live_run k js p i t hw)

theorem two_run (l : List WPc) (i j t : Nat) (hi : l[i]? = some (.run t)) (hj : l[j]? = some (.run t)) (hij : i ≠ j) :
    2 ≤ sumOf (runsTask t) l := by
  have h1 := sumOf_set (runsTask t) l i _ .top hi
  have h2 : (l.set i .top)[j]? = some (.run t) := by rw [List.getElem?_set_ne hij]; exact hj
  have h3 := le_sumOf (runsTask t) _ j _ h2
  simp [runsTask] at h1 h3
  omega

theorem Track.unique {k dom js p wpc pc} (h : Track k dom js p wpc pc) (i j t : Nat) (hi : p.workers[i]? = some (.run t))
    (hj : p.workers[j]? = some (.run t)) : i = j := by
  by_contra hij
  have h1 := two_run p.workers i j t hi hj hij
  have h2 := h.once t
  unfold live at h2
  omega

theorem Track.same {k dom js p q wpc pc} (h : Track k dom js p wpc pc) (hs : Same p q) : Track k dom js q wpc pc := by
  have hl : ∀ t, live k js q t = live k js p t := fun t => by unfold live; rw [hs.queue, hs.cnt]
  refine ⟨fun t => by rw [hl]; exact h.once t, fun t ht => h.mem t (by rwa [hl] at ht), ?_, ?_, ?_, ?_⟩
  · intro j hj; rw [hs.queue] at hj; exact h.todo j hj
  · intro i j hw; exact h.run i j ((hs.run i _).1 hw)
  · intro j hj h0; rw [hl] at h0; exact h.fin j hj h0
  · intro i hi; exact h.idle i fun t ht => hi t ((hs.run i t).2 ht)

theorem Track.push {k dom j js p q wpc pc} (h : Track k dom (j :: js) p wpc pc) (hq : q.queue = p.queue ++ [taskOf k j])
    (hw : q.workers = p.workers) : Track k dom js q wpc pc := by
  have hl : ∀ t, live k js q t = live k (j :: js) p t := fun t => by
    unfold live; rw [hq, hw]
    simp only [List.map_cons, List.count_cons, List.count_append, List.count_nil]
    omega
  refine ⟨fun t => by rw [hl]; exact h.once t, fun t ht => h.mem t (by rwa [hl] at ht), ?_, ?_, ?_, ?_⟩
  · intro i hi
    rw [hq] at hi
    rcases hi with hi | hi
    · exact h.todo i (Or.inl (List.mem_cons_of_mem _ hi))
    · rcases List.mem_append.1 hi with hi | hi
      · exact h.todo i (Or.inr hi)
      · rw [List.mem_singleton] at hi
        rw [taskOf_inj k hi]
        exact h.todo j (Or.inl (List.mem_cons_self))
  · intro i j' hi; rw [hw] at hi; exact h.run i j' hi
  · intro i hi h0; rw [hl] at h0; exact h.fin i hi h0
  · intro i hi; rw [hw] at hi; exact h.idle i hi

theorem Track.grab {k dom js p q i t wpc pc} (h : Track k dom js p wpc pc) (hg : Grab p q i t) : Track k dom js q wpc pc := by
  have hc := fun t' => sumOf_set (runsTask t') p.workers i _ (.run t) hg.at'
  have hl : ∀ t', live k js q t' = live k js p t' := fun t' => by
    have := hc t'
    unfold live; rw [hg.queue, hg.workers]
    simp only [List.count_cons]
    by_cases ht : t = t'
    · subst ht; simp [runsTask] at this ⊢; omega
    · simp [runsTask, ht] at this ⊢; omega
  have hidle : wpc i = .start := h.idle i (fun t ht => by rw [hg.at'] at ht; cases ht)
  refine ⟨fun t => by rw [hl]; exact h.once t, fun t ht => h.mem t (by rwa [hl] at ht), ?_, ?_, ?_, ?_⟩
  · intro j hj
    refine h.todo j ?_
    rcases hj with hj | hj
    · exact Or.inl hj
    · right; rw [hg.queue]; exact List.mem_cons_of_mem _ hj
  · intro i' j hi
    rw [hg.workers, getElem?_set' _ _ _ _ _ _ hg.at'] at hi
    rcases hi with ⟨rfl, hi⟩ | ⟨_, hi⟩
    · cases hi
      rw [hidle]
      exact h.todo j (Or.inr (by rw [hg.queue]; exact List.mem_cons_self))
    · exact h.run i' j hi
  · intro j hj h0; rw [hl] at h0; exact h.fin j hj h0
  · intro i' hi
    by_cases hii : i = i'
    · subst hii; exact hidle
    · refine h.idle i' fun t' ht' => hi t' ?_
      rw [hg.workers, getElem?_set' _ _ _ _ _ _ hg.at']
      exact Or.inr ⟨hii, ht'⟩

/-- A step inside a task. -/
theorem Track.move {k dom js p i j wpc pc} (h : Track k dom js p wpc pc) (hw : p.workers[i]? = some (.run (taskOf k j))) (c : Pc) :
    Track k dom js p (fun i' => if i' = i then c else wpc i') (fun j' => if j' = j then c else pc j') := by
  have hl := live_run k js p i _ hw
  refine ⟨h.once, h.mem, ?_, ?_, ?_, ?_⟩
  · intro j' hj'
    by_cases hjj : j' = j
    · exfalso
      subst hjj
      have h1 := h.once (taskOf k j')
      have h2 := le_sumOf (runsTask (taskOf k j')) p.workers i _ hw
      simp [runsTask] at h2
      unfold live at h1
      rcases hj' with h3 | h3
      · have := List.count_pos_iff.2 (List.mem_map_of_mem (f := taskOf k) h3)
        omega
      · have := List.count_pos_iff.2 h3
        omega
    · rw [if_neg hjj]; exact h.todo j' hj'
  · intro i' j' hi
    by_cases hjj : j' = j
    · subst hjj
      rw [if_pos rfl, if_pos (h.unique _ _ _ hi hw)]
    · rw [if_neg hjj]
      have : i' ≠ i := by
        rintro rfl
        rw [hw] at hi
        injection hi with hi
        injection hi with hi
        exact hjj (taskOf_inj k hi).symm
      rw [if_neg this]
      exact h.run i' j' hi
  · intro j' hj' h0
    by_cases hjj : j' = j
    · subst hjj; omega
    · rw [if_neg hjj]; exact h.fin j' hj' h0
  · intro i' hi
    have : i' ≠ i := by rintro rfl; exact hi _ hw
    rw [if_neg this]
    exact h.idle i' hi

/-- A task that has returned is over. -/
theorem Track.finish {k dom js p q i j wpc pc} (h : Track k dom js p wpc pc) (hw : p.workers[i]? = some (.run (taskOf k j)))
    (hd : wpc i = .done) (hq : q.queue = p.queue) (hs : q.workers = p.workers.set i .finish) :
    Track k dom js q (fun i' => if i' = i then .start else wpc i') pc := by
  have hc := fun t' => sumOf_set (runsTask t') p.workers i _ .finish hw
  have hne : ∀ t, t ≠ taskOf k j → live k js q t = live k js p t := fun t ht => by
    have := hc t
    have ht' : ¬ taskOf k j = t := fun h => ht h.symm
    unfold live; rw [hq, hs]
    simp [runsTask, ht'] at this ⊢; omega
  have hj0 : live k js q (taskOf k j) + 1 = live k js p (taskOf k j) := by
    have := hc (taskOf k j)
    unfold live; rw [hq, hs]
    simp [runsTask] at this ⊢; omega
  have hle : ∀ t, live k js q t ≤ live k js p t := fun t => by
    by_cases ht : t = taskOf k j
    · subst ht; omega
    · rw [hne t ht]
  refine ⟨fun t => Nat.le_trans (hle t) (h.once t), fun t ht => h.mem t (Nat.lt_of_lt_of_le ht (hle t)), ?_, ?_, ?_, ?_⟩
  · intro j' hj'; rw [hq] at hj'; exact h.todo j' hj'
  · intro i' j' hi
    rw [hs, getElem?_set' _ _ _ _ _ _ hw] at hi
    rcases hi with ⟨_, hi⟩ | ⟨hii, hi⟩
    · cases hi
    · rw [if_neg (fun h => hii h.symm)]; exact h.run i' j' hi
  · intro j' hj' h0
    by_cases hjj : j' = j
    · subst hjj; rw [h.run i j' hw]; exact hd
    · rw [hne _ (fun h => hjj (taskOf_inj k h))] at h0; exact h.fin j' hj' h0
  · intro i' hi
    by_cases hii : i' = i
    · rw [if_pos hii]
    · rw [if_neg hii]
      refine h.idle i' fun t' ht' => hi t' ?_
      rw [hs, getElem?_set' _ _ _ _ _ _ hw]
      exact Or.inr ⟨fun h => hii h.symm, ht'⟩

/-- When the owning thread has returned from waiting, every task is over. -/
theorem Track.over {k dom p wpc pc} (h : Track k dom [] p wpc pc) (hp : GT.Pool.PInv p) (hm : p.mpc = .ready) (ht : p.total = 0) :
    (∀ j ∈ dom, pc j = .done) ∧ ∀ i, wpc i = .start := by
  obtain ⟨h1, h2⟩ := quiet p hp hm ht
  refine ⟨fun j hj => h.fin j hj ?_, fun i => h.idle i fun t => quiet_run p h2 i t⟩
  unfold live
  rw [h1, quiet_cnt p h2]; rfl

/-- A new phase. -/
theorem track_new (k : Kind) (dom : List Nat) (p : Pool) (wpc : Nat → Pc) (hn : dom.Nodup) (hp : GT.Pool.PInv p)
    (hm : p.mpc = .ready) (ht : p.total = 0) (hw : ∀ i, wpc i = .start) : Track k dom dom p wpc (fun _ => .start) := by
  obtain ⟨h1, h2⟩ := quiet p hp hm ht
  have hl : ∀ t, live k dom p t = (dom.map (taskOf k)).count t := fun t => by
    unfold live; rw [h1, quiet_cnt p h2]; simp
  have hnd : (dom.map (taskOf k)).Nodup := by
    refine List.Nodup.map ?_ hn
    intro a b h; exact taskOf_inj k h
  refine ⟨fun t => by rw [hl]; exact List.nodup_iff_count_le_one.1 hnd t, ?_, fun _ _ => rfl, ?_, ?_, fun i _ => hw i⟩
  · intro t ht
    rw [hl, List.count_pos_iff, List.mem_map] at ht
    obtain ⟨j, hj, rfl⟩ := ht
    exact ⟨j, hj, rfl⟩
  · intro i j hi; exact absurd hi (quiet_run p h2 i _)
  · intro j hj h0
    rw [hl, List.count_eq_zero] at h0
    exact absurd (List.mem_map_of_mem hj) h0

end GT.Mt

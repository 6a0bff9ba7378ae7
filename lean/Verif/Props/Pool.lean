import Verif.Lemmas.Pool

/-!
# C44: the thread pool runs every task once and waiting for it cannot hang
-/

namespace GT

open Spec Pool

/-- A two-worker pool, two tasks, one wait: a schedule that gets the owning thread to the end. -/
def poolDemo : List Act :=
  [.worker 1, .main 0, .worker 0, .main 1, .worker 0, .main 0, .worker 0, .worker 0, .main 1, .worker
   0, .worker 1, .main 0, .main 1, .main 1, .worker 1, .worker 1, .main 0, .main 1, .main 1, .worker 0,
   .worker 1, .worker 0, .worker 0, .main 1, .worker 0, .main 0, .main 0, .worker 0, .worker 0, .worker
   0, .worker 1, .worker 1, .worker 1, .main 1, .main 0, .main 0]

/-- C44: when `wait_for_tasks` returns, the tasks that have been run are exactly the tasks pushed before it,
each as often as it was pushed - for every number of threads, every sequence of calls and every
interleaving. -/
theorem C44_wait_returns_after_all_tasks (req hw : Nat) (before after : List Cmd) (acts : List Act)
    (p : Pool) (h : Pool.run acts (Pool.init req hw (before ++ .wait :: after)) = some p)
    (hprog : p.prog = after) (hready : p.mpc = .ready) :
    p.finished.Perm (tasksOf before) := by
  have H := hist_run _ acts _ p (hist_init req hw (before ++ .wait :: after)) h
  obtain ⟨c, h1, h2, h3, _⟩ := H.ex
  rw [hprog] at h1
  have hc : c = before ++ [.wait] := by
    have : before ++ [.wait] ++ after = c ++ after := by simpa using h1
    exact (List.append_cancel_right this).symm
  have ht := h3 hready (by rw [hc]; simp)
  have hperm := finished_of_total_zero p H.inv ht (by rw [hready]; decide)
  rw [h2, hc, tasksOf_append] at hperm
  simpa [tasksOf] using hperm

/-- C44: at no time has a task been run more often than it was pushed. -/
theorem C44_no_task_twice (req hw : Nat) (prog : List Cmd) (acts : List Act) (p : Pool)
    (h : Pool.run acts (Pool.init req hw prog) = some p) (t : Nat) :
    p.finished.count t ≤ (tasksOf prog).count t := by
  have H := hist_run _ acts _ p (hist_init req hw prog) h
  obtain ⟨c, h1, h2, _, _⟩ := H.ex
  have h3 := H.inv.counts t
  rw [h2] at h3
  rw [h1, tasksOf_append, List.count_append]
  omega

/-- C44: a worker that goes on to take a task from the queue always finds one. -/
theorem C44_queue_never_popped_empty (req hw : Nat) (prog : List Cmd) (acts : List Act) (p : Pool)
    (h : Pool.run acts (Pool.init req hw prog) = some p) (hr : p.running = true) (i : Nat)
    (hi : p.workers[i]? = some .grab) : p.queue ≠ [] :=
  (inv_run acts _ p (inv_init req hw prog) h).grabq hr i hi

/-- C44: no lost wake-up.  In every reachable state in which no thread can take a step of its own, the owning
thread has returned from all its calls (the program does not destroy the pool, see
`C56_destructor_can_hang`). -/
theorem C44_no_lost_wakeup (req hw : Nat) (prog : List Cmd) (hs : .stop ∉ prog) (acts : List Act)
    (p : Pool) (h : Pool.run acts (Pool.init req hw prog) = some p) (hstuck : Stuck p) :
    AllCallsReturned p :=
  progress p (inv_run acts _ p (inv_init req hw prog) h)
    (running_run acts _ p hs rfl h).2 (notStopping_run acts _ p hs rfl rfl h) hstuck

/-- C44: and the threads cannot go on for ever: apart from spurious wake-ups (which cost at most three steps
each) a schedule has at most `17` steps per push, `4` per wait and `4` per thread. -/
theorem C44_schedules_end (req hw : Nat) (prog : List Cmd) (hs : .stop ∉ prog) (acts : List Act)
    (p : Pool) (h : Pool.run acts (Pool.init req hw prog) = some p) :
    acts.countP (fun a => !a.spurious) ≤
      17 * pushes prog + 4 * waits prog + 4 * threadCount req hw + 3 * acts.countP Act.spurious := by
  have := rank_run acts _ p hs rfl rfl h
  have h2 : rank (Pool.init req hw prog) = 17 * pushes prog + 4 * waits prog + 4 * threadCount req hw := by
    simp [rank, Pool.init, mrank, sumOf_replicate, wrank, Nat.mul_comm]
  omega

/-- C44, both together: from every reachable state the owning thread gets to the end of its program, by letting
any thread that can move do so. -/
theorem C44_owner_finishes (req hw : Nat) (prog : List Cmd) (hs : .stop ∉ prog) (acts : List Act)
    (p : Pool) (h : Pool.run acts (Pool.init req hw prog) = some p) :
    ∃ more q, Pool.run more p = some q ∧ AllCallsReturned q := by
  have key : ∀ n (acts : List Act) (p : Pool), rank p = n →
      Pool.run acts (Pool.init req hw prog) = some p →
      ∃ more q, Pool.run more p = some q ∧ AllCallsReturned q := by
    intro n
    induction n using Nat.strongRecOn with
    | _ n ih =>
      intro acts p hn h
      by_cases hstuck : Stuck p
      · exact ⟨[], p, rfl, C44_no_lost_wakeup req hw prog hs acts p h hstuck⟩
      · simp only [Stuck, Classical.not_forall] at hstuck
        obtain ⟨a, ha, hne⟩ := hstuck
        cases hq : p.step a with
        | none => exact absurd hq hne
        | some q =>
          have h1 := running_run acts _ p hs rfl h
          have h2 := notStopping_run acts _ p hs rfl rfl h
          have h3 := rank_step p q a h1.1 h1.2 h2 hq
          rw [ha] at h3
          have hrun : Pool.run (acts ++ [a]) (Pool.init req hw prog) = some q := by
            rw [run_append, h]; simp [Pool.run, hq]
          obtain ⟨more, q', h4, h5⟩ := ih (rank q) (by simp at h3; omega) (acts ++ [a]) q rfl hrun
          exact ⟨a :: more, q', by simp [Pool.run, hq, h4], h5⟩
  exact key _ acts p rfl h

example : ∃ p, Pool.run poolDemo (Pool.init 2 8 [.push 7, .push 7, .wait]) = some p ∧
    p.prog = [] ∧ p.mpc = .ready ∧ p.finished = [7, 7] := by
  refine ⟨_, rfl, ?_⟩; decide

/-- C56, the destructor: it can hang.  `running` is cleared and `notify_all` is called without the mutex, so
a worker that has already seen "queue empty, still running" but has not blocked yet misses the
notification, sleeps for ever, and the destructor never returns from joining it. -/
theorem C56_destructor_can_hang :
    ∃ acts p, Pool.run acts (Pool.init 1 8 [.push 3, .wait, .wait, .stop]) = some p ∧ Stuck p ∧
      ¬ AllCallsReturned p ∧ p.mpc = .joining ∧ p.workers = [.asleep] := by
  refine ⟨[.main 0, .main 0, .main 0, .worker 0, .worker 0, .worker 0, .worker 0, .worker 0, .worker 0,
    .worker 0, .worker 0,
    .main 0, .main 0, .main 0, .main 0, .main 0, .main 0, .main 0, .main 0,
    .worker 0, .worker 0, .worker 0, .main 0, .main 0, .worker 0], _, rfl, ?_, ?_, rfl, rfl⟩
  · intro a ha
    cases a with
    | main k => rfl
    | worker i => cases i <;> rfl
    | spuriousMain => simp [Act.spurious] at ha
    | spuriousWorker i => simp [Act.spurious] at ha
  · intro h; exact absurd h.2 (by decide)

/-- C56, the destructor: it does return if, when `running` is cleared, no worker is in the window between
seeing nothing to do and blocking: whenever nobody can move any more, all threads have left and the call has
returned. -/
theorem C56_destructor_partial (req hw : Nat) (prog : List Cmd) (acts more : List Act) (p q r : Pool)
    (h : Pool.run acts (Pool.init req hw prog) = some p) (hprog : p.prog = [.stop]) (hm : p.mpc = .ready)
    (hwin : .block ∉ p.workers) (hq : p.step (.main 0) = some q) (hr : Pool.run more q = some r)
    (hstuck : Stuck r) : AllCallsReturned r ∧ ∀ w ∈ r.workers, w = .exited := by
  have hp := inv_run acts _ p (inv_init req hw prog) h
  have hqi := inv_step p q _ hp hq
  have e : q = { p with prog := [], running := false, mpc := .notifyAll } := by
    simp only [Pool.step, Pool.mainStep, hm, hprog] at hq
    cases hq; rfl
  have hS : StopInv q := by
    refine ⟨hqi, by rw [e], by rw [e]; exact Or.inl rfl, ?_, by rw [e]; simp, by rw [e]; simp⟩
    intro i hi
    rw [e] at hi
    exact hwin (List.mem_of_getElem? hi)
  obtain ⟨h1, h2⟩ := stopInv_run more q r hS (by rw [e]) hr
  obtain ⟨h3, h4⟩ := stop_progress r h1 hstuck
  exact ⟨⟨h2, h3⟩, h4⟩

example : ∃ acts p, Pool.run acts (Pool.init 2 8 [.push 3, .wait, .stop]) = some p ∧ p.prog = [.stop] ∧
    p.mpc = .ready ∧ .block ∉ p.workers ∧ p.workers.length = 2 := by
  refine ⟨[.main 0, .main 0, .main 0, .worker 0, .worker 0, .worker 0, .worker 0, .worker 0, .worker 0,
    .worker 0, .worker 0, .main 0, .main 0, .main 0, .main 0], _, rfl, rfl, rfl, ?_, rfl⟩
  decide

end GT

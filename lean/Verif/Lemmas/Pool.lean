import Verif.Spec.Pool

/-!
# Lemmas about the thread pool
-/

namespace GT.Pool

open GT.Spec

/-! ## Sums over the workers -/

/-- Sum of `f` over a list. -/
def sumOf (f : WPc → Nat) : List WPc → Nat
  | [] => 0
  | w :: ws => f w + sumOf f ws

theorem sumOf_set (f : WPc → Nat) (l : List WPc) (i : Nat) (w w' : WPc) (h : l[i]? = some w) :
    sumOf f (l.set i w') + f w = sumOf f l + f w' := by
  induction l generalizing i with
  | nil => simp at h
  | cons a l ih =>
    cases i with
    | zero => simp at h; subst h; simp [sumOf]; omega
    | succ i =>
      simp at h
      have := ih i h
      simp [sumOf]; omega

theorem sumOf_replicate (f : WPc → Nat) (n : Nat) (w : WPc) :
    sumOf f (List.replicate n w) = n * f w := by
  induction n with
  | zero => simp [sumOf]
  | succ n ih => simp [List.replicate_succ, sumOf, ih, Nat.succ_mul, Nat.add_comm]

theorem le_sumOf (f : WPc → Nat) (l : List WPc) (i : Nat) (w : WPc) (h : l[i]? = some w) :
    f w ≤ sumOf f l := by
  induction l generalizing i with
  | nil => simp at h
  | cons a l ih =>
    cases i with
    | zero => simp at h; subst h; simp [sumOf]
    | succ i => simp at h; have := ih i h; simp [sumOf]; omega

theorem sumOf_zero (f : WPc → Nat) (l : List WPc) (h : ∀ w ∈ l, f w = 0) : sumOf f l = 0 := by
  induction l with
  | nil => rfl
  | cons a l ih => simp [sumOf, h a, ih (fun w hw => h w (List.mem_cons_of_mem _ hw))]

theorem sumOf_le (f g : WPc → Nat) (l : List WPc) (h : ∀ w, f w ≤ g w) : sumOf f l ≤ sumOf g l := by
  induction l with
  | nil => exact Nat.le_refl _
  | cons a l ih => simp only [sumOf]; have := h a; omega

/-- Worker runs task `t`. -/
def runsTask (t : Nat) (w : WPc) : Nat := if w = .run t then 1 else 0

/-- Worker has a task that is not yet taken off `tasks_total`. -/
def busy : WPc → Nat
  | .run _ | .finish | .decr => 1
  | _ => 0

theorem runsTask_le_busy (t : Nat) (w : WPc) : runsTask t w ≤ busy w := by
  unfold runsTask; split <;> simp_all [busy]

/-- Worker holds the mutex. -/
def holds : WPc → Bool
  | .check | .block | .grab | .decr | .notify => true
  | _ => false

/-- The owning thread holds the mutex. -/
def mholds : MPc → Bool
  | .check | .block | .leave => true
  | _ => false

/-- The owning thread is inside `wait_for_tasks`. -/
def inWait : MPc → Bool
  | .wantLock | .check | .block | .asleep | .leave => true
  | _ => false

/-- What holds in every reachable state. -/
structure PInv (p : Pool) : Prop where
  wlock : ∀ (i : Nat) (w : WPc), p.workers[i]? = some w → (holds w = true ↔ p.lock = some (.worker i))
  mlock : mholds p.mpc = true ↔ p.lock = some .main
  lockw : ∀ i : Nat, p.lock = some (.worker i) → i < p.workers.length
  counts : ∀ t, p.queue.count t + sumOf (runsTask t) p.workers + p.finished.count t = p.pushed.count t
  tot : p.total + (if p.mpc = .counting then 1 else 0) = (p.queue.length : Int) + sumOf busy p.workers
  blockq : ∀ i : Nat, p.workers[i]? = some WPc.block → p.queue = []
  grabq : p.running = true → ∀ i : Nat, p.workers[i]? = some WPc.grab → p.queue ≠ []
  awake : p.running = true → p.queue ≠ [] →
    (∃ (i : Nat) (w : WPc), p.workers[i]? = some w ∧ w ≠ WPc.asleep) ∨ p.mpc = .counting ∨ p.mpc = .notifying
  wait : inWait p.mpc = true → p.waiting = true
  mblock : p.mpc = .block → p.total ≠ 0
  mleave : p.mpc = .leave → p.total = 0
  masleep : p.mpc = .asleep → p.total ≠ 0 ∨ ∃ i : Nat, p.workers[i]? = some WPc.notify
  noexit : p.running = true → ∀ i : Nat, p.workers[i]? ≠ some WPc.exited
  pos : 0 < p.workers.length

theorem getElem?_set' (l : List WPc) (i j : Nat) (w w' v : WPc) (h : l[i]? = some w) :
    (l.set i w')[j]? = some v ↔ (i = j ∧ v = w') ∨ (i ≠ j ∧ l[j]? = some v) := by
  have hi : i < l.length := by
    rcases Nat.lt_or_ge i l.length with h' | h'
    · exact h'
    · rw [List.getElem?_eq_none h'] at h; cases h
  by_cases hij : i = j
  · subst hij; simp [hi]; exact eq_comm
  · simp [hij]

theorem inv_init (req hw : Nat) (prog : List Cmd) : PInv (Pool.init req hw prog) := by
  have hn : 0 < threadCount req hw := by unfold threadCount; split <;> (try split) <;> omega
  have hget : ∀ (i : Nat) (w : WPc), (Pool.init req hw prog).workers[i]? = some w → w = WPc.top := by
    intro i w h
    simp only [Pool.init, List.getElem?_replicate] at h
    split at h <;> simp_all
  refine ⟨?_, ?_, ?_, ?_, ?_, ?_, ?_, ?_, ?_, ?_, ?_, ?_, ?_, ?_⟩
  · intro i w h; rw [hget i w h]; simp [holds, Pool.init]
  · simp [mholds, Pool.init]
  · simp [Pool.init]
  · intro t; simp [Pool.init, sumOf_replicate, runsTask]
  · simp [Pool.init, sumOf_replicate, busy]
  · intro i h; have := hget i _ h; cases this
  · intro _ i h; have := hget i _ h; cases this
  · intro _ h; simp [Pool.init] at h
  · simp [Pool.init, inWait]
  · simp [Pool.init]
  · simp [Pool.init]
  · simp [Pool.init]
  · intro _ i h; have := hget i _ h; cases this
  · simpa [Pool.init] using hn

theorem inv_w_top (p : Pool) (i : Nat) (hp : PInv p) (hw : p.workers[i]? = some WPc.top) :
    PInv { p with workers := p.workers.set i (if p.running then .wantLock else .exited) } := by
  have hi : i < p.workers.length := by
    rcases Nat.lt_or_ge i p.workers.length with h' | h'
    · exact h'
    · rw [List.getElem?_eq_none h'] at hw; cases hw
  have S := fun f w' => sumOf_set f p.workers i _ w' hw
  have G := fun j w' v => getElem?_set' p.workers i j _ w' v hw
  have W := hp.wlock i _ hw
  obtain ⟨wlock, mlock, lockw, counts, tot, blockq, grabq, awake, wait, mblock, mleave, masleep, noexit,
    hsome⟩ := hp
  simp [holds] at W
  constructor
  · clear S counts tot awake masleep; intro j v hv; simp only [G] at hv; grind [holds]
  · clear S G counts tot awake masleep; grind [mholds]
  · clear S G counts tot awake masleep; intro j hj; grind
  · intro u
    have h1 := S (runsTask u)
    have h2 := counts u
    clear S G counts tot awake masleep wlock
    simp only [runsTask] at h1 h2 ⊢
    grind
  · have h1 := S busy
    clear S G counts awake masleep wlock
    grind [busy]
  · clear S counts tot awake masleep; intro j hv; simp only [G] at hv; grind [holds]
  · clear S counts tot awake masleep; intro hr j hv; simp only [G] at hv; grind [holds]
  · intro hr hq; left; refine ⟨i, _, by rw [G]; exact Or.inl ⟨rfl, rfl⟩, ?_⟩; grind
  · clear S G counts tot awake masleep; grind [inWait]
  · clear S G counts tot awake masleep; grind [mholds]
  · clear S G counts awake masleep; grind [mholds]
  · clear S counts tot awake; intro hm
    simp only [G]
    grind [inWait]
  · clear S counts tot awake; intro hr j hv; simp only [G] at hv; grind
  · simpa using hsome

theorem inv_w_wantLock (p : Pool) (i : Nat) (hp : PInv p) (hw : p.workers[i]? = some WPc.wantLock) (hl : p.lock = none) :
    PInv { p with lock := some (.worker i), workers := p.workers.set i .check } := by
  have hi : i < p.workers.length := by
    rcases Nat.lt_or_ge i p.workers.length with h' | h'
    · exact h'
    · rw [List.getElem?_eq_none h'] at hw; cases hw
  have S := fun f w' => sumOf_set f p.workers i _ w' hw
  have G := fun j w' v => getElem?_set' p.workers i j _ w' v hw
  have W := hp.wlock i _ hw
  obtain ⟨wlock, mlock, lockw, counts, tot, blockq, grabq, awake, wait, mblock, mleave, masleep, noexit,
    hsome⟩ := hp
  simp [holds] at W
  constructor
  · clear S counts tot awake masleep; intro j v hv; simp only [G] at hv; grind [holds]
  · clear S G counts tot awake masleep; grind [mholds]
  · clear S G counts tot awake masleep; intro j hj; grind
  · intro u
    have h1 := S (runsTask u)
    have h2 := counts u
    clear S G counts tot awake masleep wlock
    simp only [runsTask] at h1 h2 ⊢
    grind
  · have h1 := S busy
    clear S G counts awake masleep wlock
    grind [busy]
  · clear S counts tot awake masleep; intro j hv; simp only [G] at hv; grind [holds]
  · clear S counts tot awake masleep; intro hr j hv; simp only [G] at hv; grind [holds]
  · intro hr hq; left; refine ⟨i, _, by rw [G]; exact Or.inl ⟨rfl, rfl⟩, ?_⟩; grind
  · clear S G counts tot awake masleep; grind [inWait]
  · clear S G counts tot awake masleep; grind [mholds]
  · clear S G counts awake masleep; grind [mholds]
  · clear S counts tot awake; intro hm
    simp only [G]
    grind [inWait]
  · clear S counts tot awake; intro hr j hv; simp only [G] at hv; grind
  · simpa using hsome

theorem inv_w_check (p : Pool) (i : Nat) (hp : PInv p) (hw : p.workers[i]? = some WPc.check) :
    PInv { p with
      workers := p.workers.set i (if p.queue ≠ [] ∨ p.running = false then .grab else .block) } := by
  have hi : i < p.workers.length := by
    rcases Nat.lt_or_ge i p.workers.length with h' | h'
    · exact h'
    · rw [List.getElem?_eq_none h'] at hw; cases hw
  have S := fun f w' => sumOf_set f p.workers i _ w' hw
  have G := fun j w' v => getElem?_set' p.workers i j _ w' v hw
  have W := hp.wlock i _ hw
  obtain ⟨wlock, mlock, lockw, counts, tot, blockq, grabq, awake, wait, mblock, mleave, masleep, noexit,
    hsome⟩ := hp
  simp [holds] at W
  constructor
  · clear S counts tot awake masleep; intro j v hv; simp only [G] at hv; grind [holds]
  · clear S G counts tot awake masleep; grind [mholds]
  · clear S G counts tot awake masleep; intro j hj; grind
  · intro u
    have h1 := S (runsTask u)
    have h2 := counts u
    clear S G counts tot awake masleep wlock
    simp only [runsTask] at h1 h2 ⊢
    grind
  · have h1 := S busy
    clear S G counts awake masleep wlock
    grind [busy]
  · clear S counts tot awake masleep; intro j hv; simp only [G] at hv; grind [holds]
  · clear S counts tot awake masleep; intro hr j hv; simp only [G] at hv; grind [holds]
  · intro hr hq; left; refine ⟨i, _, by rw [G]; exact Or.inl ⟨rfl, rfl⟩, ?_⟩; grind
  · clear S G counts tot awake masleep; grind [inWait]
  · clear S G counts tot awake masleep; grind [mholds]
  · clear S G counts awake masleep; grind [mholds]
  · clear S counts tot awake; intro hm
    simp only [G]
    grind [inWait]
  · clear S counts tot awake; intro hr j hv; simp only [G] at hv; grind
  · simpa using hsome

theorem inv_w_block (p : Pool) (i : Nat) (hp : PInv p) (hw : p.workers[i]? = some WPc.block) :
    PInv { p with lock := none, workers := p.workers.set i .asleep } := by
  have hi : i < p.workers.length := by
    rcases Nat.lt_or_ge i p.workers.length with h' | h'
    · exact h'
    · rw [List.getElem?_eq_none h'] at hw; cases hw
  have S := fun f w' => sumOf_set f p.workers i _ w' hw
  have G := fun j w' v => getElem?_set' p.workers i j _ w' v hw
  have W := hp.wlock i _ hw
  obtain ⟨wlock, mlock, lockw, counts, tot, blockq, grabq, awake, wait, mblock, mleave, masleep, noexit,
    hsome⟩ := hp
  simp [holds] at W
  constructor
  · clear S counts tot awake masleep; intro j v hv; simp only [G] at hv; grind [holds]
  · clear S G counts tot awake masleep; grind [mholds]
  · clear S G counts tot awake masleep; intro j hj; grind
  · intro u
    have h1 := S (runsTask u)
    have h2 := counts u
    clear S G counts tot awake masleep wlock
    simp only [runsTask] at h1 h2 ⊢
    grind
  · have h1 := S busy
    clear S G counts awake masleep wlock
    grind [busy]
  · clear S counts tot awake masleep; intro j hv; simp only [G] at hv; grind [holds]
  · clear S counts tot awake masleep; intro hr j hv; simp only [G] at hv; grind [holds]
  · clear S counts tot masleep; intro hr hq; exact absurd (blockq i hw) hq
  · clear S G counts tot awake masleep; grind [inWait]
  · clear S G counts tot awake masleep; grind [mholds]
  · clear S G counts awake masleep; grind [mholds]
  · clear S counts tot awake; intro hm
    simp only [G]
    grind [inWait]
  · clear S counts tot awake; intro hr j hv; simp only [G] at hv; grind
  · simpa using hsome

theorem inv_w_grab (p : Pool) (i : Nat) (hp : PInv p) (hw : p.workers[i]? = some WPc.grab) (hr : p.running = true) (t : Nat) (q : List Nat) (hq : p.queue = t :: q) :
    PInv { p with queue := q, lock := none, workers := p.workers.set i (.run t) } := by
  have hi : i < p.workers.length := by
    rcases Nat.lt_or_ge i p.workers.length with h' | h'
    · exact h'
    · rw [List.getElem?_eq_none h'] at hw; cases hw
  have S := fun f w' => sumOf_set f p.workers i _ w' hw
  have G := fun j w' v => getElem?_set' p.workers i j _ w' v hw
  have W := hp.wlock i _ hw
  obtain ⟨wlock, mlock, lockw, counts, tot, blockq, grabq, awake, wait, mblock, mleave, masleep, noexit,
    hsome⟩ := hp
  simp [holds] at W
  constructor
  · clear S counts tot awake masleep; intro j v hv; simp only [G] at hv; grind [holds]
  · clear S G counts tot awake masleep; grind [mholds]
  · clear S G counts tot awake masleep; intro j hj; grind
  · intro u
    have h1 := S (runsTask u)
    have h2 := counts u
    clear S G counts tot awake masleep wlock
    simp only [runsTask] at h1 h2 ⊢
    grind
  · have h1 := S busy
    clear S G counts awake masleep wlock
    grind [busy]
  · clear S counts tot awake masleep; intro j hv; simp only [G] at hv; grind [holds]
  · clear S counts tot awake masleep; intro hr j hv; simp only [G] at hv; grind [holds]
  · intro hr hq; left; refine ⟨i, _, by rw [G]; exact Or.inl ⟨rfl, rfl⟩, ?_⟩; grind
  · clear S G counts tot awake masleep; grind [inWait]
  · clear S G counts tot awake masleep; grind [mholds]
  · clear S G counts awake masleep; grind [mholds]
  · clear S counts tot awake; intro hm
    simp only [G]
    grind [inWait]
  · clear S counts tot awake; intro hr j hv; simp only [G] at hv; grind
  · simpa using hsome

theorem inv_w_grabStop (p : Pool) (i : Nat) (hp : PInv p) (hw : p.workers[i]? = some WPc.grab) (hr : p.running = false) :
    PInv { p with lock := none, workers := p.workers.set i .top } := by
  have hi : i < p.workers.length := by
    rcases Nat.lt_or_ge i p.workers.length with h' | h'
    · exact h'
    · rw [List.getElem?_eq_none h'] at hw; cases hw
  have S := fun f w' => sumOf_set f p.workers i _ w' hw
  have G := fun j w' v => getElem?_set' p.workers i j _ w' v hw
  have W := hp.wlock i _ hw
  obtain ⟨wlock, mlock, lockw, counts, tot, blockq, grabq, awake, wait, mblock, mleave, masleep, noexit,
    hsome⟩ := hp
  simp [holds] at W
  constructor
  · clear S counts tot awake masleep; intro j v hv; simp only [G] at hv; grind [holds]
  · clear S G counts tot awake masleep; grind [mholds]
  · clear S G counts tot awake masleep; intro j hj; grind
  · intro u
    have h1 := S (runsTask u)
    have h2 := counts u
    clear S G counts tot awake masleep wlock
    simp only [runsTask] at h1 h2 ⊢
    grind
  · have h1 := S busy
    clear S G counts awake masleep wlock
    grind [busy]
  · clear S counts tot awake masleep; intro j hv; simp only [G] at hv; grind [holds]
  · clear S counts tot awake masleep; intro hr j hv; simp only [G] at hv; grind [holds]
  · intro hr hq; left; refine ⟨i, _, by rw [G]; exact Or.inl ⟨rfl, rfl⟩, ?_⟩; grind
  · clear S G counts tot awake masleep; grind [inWait]
  · clear S G counts tot awake masleep; grind [mholds]
  · clear S G counts awake masleep; grind [mholds]
  · clear S counts tot awake; intro hm
    simp only [G]
    grind [inWait]
  · clear S counts tot awake; intro hr j hv; simp only [G] at hv; grind
  · simpa using hsome

theorem inv_w_run (p : Pool) (i : Nat) (hp : PInv p) (t : Nat) (hw : p.workers[i]? = some (WPc.run t)) :
    PInv { p with finished := p.finished ++ [t], workers := p.workers.set i .finish } := by
  have hi : i < p.workers.length := by
    rcases Nat.lt_or_ge i p.workers.length with h' | h'
    · exact h'
    · rw [List.getElem?_eq_none h'] at hw; cases hw
  have S := fun f w' => sumOf_set f p.workers i _ w' hw
  have G := fun j w' v => getElem?_set' p.workers i j _ w' v hw
  have W := hp.wlock i _ hw
  obtain ⟨wlock, mlock, lockw, counts, tot, blockq, grabq, awake, wait, mblock, mleave, masleep, noexit,
    hsome⟩ := hp
  simp [holds] at W
  constructor
  · clear S counts tot awake masleep; intro j v hv; simp only [G] at hv; grind [holds]
  · clear S G counts tot awake masleep; grind [mholds]
  · clear S G counts tot awake masleep; intro j hj; grind
  · intro u
    have h1 := S (runsTask u)
    have h2 := counts u
    clear S G counts tot awake masleep wlock
    simp only [runsTask] at h1 h2 ⊢
    grind
  · have h1 := S busy
    clear S G counts awake masleep wlock
    grind [busy]
  · clear S counts tot awake masleep; intro j hv; simp only [G] at hv; grind [holds]
  · clear S counts tot awake masleep; intro hr j hv; simp only [G] at hv; grind [holds]
  · intro hr hq; left; refine ⟨i, _, by rw [G]; exact Or.inl ⟨rfl, rfl⟩, ?_⟩; grind
  · clear S G counts tot awake masleep; grind [inWait]
  · clear S G counts tot awake masleep; grind [mholds]
  · clear S G counts awake masleep; grind [mholds]
  · clear S counts tot awake; intro hm
    simp only [G]
    grind [inWait]
  · clear S counts tot awake; intro hr j hv; simp only [G] at hv; grind
  · simpa using hsome

theorem inv_w_finish (p : Pool) (i : Nat) (hp : PInv p) (hw : p.workers[i]? = some WPc.finish) (hl : p.lock = none) :
    PInv { p with lock := some (.worker i), workers := p.workers.set i .decr } := by
  have hi : i < p.workers.length := by
    rcases Nat.lt_or_ge i p.workers.length with h' | h'
    · exact h'
    · rw [List.getElem?_eq_none h'] at hw; cases hw
  have S := fun f w' => sumOf_set f p.workers i _ w' hw
  have G := fun j w' v => getElem?_set' p.workers i j _ w' v hw
  have W := hp.wlock i _ hw
  obtain ⟨wlock, mlock, lockw, counts, tot, blockq, grabq, awake, wait, mblock, mleave, masleep, noexit,
    hsome⟩ := hp
  simp [holds] at W
  constructor
  · clear S counts tot awake masleep; intro j v hv; simp only [G] at hv; grind [holds]
  · clear S G counts tot awake masleep; grind [mholds]
  · clear S G counts tot awake masleep; intro j hj; grind
  · intro u
    have h1 := S (runsTask u)
    have h2 := counts u
    clear S G counts tot awake masleep wlock
    simp only [runsTask] at h1 h2 ⊢
    grind
  · have h1 := S busy
    clear S G counts awake masleep wlock
    grind [busy]
  · clear S counts tot awake masleep; intro j hv; simp only [G] at hv; grind [holds]
  · clear S counts tot awake masleep; intro hr j hv; simp only [G] at hv; grind [holds]
  · intro hr hq; left; refine ⟨i, _, by rw [G]; exact Or.inl ⟨rfl, rfl⟩, ?_⟩; grind
  · clear S G counts tot awake masleep; grind [inWait]
  · clear S G counts tot awake masleep; grind [mholds]
  · clear S G counts awake masleep; grind [mholds]
  · clear S counts tot awake; intro hm
    simp only [G]
    grind [inWait]
  · clear S counts tot awake; intro hr j hv; simp only [G] at hv; grind
  · simpa using hsome

theorem inv_w_decr (p : Pool) (i : Nat) (hp : PInv p) (hw : p.workers[i]? = some WPc.decr) :
    PInv { p with total := p.total - 1, workers := p.workers.set i .notify } := by
  have hi : i < p.workers.length := by
    rcases Nat.lt_or_ge i p.workers.length with h' | h'
    · exact h'
    · rw [List.getElem?_eq_none h'] at hw; cases hw
  have S := fun f w' => sumOf_set f p.workers i _ w' hw
  have G := fun j w' v => getElem?_set' p.workers i j _ w' v hw
  have W := hp.wlock i _ hw
  obtain ⟨wlock, mlock, lockw, counts, tot, blockq, grabq, awake, wait, mblock, mleave, masleep, noexit,
    hsome⟩ := hp
  simp [holds] at W
  constructor
  · clear S counts tot awake masleep; intro j v hv; simp only [G] at hv; grind [holds]
  · clear S G counts tot awake masleep; grind [mholds]
  · clear S G counts tot awake masleep; intro j hj; grind
  · intro u
    have h1 := S (runsTask u)
    have h2 := counts u
    clear S G counts tot awake masleep wlock
    simp only [runsTask] at h1 h2 ⊢
    grind
  · have h1 := S busy
    clear S G counts awake masleep wlock
    grind [busy]
  · clear S counts tot awake masleep; intro j hv; simp only [G] at hv; grind [holds]
  · clear S counts tot awake masleep; intro hr j hv; simp only [G] at hv; grind [holds]
  · intro hr hq; left; refine ⟨i, _, by rw [G]; exact Or.inl ⟨rfl, rfl⟩, ?_⟩; grind
  · clear S G counts tot awake masleep; grind [inWait]
  · clear S G counts tot awake masleep; grind [mholds]
  · clear S G counts awake masleep; grind [mholds]
  · clear S counts tot awake; intro hm
    simp only [G]
    grind [inWait]
  · clear S counts tot awake; intro hr j hv; simp only [G] at hv; grind
  · simpa using hsome

theorem inv_w_notify (p : Pool) (i : Nat) (hp : PInv p) (hw : p.workers[i]? = some WPc.notify) :
    PInv { p with
      mpc := if p.waiting = true ∧ p.mpc = .asleep then .wantLock else p.mpc
      lock := none
      workers := p.workers.set i .top } := by
  have hi : i < p.workers.length := by
    rcases Nat.lt_or_ge i p.workers.length with h' | h'
    · exact h'
    · rw [List.getElem?_eq_none h'] at hw; cases hw
  have S := fun f w' => sumOf_set f p.workers i _ w' hw
  have G := fun j w' v => getElem?_set' p.workers i j _ w' v hw
  have W := hp.wlock i _ hw
  obtain ⟨wlock, mlock, lockw, counts, tot, blockq, grabq, awake, wait, mblock, mleave, masleep, noexit,
    hsome⟩ := hp
  simp [holds] at W
  constructor
  · clear S counts tot awake masleep; intro j v hv; simp only [G] at hv; grind [holds]
  · clear S G counts tot awake masleep; grind [mholds]
  · clear S G counts tot awake masleep; intro j hj; grind
  · intro u
    have h1 := S (runsTask u)
    have h2 := counts u
    clear S G counts tot awake masleep wlock
    simp only [runsTask] at h1 h2 ⊢
    grind
  · have h1 := S busy
    clear S G counts awake masleep wlock
    grind [busy]
  · clear S counts tot awake masleep; intro j hv; simp only [G] at hv; grind [holds]
  · clear S counts tot awake masleep; intro hr j hv; simp only [G] at hv; grind [holds]
  · intro hr hq; left; refine ⟨i, _, by rw [G]; exact Or.inl ⟨rfl, rfl⟩, ?_⟩; grind
  · clear S G counts tot awake masleep; grind [inWait]
  · clear S G counts tot awake masleep; grind [mholds]
  · clear S G counts awake masleep; grind [mholds]
  · clear S counts tot awake; intro hm
    simp only [G]
    grind [inWait]
  · clear S counts tot awake; intro hr j hv; simp only [G] at hv; grind
  · simpa using hsome

theorem inv_worker (p q : Pool) (i : Nat) (hp : PInv p) (h : p.workerStep i = some q) : PInv q := by
  unfold Pool.workerStep at h
  split at h
  · cases h
  all_goals rename_i hw
  · cases h; exact inv_w_top p i hp hw
  · split at h
    · rename_i hl; cases h; exact inv_w_wantLock p i hp hw hl
    · cases h
  · cases h; exact inv_w_check p i hp hw
  · cases h; exact inv_w_block p i hp hw
  · cases h
  · split at h
    · rename_i hr
      split at h
      · cases h
      · rename_i hq; cases h; exact inv_w_grab p i hp hw hr _ _ hq
    · rename_i hr; cases h; exact inv_w_grabStop p i hp hw (by simpa using hr)
  · cases h; exact inv_w_run p i hp _ hw
  · split at h
    · rename_i hl; cases h; exact inv_w_finish p i hp hw hl
    · cases h
  · cases h; exact inv_w_decr p i hp hw
  · cases h; exact inv_w_notify p i hp hw
  · cases h

theorem getElem?_wakeAll (l : List WPc) (j : Nat) (v : WPc) :
    (l.map fun w => if w = .asleep then .wantLock else w)[j]? = some v ↔
      (l[j]? = some .asleep ∧ v = .wantLock) ∨ (l[j]? = some v ∧ v ≠ .asleep) := by
  rw [List.getElem?_map]
  cases h : l[j]? with
  | none => simp
  | some w => simp only [Option.map_some, Option.some.injEq]; grind

theorem sumOf_wakeAll (f : WPc → Nat) (l : List WPc) (h : f .asleep = f .wantLock) :
    sumOf f (l.map fun w => if w = .asleep then .wantLock else w) = sumOf f l := by
  induction l with
  | nil => rfl
  | cons a l ih => simp only [List.map_cons, sumOf, ih]; grind

theorem inv_wake (p : Pool) (i : Nat) (hp : PInv p) (hw : p.workers[i]? = some WPc.asleep) (m : MPc)
    (hm : m = p.mpc ∨ (p.mpc = .notifying ∧ m = .ready)) :
    PInv { p with workers := p.workers.set i .wantLock, mpc := m } := by
  have hi : i < p.workers.length := by
    rcases Nat.lt_or_ge i p.workers.length with h' | h'
    · exact h'
    · rw [List.getElem?_eq_none h'] at hw; cases hw
  have S := fun f w' => sumOf_set f p.workers i _ w' hw
  have G := fun j w' v => getElem?_set' p.workers i j _ w' v hw
  have W := hp.wlock i _ hw
  obtain ⟨wlock, mlock, lockw, counts, tot, blockq, grabq, awake, wait, mblock, mleave, masleep, noexit,
    hsome⟩ := hp
  simp [holds] at W
  constructor
  · clear S counts tot awake masleep; intro j v hv; simp only [G] at hv; grind [holds]
  · clear S G counts tot awake masleep; grind [mholds]
  · clear S G counts tot awake masleep; intro j hj; grind
  · intro u
    have h1 := S (runsTask u)
    have h2 := counts u
    clear S G counts tot awake masleep wlock
    simp only [runsTask] at h1 h2 ⊢
    grind
  · have h1 := S busy
    clear S G counts awake masleep wlock
    grind [busy]
  · clear S counts tot awake masleep; intro j hv; simp only [G] at hv; grind [holds]
  · clear S counts tot awake masleep; intro hr j hv; simp only [G] at hv; grind [holds]
  · intro hr hq; left; refine ⟨i, _, by rw [G]; exact Or.inl ⟨rfl, rfl⟩, ?_⟩; grind
  · clear S G counts tot awake masleep; grind [inWait]
  · clear S G counts tot awake masleep; grind [mholds]
  · clear S G counts awake masleep; grind [mholds]
  · clear S counts tot awake; intro hm
    simp only [G]
    grind [inWait]
  · clear S counts tot awake; intro hr j hv; simp only [G] at hv; grind
  · simpa using hsome

theorem inv_main (p q : Pool) (k : Nat) (hp : PInv p) (h : p.mainStep k = some q) : PInv q := by
  unfold Pool.mainStep at h
  split at h
  all_goals rename_i hm
  all_goals (try split at h)
  all_goals (first | (cases h; done) | skip)
  -- ready, push
  · split at h
    · rename_i hl
      cases h
      obtain ⟨wlock, mlock, lockw, counts, tot, blockq, grabq, awake, wait, mblock, mleave, masleep, noexit,
        hsome⟩ := hp
      constructor
      · exact wlock
      · grind [mholds]
      · exact lockw
      · intro u; have := counts u; simp only [List.count_append]; grind
      · simp at tot ⊢; grind
      · intro j hj; have := wlock j _ hj; grind [holds]
      · intro _ j hj; simp
      · intro _ _; exact Or.inr (Or.inl rfl)
      · simp [inWait]
      · simp
      · simp
      · simp
      · exact noexit
      · exact hsome
    · cases h
  -- ready, wait
  · cases h
    obtain ⟨wlock, mlock, lockw, counts, tot, blockq, grabq, awake, wait, mblock, mleave, masleep, noexit,
      hsome⟩ := hp
    constructor
    · exact wlock
    · grind [mholds]
    · exact lockw
    · exact counts
    · grind
    · exact blockq
    · exact grabq
    · grind
    · simp
    · simp
    · simp
    · simp
    · exact noexit
    · exact hsome
  -- ready, stop
  · cases h
    obtain ⟨wlock, mlock, lockw, counts, tot, blockq, grabq, awake, wait, mblock, mleave, masleep, noexit,
      hsome⟩ := hp
    constructor
    · exact wlock
    · grind [mholds]
    · exact lockw
    · exact counts
    · grind
    · exact blockq
    · simp
    · simp
    · simp [inWait]
    · simp
    · simp
    · simp
    · simp
    · exact hsome
  -- counting
  · cases h
    obtain ⟨wlock, mlock, lockw, counts, tot, blockq, grabq, awake, wait, mblock, mleave, masleep, noexit,
      hsome⟩ := hp
    constructor
    · exact wlock
    · grind [mholds]
    · exact lockw
    · exact counts
    · grind
    · exact blockq
    · exact grabq
    · intro _ _; exact Or.inr (Or.inr rfl)
    · simp [inWait]
    · simp
    · simp
    · simp
    · exact noexit
    · exact hsome
  -- notifying, somebody is asleep
  · split at h
    · rename_i hk; cases h; exact inv_wake p k hp hk _ (Or.inr ⟨hm, rfl⟩)
    · cases h
  -- notifying, nobody is asleep
  · rename_i hno
    cases h
    obtain ⟨wlock, mlock, lockw, counts, tot, blockq, grabq, awake, wait, mblock, mleave, masleep, noexit,
      hsome⟩ := hp
    constructor
    · exact wlock
    · grind [mholds]
    · exact lockw
    · exact counts
    · grind
    · exact blockq
    · exact grabq
    · intro _ _
      left
      refine ⟨0, p.workers[0], List.getElem?_eq_getElem hsome, ?_⟩
      intro e; exact hno (e ▸ List.getElem_mem hsome)
    · simp [inWait]
    · simp
    · simp
    · simp
    · exact noexit
    · exact hsome
  -- wantLock
  · rename_i hl
    cases h
    obtain ⟨wlock, mlock, lockw, counts, tot, blockq, grabq, awake, wait, mblock, mleave, masleep, noexit,
      hsome⟩ := hp
    constructor
    · grind
    · grind [mholds]
    · simp
    · exact counts
    · grind
    · exact blockq
    · exact grabq
    · grind
    · intro _; exact wait (by rw [hm]; rfl)
    · simp
    · simp
    · simp
    · exact noexit
    · exact hsome
  -- check, total = 0
  · rename_i ht
    cases h
    obtain ⟨wlock, mlock, lockw, counts, tot, blockq, grabq, awake, wait, mblock, mleave, masleep, noexit,
      hsome⟩ := hp
    constructor
    · exact wlock
    · grind [mholds]
    · exact lockw
    · exact counts
    · grind
    · exact blockq
    · exact grabq
    · grind
    · intro _; exact wait (by rw [hm]; rfl)
    · simp
    · intro _; exact ht
    · simp
    · exact noexit
    · exact hsome
  -- check, total ≠ 0
  · rename_i ht
    cases h
    obtain ⟨wlock, mlock, lockw, counts, tot, blockq, grabq, awake, wait, mblock, mleave, masleep, noexit,
      hsome⟩ := hp
    constructor
    · exact wlock
    · grind [mholds]
    · exact lockw
    · exact counts
    · grind
    · exact blockq
    · exact grabq
    · grind
    · intro _; exact wait (by rw [hm]; rfl)
    · intro _; exact ht
    · simp
    · simp
    · exact noexit
    · exact hsome
  -- block
  · cases h
    obtain ⟨wlock, mlock, lockw, counts, tot, blockq, grabq, awake, wait, mblock, mleave, masleep, noexit,
      hsome⟩ := hp
    constructor
    · intro j v hv; have := wlock j v hv; grind [mholds]
    · grind [mholds]
    · simp
    · exact counts
    · grind
    · exact blockq
    · exact grabq
    · grind
    · intro _; exact wait (by rw [hm]; rfl)
    · simp
    · simp
    · intro _; exact Or.inl (mblock hm)
    · exact noexit
    · exact hsome
  -- leave
  · cases h
    obtain ⟨wlock, mlock, lockw, counts, tot, blockq, grabq, awake, wait, mblock, mleave, masleep, noexit,
      hsome⟩ := hp
    constructor
    · intro j v hv; have := wlock j v hv; grind [mholds]
    · grind [mholds]
    · simp
    · exact counts
    · grind
    · exact blockq
    · exact grabq
    · grind
    · simp [inWait]
    · simp
    · simp
    · simp
    · exact noexit
    · exact hsome
  -- notifyAll
  · cases h
    obtain ⟨wlock, mlock, lockw, counts, tot, blockq, grabq, awake, wait, mblock, mleave, masleep, noexit,
      hsome⟩ := hp
    constructor
    · intro j v hv; rw [getElem?_wakeAll] at hv; have := wlock j; grind [holds]
    · grind [mholds]
    · simpa using lockw
    · intro t; simp only; rw [sumOf_wakeAll _ _ (by simp [runsTask])]; exact counts t
    · simp only; rw [sumOf_wakeAll _ _ (by simp [busy])]; grind
    · intro j hv; simp only [getElem?_wakeAll] at hv; grind
    · intro hr j hv; simp only [getElem?_wakeAll] at hv; grind
    · intro hr hq
      left
      refine ⟨0, if p.workers[0] = .asleep then .wantLock else p.workers[0], ?_, by grind⟩
      simp [hsome]
    · simp [inWait]
    · simp
    · simp
    · simp
    · intro hr j hv; simp only [getElem?_wakeAll] at hv; grind
    · simpa using hsome
  -- joining
  · cases h
    obtain ⟨wlock, mlock, lockw, counts, tot, blockq, grabq, awake, wait, mblock, mleave, masleep, noexit,
      hsome⟩ := hp
    constructor
    · exact wlock
    · grind [mholds]
    · exact lockw
    · exact counts
    · grind
    · exact blockq
    · exact grabq
    · grind
    · simp [inWait]
    · simp
    · simp
    · simp
    · exact noexit
    · exact hsome

theorem inv_step (p q : Pool) (a : Act) (hp : PInv p) (h : p.step a = some q) : PInv q := by
  cases a with
  | main k => exact inv_main p q k hp h
  | worker i => exact inv_worker p q i hp h
  | spuriousWorker i =>
    simp only [Pool.step] at h
    split at h
    · rename_i hw; cases h; exact inv_wake p i hp hw _ (Or.inl rfl)
    · cases h
  | spuriousMain =>
    simp only [Pool.step] at h
    split at h
    · rename_i hm
      cases h
      obtain ⟨wlock, mlock, lockw, counts, tot, blockq, grabq, awake, wait, mblock, mleave, masleep, noexit,
        hsome⟩ := hp
      constructor
      · exact wlock
      · grind [mholds]
      · exact lockw
      · exact counts
      · grind
      · exact blockq
      · exact grabq
      · grind
      · intro _; exact wait (by rw [hm]; rfl)
      · simp
      · simp
      · simp
      · exact noexit
      · exact hsome
    · cases h

theorem inv_run (acts : List Act) (p q : Pool) (hp : PInv p) (h : Pool.run acts p = some q) : PInv q := by
  induction acts generalizing p with
  | nil => cases h; exact hp
  | cons a acts ih =>
    simp only [Pool.run] at h
    split at h
    · rename_i p' hs; exact ih p' (inv_step p p' a hp hs) h
    · cases h

/-! ## What the owning thread has done so far -/

theorem tasksOf_append (a b : List Cmd) : tasksOf (a ++ b) = tasksOf a ++ tasksOf b := by
  induction a with
  | nil => rfl
  | cons c a ih => cases c <;> simp [tasksOf, ih]

theorem sumOf_busy_zero (l : List WPc) (h : sumOf busy l = 0) (i : Nat) (w : WPc) (hw : l[i]? = some w) :
    busy w = 0 := by
  have := le_sumOf busy l i w hw
  omega

/-- The calls `consumed` have been started, all but the last one have returned. -/
structure Hist (prog : List Cmd) (p : Pool) : Prop where
  inv : PInv p
  ex : ∃ consumed, prog = consumed ++ p.prog ∧ p.pushed = tasksOf consumed ∧
    (p.mpc = .ready → consumed.getLast? = some .wait → p.total = 0) ∧
    (p.mpc = .counting ∨ p.mpc = .notifying ∨ p.mpc = .notifyAll ∨ p.mpc = .joining →
      consumed.getLast? ≠ some .wait)

theorem hist_init (req hw : Nat) (prog : List Cmd) : Hist prog (Pool.init req hw prog) :=
  ⟨inv_init req hw prog, [], by simp [Pool.init, tasksOf]⟩

theorem hist_worker (prog : List Cmd) (p q : Pool) (i : Nat) (hp : Hist prog p)
    (h : p.workerStep i = some q) : Hist prog q := by
  refine ⟨inv_worker p q i hp.inv h, ?_⟩
  obtain ⟨c, h1, h2, h3, h4⟩ := hp.ex
  refine ⟨c, ?_, ?_, ?_, ?_⟩
  · unfold Pool.workerStep at h; grind
  · unfold Pool.workerStep at h; grind
  case refine_4 => intro hm; apply h4; unfold Pool.workerStep at h; grind
  · intro hm hc
    have hm' : p.mpc = .ready := by unfold Pool.workerStep at h; grind
    have ht := h3 hm' hc
    have hb : sumOf busy p.workers = 0 := by
      have := hp.inv.tot
      rw [if_neg (by rw [hm']; decide), ht] at this
      omega
    have hd : p.workers[i]? ≠ some WPc.decr := by
      intro e
      have := sumOf_busy_zero _ hb i _ e
      simp [busy] at this
    unfold Pool.workerStep at h
    grind

theorem hist_main (prog : List Cmd) (p q : Pool) (k : Nat) (hp : Hist prog p)
    (h : p.mainStep k = some q) : Hist prog q := by
  refine ⟨inv_main p q k hp.inv h, ?_⟩
  have hleave := hp.inv.mleave
  obtain ⟨c, h1, h2, h3, h4⟩ := hp.ex
  unfold Pool.mainStep at h
  split at h
  · split at h
    · cases h
    · rename_i t r hr
      split at h
      · cases h
        exact ⟨c ++ [.push t], by simp [h1, hr], by simp [h2, tasksOf_append, tasksOf], by simp, by simp⟩
      · cases h
    · rename_i r hr
      cases h
      exact ⟨c ++ [.wait], by simp [h1, hr], by simp [h2, tasksOf_append, tasksOf], by simp, by simp⟩
    · rename_i r hr
      cases h
      exact ⟨c ++ [.stop], by simp [h1, hr], by simp [h2, tasksOf_append, tasksOf], by simp, by simp⟩
  · cases h; exact ⟨c, h1, h2, by simp, fun _ => h4 (by grind)⟩
  · split at h
    · split at h
      · cases h; exact ⟨c, h1, h2, fun _ hc => absurd hc (h4 (by grind)), by simp⟩
      · cases h
    · cases h; exact ⟨c, h1, h2, fun _ hc => absurd hc (h4 (by grind)), by simp⟩
  · split at h
    · cases h; exact ⟨c, h1, h2, by simp, by simp⟩
    · cases h
  · split at h <;> (cases h; exact ⟨c, h1, h2, by simp, by simp⟩)
  · cases h; exact ⟨c, h1, h2, by simp, by simp⟩
  · cases h
  · rename_i hm
    cases h; exact ⟨c, h1, h2, fun _ _ => hleave hm, by simp⟩
  · cases h; exact ⟨c, h1, h2, by simp, fun _ => h4 (by grind)⟩
  · split at h
    · cases h; exact ⟨c, h1, h2, fun _ hc => absurd hc (h4 (by grind)), by simp⟩
    · cases h

theorem hist_step (prog : List Cmd) (p q : Pool) (a : Act) (hp : Hist prog p) (h : p.step a = some q) :
    Hist prog q := by
  cases a with
  | main k => exact hist_main prog p q k hp h
  | worker i => exact hist_worker prog p q i hp h
  | spuriousWorker i =>
    refine ⟨inv_step p q (.spuriousWorker i) hp.inv h, ?_⟩
    obtain ⟨c, h1, h2, h3, h4⟩ := hp.ex
    simp only [Pool.step] at h
    split at h
    · cases h; exact ⟨c, h1, h2, h3, h4⟩
    · cases h
  | spuriousMain =>
    refine ⟨inv_step p q .spuriousMain hp.inv h, ?_⟩
    obtain ⟨c, h1, h2, h3, h4⟩ := hp.ex
    simp only [Pool.step] at h
    split at h
    · cases h; exact ⟨c, h1, h2, by simp, by simp⟩
    · cases h

theorem hist_run (prog : List Cmd) (acts : List Act) (p q : Pool) (hp : Hist prog p)
    (h : Pool.run acts p = some q) : Hist prog q := by
  induction acts generalizing p with
  | nil => cases h; exact hp
  | cons a acts ih =>
    simp only [Pool.run] at h
    split at h
    · rename_i p' hs; exact ih p' (hist_step prog p p' a hp hs) h
    · cases h

/-- `tasks_total = 0` and no uncounted push: every pushed task has been run, as often as it was pushed. -/
theorem finished_of_total_zero (p : Pool) (hp : PInv p) (ht : p.total = 0) (hm : p.mpc ≠ .counting) :
    p.finished.Perm p.pushed := by
  have h := hp.tot
  rw [if_neg hm, ht] at h
  have hq : p.queue = [] := List.eq_nil_of_length_eq_zero (by omega)
  have hb : sumOf busy p.workers = 0 := by omega
  rw [List.perm_iff_count]
  intro t
  have h1 := hp.counts t
  have h2 := sumOf_le (runsTask t) busy p.workers (runsTask_le_busy t)
  rw [hq] at h1
  simp at h1
  omega

/-! ## The program never contains `stop`: `running` stays true -/

theorem running_step (p q : Pool) (a : Act) (hs : .stop ∉ p.prog) (hr : p.running = true)
    (h : p.step a = some q) : .stop ∉ q.prog ∧ q.running = true := by
  cases a with
  | main k =>
    simp only [Pool.step, Pool.mainStep] at h
    split at h <;> grind
  | worker i => simp only [Pool.step, Pool.workerStep] at h; grind
  | spuriousWorker i => simp only [Pool.step] at h; grind
  | spuriousMain => simp only [Pool.step] at h; grind

theorem running_run (acts : List Act) (p q : Pool) (hs : .stop ∉ p.prog) (hr : p.running = true)
    (h : Pool.run acts p = some q) : .stop ∉ q.prog ∧ q.running = true := by
  induction acts generalizing p with
  | nil => cases h; exact ⟨hs, hr⟩
  | cons a acts ih =>
    simp only [Pool.run] at h
    split at h
    · rename_i p' hst
      obtain ⟨h1, h2⟩ := running_step p p' a hs hr hst
      exact ih p' h1 h2 h
    · cases h

/-- Not in the middle of `destroy_threads`. -/
def notStopping : MPc → Bool
  | .notifyAll | .joining => false
  | _ => true

theorem notStopping_step (p q : Pool) (a : Act) (hs : .stop ∉ p.prog) (hr : notStopping p.mpc = true)
    (h : p.step a = some q) : notStopping q.mpc = true := by
  cases a with
  | main k =>
    simp only [Pool.step, Pool.mainStep] at h
    split at h <;> grind [notStopping]
  | worker i => simp only [Pool.step, Pool.workerStep] at h; grind [notStopping]
  | spuriousWorker i => simp only [Pool.step] at h; grind
  | spuriousMain => simp only [Pool.step] at h; grind [notStopping]

theorem notStopping_run (acts : List Act) (p q : Pool) (hs : .stop ∉ p.prog) (hr : p.running = true)
    (hm : notStopping p.mpc = true) (h : Pool.run acts p = some q) : notStopping q.mpc = true := by
  induction acts generalizing p with
  | nil => cases h; exact hm
  | cons a acts ih =>
    simp only [Pool.run] at h
    split at h
    · rename_i p' hst
      obtain ⟨h1, h2⟩ := running_step p p' a hs hr hst
      exact ih p' h1 h2 (notStopping_step p p' a hs hm hst) h
    · cases h

/-- As long as the owning thread has not returned from its last call, some thread can move. -/
theorem progress (p : Pool) (hp : PInv p) (hr : p.running = true) (hns : notStopping p.mpc = true)
    (hstuck : Stuck p) : AllCallsReturned p := by
  have hW : ∀ i : Nat, p.workerStep i = none := fun i => hstuck (.worker i) rfl
  have hM : ∀ k : Nat, p.mainStep k = none := fun k => hstuck (.main k) rfl
  -- nobody holds the mutex
  have hlock : p.lock = none := by
    cases hl : p.lock with
    | none => rfl
    | some o =>
      exfalso
      cases o with
      | main =>
        have hm := hp.mlock.2 hl
        have := hM 0
        unfold Pool.mainStep at this
        cases hmp : p.mpc <;> rw [hmp] at this hm <;> simp [mholds] at hm this
        · split at this <;> cases this
      | worker i =>
        have hi := hp.lockw i hl
        have hh := (hp.wlock i _ (List.getElem?_eq_getElem hi)).2 hl
        have := hW i
        unfold Pool.workerStep at this
        rw [List.getElem?_eq_getElem hi] at this
        have hg := hp.grabq hr i
        rw [List.getElem?_eq_getElem hi] at hg
        cases hw : p.workers[i] <;> rw [hw] at this hh hg <;> simp [holds] at hh <;> simp [hr] at this
        · cases hq : p.queue with
          | nil => exact hg rfl hq
          | cons t q => rw [hq] at this; cases this
  -- everybody is asleep
  have hasleep : ∀ (i : Nat) (w : WPc), p.workers[i]? = some w → w = .asleep := by
    intro i w hw
    have h1 := hW i
    unfold Pool.workerStep at h1
    rw [hw] at h1
    have h2 := hp.noexit hr i
    rw [hw] at h2
    have h3 := hp.wlock i w hw
    rw [hlock] at h3
    cases w <;> simp_all [holds]
  have hbusy : sumOf busy p.workers = 0 := by
    apply sumOf_zero
    intro w hw
    obtain ⟨i, hi⟩ := List.getElem?_of_mem hw
    rw [hasleep i w hi]; rfl
  have h0 := hasleep 0 _ (List.getElem?_eq_getElem hp.pos)
  have hM0 := hM 0
  unfold Pool.mainStep at hM0
  cases hm : p.mpc <;> rw [hm] at hM0 <;> simp only [reduceCtorEq] at hM0
  · refine ⟨?_, hm⟩
    cases hprog : p.prog with
    | nil => rfl
    | cons c r => rw [hprog] at hM0; cases c <;> simp [hlock] at hM0
  · exfalso
    have := List.getElem?_eq_getElem hp.pos
    rw [h0] at this
    rw [this] at hM0
    simp only [if_true] at hM0
    split at hM0 <;> cases hM0
  · simp [hlock] at hM0
  · split at hM0 <;> cases hM0
  · exfalso
    rcases hp.masleep hm with ht | ⟨j, hj⟩
    · have htot := hp.tot
      rw [if_neg (by rw [hm]; decide), hbusy] at htot
      have hq : p.queue ≠ [] := by
        intro e; rw [e] at htot; simp at htot; exact ht htot
      rcases hp.awake hr hq with ⟨i, w, h1, h2⟩ | h | h
      · exact h2 (hasleep i w h1)
      · rw [hm] at h; cases h
      · rw [hm] at h; cases h
    · have := hasleep j _ hj; cases this
  · rw [hm] at hns; simp [notStopping] at hns

/-! ## Every schedule is finite -/

/-- Steps a worker can still take on its own. -/
def wrank : WPc → Nat
  | .top => 4 | .wantLock => 3 | .check => 2 | .block => 1 | .grab => 1 | .asleep => 0
  | .run _ => 11 | .finish => 10 | .decr => 9 | .notify => 8 | .exited => 0

/-- Steps the owning thread can still take in the current call. -/
def mrank : MPc → Nat
  | .ready => 0 | .counting => 5 | .notifying => 4 | .wantLock => 3 | .check => 2 | .block => 1
  | .asleep => 0 | .leave => 1 | .notifyAll => 0 | .joining => 0

/-- Bound on the steps that can still follow. -/
def rank (p : Pool) : Nat :=
  17 * pushes p.prog + 4 * waits p.prog + mrank p.mpc + 11 * p.queue.length + sumOf wrank p.workers

theorem rank_step (p q : Pool) (a : Act) (hs : .stop ∉ p.prog) (hr : p.running = true)
    (hm : notStopping p.mpc = true) (h : p.step a = some q) :
    rank q + (if a.spurious then 0 else 1) ≤ rank p + (if a.spurious then 3 else 0) := by
  cases a with
  | main k =>
    simp only [Pool.step, Pool.mainStep] at h
    simp only [Act.spurious]
    split at h <;> rename_i hmm
    · split at h
      · cases h
      · rename_i t r hprog
        split at h
        · cases h; simp [rank, hmm, hprog, mrank, pushes, waits, tasksOf]; omega
        · cases h
      · rename_i r hprog
        cases h; simp [rank, hmm, hprog, mrank, pushes, waits, tasksOf]; omega
      · rename_i r hprog
        rw [hprog] at hs; simp at hs
    · cases h; simp [rank, hmm, mrank]; omega
    · split at h
      · split at h
        · rename_i hk
          cases h
          have := sumOf_set wrank p.workers k _ .wantLock hk
          simp [rank, hmm, mrank, wrank] at this ⊢; omega
        · cases h
      · cases h; simp [rank, hmm, mrank]; omega
    · split at h
      · cases h; simp [rank, hmm, mrank]; omega
      · cases h
    · split at h <;> (cases h; simp [rank, hmm, mrank]; omega)
    · cases h; simp [rank, hmm, mrank]; omega
    · cases h
    · cases h; simp [rank, hmm, mrank]; omega
    · rw [hmm] at hm; simp [notStopping] at hm
    · rw [hmm] at hm; simp [notStopping] at hm
  | worker i =>
    simp only [Pool.step, Pool.workerStep] at h
    simp only [Act.spurious]
    split at h
    · cases h
    all_goals
      rename_i hw
      have S := fun w' => sumOf_set wrank p.workers i _ w' hw
    · cases h
      have := S .wantLock
      simp [rank, hr, wrank] at this ⊢; omega
    · split at h
      · cases h
        have := S .check
        simp [rank, wrank] at this ⊢; omega
      · cases h
    · cases h
      have h1 := S .grab
      have h2 := S .block
      simp [wrank] at h1 h2
      by_cases hq : p.queue = []
      · simp [rank, hr, hq]; omega
      · simp [rank, hr, hq]; omega
    · cases h
      have := S .asleep
      simp [rank, wrank] at this ⊢; omega
    · cases h
    · simp only [hr, if_true] at h
      split at h
      · cases h
      · rename_i t q' hq
        cases h
        have := S (.run t)
        simp [rank, wrank, hq] at this ⊢; omega
    · cases h
      have := S .finish
      simp [rank, wrank] at this ⊢; omega
    · split at h
      · cases h
        have := S .decr
        simp [rank, wrank] at this ⊢; omega
      · cases h
    · cases h
      have := S .notify
      simp [rank, wrank] at this ⊢; omega
    · cases h
      have := S .top
      simp [wrank] at this
      by_cases hc : p.waiting = true ∧ p.mpc = .asleep
      · simp [rank, hc, mrank]; omega
      · simp only [rank, if_neg hc]; simp; omega
    · cases h
  | spuriousWorker i =>
    simp only [Pool.step] at h
    simp only [Act.spurious]
    split at h
    · rename_i hw
      cases h
      have := sumOf_set wrank p.workers i _ .wantLock hw
      simp [rank, wrank] at this ⊢; omega
    · cases h
  | spuriousMain =>
    simp only [Pool.step] at h
    simp only [Act.spurious]
    split at h
    · rename_i hmm
      cases h
      simp [rank, hmm, mrank]; omega
    · cases h

theorem rank_run (acts : List Act) (p q : Pool) (hs : .stop ∉ p.prog)
    (hr : p.running = true) (hm : notStopping p.mpc = true) (h : Pool.run acts p = some q) :
    rank q + acts.countP (fun a => !a.spurious) ≤ rank p + 3 * acts.countP Act.spurious := by
  induction acts generalizing p with
  | nil => cases h; simp
  | cons a acts ih =>
    simp only [Pool.run] at h
    split at h
    · rename_i p' hst
      obtain ⟨h1, h2⟩ := running_step p p' a hs hr hst
      have h3 := rank_step p p' a hs hr hm hst
      have h4 := ih p' h1 h2 (notStopping_step p p' a hs hm hst) h
      simp only [List.countP_cons]
      cases ha : a.spurious <;> simp [ha] at h3 ⊢ <;> omega
    · cases h

theorem run_append (a b : List Act) (p : Pool) :
    Pool.run (a ++ b) p = (Pool.run a p).bind (Pool.run b) := by
  induction a generalizing p with
  | nil => rfl
  | cons x a ih =>
    simp only [List.cons_append, Pool.run]
    cases p.step x with
    | none => rfl
    | some q => exact ih q

/-! ## Stopping the workers -/

/-- After `running` became false and nobody was about to block: no worker ever sleeps again. -/
structure StopInv (p : Pool) : Prop where
  inv : PInv p
  stopped : p.running = false
  mpc : p.mpc = .notifyAll ∨ p.mpc = .joining ∨ p.mpc = .ready
  noblock : ∀ i : Nat, p.workers[i]? ≠ some WPc.block
  nosleep : p.mpc = .joining → ∀ i : Nat, p.workers[i]? ≠ some WPc.asleep
  exited : p.mpc = .ready → ∀ w ∈ p.workers, w = .exited

theorem stopInv_step (p q : Pool) (a : Act) (hp : StopInv p) (hs : p.prog = []) (h : p.step a = some q) :
    StopInv q ∧ q.prog = [] := by
  have hinv := inv_step p q a hp.inv h
  have hprog : q.prog = [] := by
    cases a <;> simp only [Pool.step, Pool.mainStep, Pool.workerStep] at h <;> grind
  refine ⟨?_, hprog⟩
  obtain ⟨pinv, hst, hmpc, hnb, hns, hex⟩ := hp
  have hexi : p.mpc = .ready → ∀ (i : Nat) (w : WPc), p.workers[i]? = some w → w = WPc.exited :=
    fun hm i w hw => hex hm w (List.mem_of_getElem? hw)
  cases a with
  | main k =>
    simp only [Pool.step, Pool.mainStep] at h
    rcases hmpc with hm | hm | hm
    · simp only [hm] at h
      cases h
      refine ⟨hinv, hst, Or.inr (Or.inl rfl), ?_, ?_, by simp⟩
      · intro i hi; simp only [getElem?_wakeAll] at hi; grind
      · intro _ i hi; simp only [getElem?_wakeAll] at hi; grind
    · simp only [hm] at h
      split at h
      · rename_i hall
        cases h
        exact ⟨hinv, hst, Or.inr (Or.inr rfl), hnb, by simp, fun _ => hall⟩
      · cases h
    · simp [hm, hs] at h
  | worker i =>
    have hnr : p.mpc ≠ .ready := by
      intro hm
      simp only [Pool.step, Pool.workerStep] at h
      cases hw : p.workers[i]? with
      | none => rw [hw] at h; cases h
      | some w => rw [hw, hexi hm i w hw] at h; cases h
    have hq : q.mpc = p.mpc ∧ q.running = p.running ∧ ∃ w, (p.workers[i]? = some w ∧ w ≠ .block) ∧
        ∃ w', q.workers = p.workers.set i w' ∧ w' ≠ .block ∧ w' ≠ .asleep := by
      simp only [Pool.step, Pool.workerStep] at h
      have := hnb i
      cases hw : p.workers[i]? with
      | none => rw [hw] at h; cases h
      | some w =>
        rw [hw] at h this
        cases w <;> simp only [hst] at h <;> grind
    obtain ⟨h1, h2, w, ⟨hw, hwb⟩, w', h3, h4, h5⟩ := hq
    refine ⟨hinv, by rw [h2]; exact hst, by rw [h1]; exact hmpc, ?_, ?_, ?_⟩
    · intro j hj
      rw [h3, getElem?_set' _ _ _ _ _ _ hw] at hj
      have := hnb j
      grind
    · intro hm j hj
      rw [h3, getElem?_set' _ _ _ _ _ _ hw] at hj
      have := hns (by rw [← h1]; exact hm) j
      grind
    · intro hm; exact absurd (by rw [← h1]; exact hm) hnr
  | spuriousWorker i =>
    simp only [Pool.step] at h
    split at h
    · rename_i hw
      cases h
      refine ⟨hinv, hst, hmpc, ?_, ?_, ?_⟩
      · intro j hj
        rw [getElem?_set' _ _ _ _ _ _ hw] at hj
        have := hnb j
        grind
      · intro hm j hj
        exact absurd hw (hns hm i)
      · intro hm; have := hexi hm i _ hw; cases this
    · cases h
  | spuriousMain =>
    simp only [Pool.step] at h
    split at h
    · rename_i hm; grind
    · cases h

theorem stopInv_run (acts : List Act) (p q : Pool) (hp : StopInv p) (hs : p.prog = [])
    (h : Pool.run acts p = some q) : StopInv q ∧ q.prog = [] := by
  induction acts generalizing p with
  | nil => cases h; exact ⟨hp, hs⟩
  | cons a acts ih =>
    simp only [Pool.run] at h
    split at h
    · rename_i p' hst
      obtain ⟨h1, h2⟩ := stopInv_step p p' a hp hs hst
      exact ih p' h1 h2 h
    · cases h

theorem stop_progress (p : Pool) (hp : StopInv p) (hstuck : Stuck p) :
    p.mpc = .ready ∧ ∀ w ∈ p.workers, w = .exited := by
  obtain ⟨pinv, hst, hmpc, hnb, hns, hex⟩ := hp
  have hW : ∀ i : Nat, p.workerStep i = none := fun i => hstuck (.worker i) rfl
  have hM : ∀ k : Nat, p.mainStep k = none := fun k => hstuck (.main k) rfl
  rcases hmpc with hm | hm | hm
  · have := hM 0; simp [Pool.mainStep, hm] at this
  · exfalso
    have hlock : p.lock = none := by
      cases hl : p.lock with
      | none => rfl
      | some o =>
        exfalso
        cases o with
        | main => have := pinv.mlock.2 hl; rw [hm] at this; simp [mholds] at this
        | worker i =>
          have hi := pinv.lockw i hl
          have hh := (pinv.wlock i _ (List.getElem?_eq_getElem hi)).2 hl
          have := hW i
          unfold Pool.workerStep at this
          rw [List.getElem?_eq_getElem hi] at this
          cases hw : p.workers[i] <;> rw [hw] at this hh <;> simp [holds] at hh <;> simp [hst] at this
    have hall : ∀ w ∈ p.workers, w = .exited := by
      intro w hw
      obtain ⟨i, hi⟩ := List.getElem?_of_mem hw
      have h1 := hW i
      unfold Pool.workerStep at h1
      rw [hi] at h1
      have h2 := hns hm i
      rw [hi] at h2
      have h3 := pinv.wlock i w hi
      rw [hlock] at h3
      cases w <;> simp_all [holds]
    have := hM 0
    simp only [Pool.mainStep, hm, if_pos hall, reduceCtorEq] at this
  · exact ⟨hm, hex hm⟩

end GT.Pool

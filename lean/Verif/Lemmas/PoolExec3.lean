import Verif.Lemmas.PoolExec2
import Verif.Lemmas.ExecutorDense

/-! # The invariant of the whole multi-threaded run -/

namespace GT.Mt

open GT.Pool GT.Spec

variable {B E : Type}

def Item.kind : Item E → Kind
  | .train _ _ => .train
  | .eval _ => .eval

def Item.ex : Item E → E
  | .train x _ => x
  | .eval x => x

/-- The lines of an example after its first barrier. -/
def Item.after (upd : List Nat) (tail : List (Line E)) : Item E → List (Line E)
  | .train _ y => .process y :: (pushAll .update upd ++ .pool .wait :: tail)
  | .eval _ => .predict :: tail

theorem Item.kind_ne (it : Item E) : it.kind ≠ .update := by cases it <;> simp [Item.kind]

theorem linesOf_cons (n : Nat) (upd : List Nat) (it : Item E) (items : List (Item E)) :
    linesOf n upd (it :: items) =
      .prepare it.ex :: (pushAll it.kind (List.range n) ++ .pool .wait :: it.after upd (linesOf n upd items)) := by
  cases it <;> simp [linesOf, Item.lines, Item.kind, Item.ex, Item.after]

/-! ## What is left to do -/

/-- The rest of the work from `e` gives the final result. -/
structure Rest (be : Backend B E) (smp : List Rat → Rat → Nat) (n N : Nat) (P : B → Prop) (upd : List Nat) (final : Exec B × List Nat)
    (items : List (Item E)) (e : Exec B) (out : List Nat) : Prop where
  len   : e.blocks.length = N
  tr    : trainableAt be e.blocks = upd
  ready : Ready n P e
  fst   : (oneByOne be smp items e).1 = final.1
  snd   : out ++ (oneByOne be smp items e).2 = final.2

inductive Where (be : Backend B E) (smp : List Rat → Rat → Nat) (n N : Nat) (P : B → Prop) (upd : List Nat) (final : Exec B × List Nat)
    (s : State B E) : Prop
  | exPush (it : Item E) (items : List (Item E)) (e : Exec B) (js : List Nat) (h : Ex be it.kind e it.ex js s)
      (hr : Rest be smp n N P upd final (it :: items) e s.out) (hm : Pushing s.pool.mpc)
      (hl : s.lines = pushAll it.kind js ++ .pool .wait :: it.after upd (linesOf N upd items))
  | exWait (it : Item E) (items : List (Item E)) (e : Exec B) (h : Ex be it.kind e it.ex [] s)
      (hr : Rest be smp n N P upd final (it :: items) e s.out) (hm : Waiting s.pool)
      (hl : s.lines = it.after upd (linesOf N upd items))
  | upPush (items : List (Item E)) (e : Exec B) (dom js : List Nat) (bs : List B) (g : B → B) (h : Up be dom js bs g e s)
      (hr : Rest be smp n N P upd final items e s.out) (hm : Pushing s.pool.mpc)
      (hl : s.lines = pushAll .update js ++ .pool .wait :: linesOf N upd items)
  | upWait (items : List (Item E)) (e : Exec B) (dom : List Nat) (bs : List B) (g : B → B) (h : Up be dom [] bs g e s)
      (hr : Rest be smp n N P upd final items e s.out) (hm : Waiting s.pool)
      (hl : s.lines = linesOf N upd items)

/-- The invariant. -/
structure Inv (be : Backend B E) (smp : List Rat → Rat → Nat) (n N : Nat) (P : B → Prop) (upd : List Nat) (final : Exec B × List Nat)
    (s : State B E) : Prop where
  pool    : GT.Pool.PInv s.pool
  prog    : s.pool.prog = poolCmds s.lines
  nostop  : .stop ∉ s.pool.prog
  running : s.pool.running = true
  at'     : Where be smp n N P upd final s

theorem poolCmds_push (k : Kind) (js : List Nat) (l : List (Line E)) :
    poolCmds (pushAll k js ++ l) = js.map (fun j => .push (taskOf k j)) ++ poolCmds l := by
  induction js with
  | nil => rfl
  | cons j js ih => simp only [pushAll, List.map_cons, List.cons_append, poolCmds] at ih ⊢; rw [ih]

theorem poolCmds_nostop (n : Nat) (upd : List Nat) (items : List (Item E)) : .stop ∉ poolCmds (linesOf n upd items) := by
  induction items with
  | nil => simp [linesOf, poolCmds]
  | cons it items ih =>
    rw [linesOf_cons]
    cases it
    · simp only [poolCmds, poolCmds_push, Item.after]; simp [ih]
    · simp only [poolCmds, poolCmds_push, Item.after]; simp [ih]

/-! ## The pool's view -/

/-- The pool part of a step is a step of the pool, or the pool stays as it is. -/
theorem step_pool (be : Backend B E) (smp : List Rat → Rat → Nat) (s s' : State B E) (a : Act) (hp : s.pool.prog = poolCmds s.lines)
    (h : s.step be smp a = some s') : (s.pool.step a = some s'.pool ∨ s'.pool = s.pool) ∧ s'.pool.prog = poolCmds s'.lines := by
  cases a with
  | main k =>
    simp only [State.step, State.mainStep] at h
    split at h
    · next hm =>
      split at h
      · cases h
      · next c r hl =>
        cases hq : s.pool.mainStep k with
        | none => rw [hq] at h; cases h
        | some q =>
          rw [hq] at h; cases h
          refine ⟨Or.inl hq, ?_⟩
          rw [hl, poolCmds] at hp
          unfold Pool.mainStep at hq
          simp only [hm, hp] at hq
          cases c
          · dsimp only at hq
            split at hq
            · cases hq; rfl
            · cases hq
          · cases hq; rfl
          · cases hq; rfl
      · next x r hl => cases h; rw [hl] at hp; exact ⟨Or.inr rfl, hp⟩
      · next x r hl => cases h; rw [hl] at hp; exact ⟨Or.inr rfl, hp⟩
      · next r hl => cases h; rw [hl] at hp; exact ⟨Or.inr rfl, hp⟩
    · next hm =>
      cases hq : s.pool.mainStep k with
      | none => rw [hq] at h; cases h
      | some q =>
        rw [hq] at h; cases h
        refine ⟨Or.inl hq, ?_⟩
        show q.prog = _
        have : q.prog = s.pool.prog := by
          unfold Pool.mainStep at hq
          split at hq <;> grind
        rw [this, hp]
  | worker i =>
    have hkeep : ∀ q, s.pool.workerStep i = some q → q.prog = s.pool.prog := by
      intro q hq
      unfold Pool.workerStep at hq
      split at hq <;> grind
    simp only [State.step, State.workerStep] at h
    split at h
    · unfold State.taskStep at h
      split at h
      · split at h
        · split at h
          · cases h; exact ⟨Or.inr rfl, hp⟩
          · cases h; exact ⟨Or.inr rfl, hp⟩
        · split at h
          · cases h; exact ⟨Or.inr rfl, hp⟩
          · cases h
        · split at h
          · cases h; exact ⟨Or.inr rfl, hp⟩
          · cases h; exact ⟨Or.inr rfl, hp⟩
        · cases h; exact ⟨Or.inr rfl, hp⟩
        · cases hq : s.pool.workerStep i with
          | none => rw [hq] at h; cases h
          | some q => rw [hq] at h; cases h; exact ⟨Or.inl hq, by show q.prog = _; rw [hkeep q hq]; exact hp⟩
      · cases h
    · cases hq : s.pool.workerStep i with
      | none => rw [hq] at h; cases h
      | some q => rw [hq] at h; cases h; exact ⟨Or.inl hq, by show q.prog = _; rw [hkeep q hq]; exact hp⟩
  | spuriousMain =>
    simp only [State.step] at h
    cases hq : s.pool.step .spuriousMain with
    | none => rw [hq] at h; cases h
    | some q =>
      rw [hq] at h; cases h
      refine ⟨Or.inl rfl, ?_⟩
      simp only [Pool.step] at hq
      split at hq <;> cases hq
      exact hp
  | spuriousWorker i =>
    simp only [State.step] at h
    cases hq : s.pool.step (.spuriousWorker i) with
    | none => rw [hq] at h; cases h
    | some q =>
      rw [hq] at h; cases h
      refine ⟨Or.inl rfl, ?_⟩
      simp only [Pool.step] at hq
      split at hq <;> cases hq
      exact hp

/-! ## One step -/

variable {be : Backend B E} {smp : List Rat → Rat → Nat} {n N : Nat} {P : B → Prop} {upd : List Nat} {final : Exec B × List Nat}

theorem ready_votes {e : Exec B} (h : Ready n P e) : e.fb.nClasses ≤ e.fb.votes.length := by rw [h.fbClasses, h.fbVotes]

/-- The pool moves and no task begins or ends. -/
theorem where_same {s : State B E} (h : Where be smp n N P upd final s) (q : Pool) (hs : Same s.pool q)
    (h1 : Pushing s.pool.mpc → Pushing q.mpc) (h2 : Waiting s.pool → Waiting q) :
    Where be smp n N P upd final { s with pool := q } := by
  cases h with
  | exPush it items e js h hr hm hl => exact .exPush it items e js (h.same q s.lines hs) hr (h1 hm) hl
  | exWait it items e h hr hm hl => exact .exWait it items e (h.same q s.lines hs) hr (h2 hm) hl
  | upPush items e dom js bs g h hr hm hl => exact .upPush items e dom js bs g (h.same q s.lines hs) hr (h1 hm) hl
  | upWait items e dom bs g h hr hm hl => exact .upWait items e dom bs g (h.same q s.lines hs) hr (h2 hm) hl

theorem where_grab {s : State B E} (h : Where be smp n N P upd final s) (q : Pool) (i t : Nat) (hg : Grab s.pool q i t)
    (h1 : Pushing s.pool.mpc → Pushing q.mpc) (h2 : Waiting s.pool → Waiting q) :
    Where be smp n N P upd final { s with pool := q } := by
  cases h with
  | exPush it items e js h hr hm hl => exact .exPush it items e js (h.grab q i t hg) hr (h1 hm) hl
  | exWait it items e h hr hm hl => exact .exWait it items e (h.grab q i t hg) hr (h2 hm) hl
  | upPush items e dom js bs g h hr hm hl => exact .upPush items e dom js bs g (h.grab q i t hg) hr (h1 hm) hl
  | upWait items e dom bs g h hr hm hl => exact .upWait items e dom bs g (h.grab q i t hg) hr (h2 hm) hl

theorem where_worker {s s' : State B E} (h : Inv be smp n N P upd final s) (i : Nat) (hst : s.workerStep be i = some s') :
    Where be smp n N P upd final s' := by
  unfold State.workerStep at hst
  split at hst
  · next t hw =>
    -- inside a task
    have hfin : ∀ p, s.pool.workerStep i = some p → p.queue = s.pool.queue ∧ p.workers = s.pool.workers.set i .finish ∧
        (Pushing s.pool.mpc → Pushing p.mpc) ∧ (Waiting s.pool → Waiting p) := by
      intro p hp
      obtain ⟨f1, f2, f3, f4, f5⟩ := finish_eff _ p i t hp hw
      exact ⟨f1, f3, by rw [f4]; exact id, by unfold Waiting; rw [f4, f5]; exact id⟩
    cases h.at' with
    | exPush it items e js hx hr hm hl =>
      have hx' := hx
      obtain ⟨sch, ph, pc, hI⟩ := hx
      obtain ⟨j, hj, rfl⟩ := hI.track.ran i t hw
      rw [kindOf_taskOf, blockOf_taskOf] at hst
      rcases hI.task it.kind_ne i j hw hst with ⟨a, b, c, d⟩ | ⟨hd, p, hp, rfl⟩
      · exact .exPush it items e js d (by rw [c]; exact hr) (by rw [a]; exact hm) (by rw [b]; exact hl)
      · obtain ⟨f1, f2, f3, f4⟩ := hfin p hp
        exact .exPush it items e js (hx'.finish p i j (ready_votes hr.ready) hw hd f1 f2) hr (f3 hm) hl
    | exWait it items e hx hr hm hl =>
      have hx' := hx
      obtain ⟨sch, ph, pc, hI⟩ := hx
      obtain ⟨j, hj, rfl⟩ := hI.track.ran i t hw
      rw [kindOf_taskOf, blockOf_taskOf] at hst
      rcases hI.task it.kind_ne i j hw hst with ⟨a, b, c, d⟩ | ⟨hd, p, hp, rfl⟩
      · exact .exWait it items e d (by rw [c]; exact hr) (by rw [a]; exact hm) (by rw [b]; exact hl)
      · obtain ⟨f1, f2, f3, f4⟩ := hfin p hp
        exact .exWait it items e (hx'.finish p i j (ready_votes hr.ready) hw hd f1 f2) hr (f4 hm) hl
    | upPush items e dom js bs g hx hr hm hl =>
      have hx' := hx
      obtain ⟨pc, hI⟩ := hx
      obtain ⟨j, hj, rfl⟩ := hI.track.ran i t hw
      rw [kindOf_taskOf, blockOf_taskOf] at hst
      rcases hI.task i j hw hst with ⟨a, b, c, d⟩ | ⟨hd, p, hp, rfl⟩
      · exact .upPush items e dom js bs g d (by rw [c]; exact hr) (by rw [a]; exact hm) (by rw [b]; exact hl)
      · obtain ⟨f1, f2, f3, f4⟩ := hfin p hp
        exact .upPush items e dom js bs g (hx'.finish p i j hw hd f1 f2) hr (f3 hm) hl
    | upWait items e dom bs g hx hr hm hl =>
      have hx' := hx
      obtain ⟨pc, hI⟩ := hx
      obtain ⟨j, hj, rfl⟩ := hI.track.ran i t hw
      rw [kindOf_taskOf, blockOf_taskOf] at hst
      rcases hI.task i j hw hst with ⟨a, b, c, d⟩ | ⟨hd, p, hp, rfl⟩
      · exact .upWait items e dom bs g d (by rw [c]; exact hr) (by rw [a]; exact hm) (by rw [b]; exact hl)
      · obtain ⟨f1, f2, f3, f4⟩ := hfin p hp
        exact .upWait items e dom bs g (hx'.finish p i j hw hd f1 f2) hr (f4 hm) hl
  · next hw =>
    cases hq : s.pool.workerStep i with
    | none => rw [hq] at hst; cases hst
    | some q =>
      rw [hq] at hst; cases hst
      have hP := worker_pushing s.pool q i hq h.running hw
      have hW := worker_waiting s.pool q i h.pool hq h.running hw
      rcases worker_eff s.pool q i hq h.running hw with ⟨hs, -⟩ | ⟨t, hg⟩
      · refine where_same h.at' q hs (fun hm => ?_) (fun hm => ?_)
        · rcases hP hm with ⟨_, h⟩ | ⟨_, h⟩ <;> exact h
        · rcases hW hm with ⟨_, h⟩ | ⟨_, h⟩ <;> exact h
      · refine where_grab h.at' q i t hg (fun hm => ?_) (fun hm => ?_)
        · rcases hP hm with ⟨_, h⟩ | ⟨_, h⟩ <;> exact h
        · rcases hW hm with ⟨_, h⟩ | ⟨_, h⟩ <;> exact h

theorem push_step (p q : Pool) (k t : Nat) (r : List Cmd) (hm : p.mpc = .ready) (hp : p.prog = .push t :: r) (h : p.mainStep k = some q) :
    q.queue = p.queue ++ [t] ∧ q.workers = p.workers ∧ Pushing q.mpc := by
  unfold Pool.mainStep at h
  simp only [hm, hp] at h
  split at h
  · cases h; exact ⟨rfl, rfl, Or.inr (Or.inl rfl)⟩
  · cases h

theorem wait_step (p q : Pool) (k : Nat) (r : List Cmd) (hm : p.mpc = .ready) (hp : p.prog = .wait :: r) (h : p.mainStep k = some q) :
    q.queue = p.queue ∧ q.workers = p.workers ∧ Waiting q := by
  unfold Pool.mainStep at h
  simp only [hm, hp] at h
  cases h; exact ⟨rfl, rfl, Or.inl rfl⟩

theorem map_trainableAt (be : Backend B E) (bs : List B) (f : B → B) (hf : ∀ b, be.trainable (f b) = be.trainable b) :
    trainableAt be (bs.map f) = trainableAt be bs := by
  unfold trainableAt
  rw [List.length_map]
  apply List.filter_congr
  intro i _
  rw [List.getElem?_map]
  cases bs[i]? with
  | none => rfl
  | some b => simp [hf]

theorem compute_votes (hk : Keeps be n P) (k : Kind) (e : Exec B) (h : Ready n P e) (x : E) :
    ∀ b ∈ e.blocks, e.fb.nClasses ≤ (be.votes (compute be k b x)).length := by
  intro b hb
  rw [h.fbClasses]
  unfold compute
  split
  · exact (hk.eval b x (h.blocks b hb)).2
  · exact (hk.train b x (h.blocks b hb)).2

theorem where_main {s s' : State B E} (hk : Keeps be n P) (hf : SteadyFlags be) (h : Inv be smp n N P upd final s) (k : Nat)
    (hst : s.mainStep smp k = some s') : Where be smp n N P upd final s' := by
  unfold State.mainStep at hst
  split at hst
  · next hm =>
    cases h.at' with
    | exPush it items e js hx hr hmm hl =>
      cases js with
      | nil =>
        simp only [hl, pushAll, List.map_nil, List.nil_append] at hst
        cases hq : s.pool.mainStep k with
        | none => rw [hq] at hst; cases hst
        | some q =>
          rw [hq] at hst; cases hst
          have hpr := h.prog
          rw [hl] at hpr
          obtain ⟨h1, h2, h3⟩ := wait_step s.pool q k _ hm hpr hq
          have hsame : Same s.pool { q with prog := s.pool.prog } := ⟨h1, rfl, by show q.workers.length = _; rw [h2], fun i t => by show q.workers[i]? = _ ↔ _; rw [h2],
            fun t => by show sumOf _ q.workers = _; rw [h2]⟩
          have hx2 := hx.same _ (it.after upd (linesOf N upd items)) hsame
          refine .exWait it items e ?_ hr h3 rfl
          obtain ⟨sch, ph, pc, hI⟩ := hx2
          exact ⟨sch, ph, pc, hI.run, ⟨hI.track.once, hI.track.mem, hI.track.todo, hI.track.run, hI.track.fin, hI.track.idle⟩, hI.pcs, hI.blk, hI.fb, hI.idx, hI.cur, hI.free, hI.held⟩
      | cons j js =>
        simp only [hl, pushAll, List.map_cons, List.cons_append] at hst
        cases hq : s.pool.mainStep k with
        | none => rw [hq] at hst; cases hst
        | some q =>
          rw [hq] at hst; cases hst
          have hpr := h.prog
          rw [hl] at hpr
          obtain ⟨h1, h2, h3⟩ := push_step s.pool q k _ _ hm hpr hq
          exact .exPush it items e js (hx.push q _ h1 h2) hr h3 rfl
    | exWait it items e hx hr hmm hl =>
      have ht : s.pool.total = 0 := by
        rcases hmm with hmm | hmm
        · rw [hm] at hmm; cases hmm
        · exact hmm.2
      obtain ⟨o1, o2, o3, o4⟩ := hx.over h.pool hm ht (ready_votes hr.ready) (compute_votes hk _ e hr.ready _)
      cases it with
      | train x y =>
        simp only [hl, Item.after] at hst
        cases hst
        have hgoal : Rest be smp n N P upd final items (e.trainOne be smp x y) s.out := by
          refine ⟨?_, ?_, ready_train hk smp e x y hr.ready, hr.fst, hr.snd⟩
          · rw [← hr.len]; simp [Exec.trainOne, exampleLoop_blocks]
          · rw [← hr.tr]
            simp only [Exec.trainOne, exampleLoop_blocks, List.map_map]
            refine map_trainableAt be _ _ ?_
            intro b
            have hfb := hf b x (((exampleLoop (be.trainExample · x) be.votes e.blocks e.fb.reset).2.process smp y).feedback)
            have hfb2 := hf (be.trainExample b x) x (((exampleLoop (be.trainExample · x) be.votes e.blocks e.fb.reset).2.process smp y).feedback)
            simp only [Function.comp_def]
            split
            · rw [hfb2.2.2, hfb.1]
            · rw [hfb.1]
        have htr : trainableAt be s.exec.blocks = upd := by
          rw [← hr.tr, o1]
          show trainableAt be (exampleLoop _ _ _ _).1 = _
          rw [exampleLoop_blocks]
          exact map_trainableAt be _ _ fun b => (hf b x s.exec.fb.feedback).1
        have hu := up_new be x s h.pool hm ht o4 o2 o3 (pushAll .update upd ++ .pool .wait :: linesOf N upd items) (s.exec.fb.process smp y)
        rw [htr] at hu
        refine .upPush items _ upd upd _ _ hu ?_ (Or.inl hm) rfl
        rw [o1]
        exact hgoal
      | eval x =>
        simp only [hl, Item.after] at hst
        cases hst
        have hsx : s.exec = (e.evalOne be x).1 := o1
        have hpred : s.exec.fb.predict = (e.evalOne be x).2 := by rw [o1]; rfl
        have hu := up_idle be { s with lines := linesOf N upd items, out := s.out ++ [s.exec.fb.predict] } h.pool hm ht o4 o2
        refine .upWait items _ [] _ _ hu ?_ (Or.inr ⟨hm, ht⟩) rfl
        show Rest be smp n N P upd final items s.exec _
        rw [hsx]
        refine ⟨?_, ?_, ready_eval hk e x hr.ready, ?_, ?_⟩
        · rw [← hr.len]; simp [Exec.evalOne, exampleLoop_blocks]
        · rw [← hr.tr]
          simp only [Exec.evalOne, exampleLoop_blocks]
          exact map_trainableAt be _ _ fun b => (hf b x s.exec.fb.feedback).2.1
        · rw [← hr.fst]; rfl
        · have := hr.snd
          simp only [oneByOne] at this
          rw [← this, ← hsx, hpred]
          simp
    | upPush items e dom js bs g hx hr hmm hl =>
      cases js with
      | nil =>
        simp only [hl, pushAll, List.map_nil, List.nil_append] at hst
        cases hq : s.pool.mainStep k with
        | none => rw [hq] at hst; cases hst
        | some q =>
          rw [hq] at hst; cases hst
          have hpr := h.prog
          rw [hl] at hpr
          obtain ⟨h1, h2, h3⟩ := wait_step s.pool q k _ hm hpr hq
          have hsame : Same s.pool { q with prog := s.pool.prog } := ⟨h1, rfl, by show q.workers.length = _; rw [h2], fun i t => by show q.workers[i]? = _ ↔ _; rw [h2],
            fun t => by show sumOf _ q.workers = _; rw [h2]⟩
          have hx2 := hx.same _ (linesOf N upd items) hsame
          refine .upWait items e dom bs g ?_ hr h3 rfl
          obtain ⟨pc, hI⟩ := hx2
          exact ⟨pc, ⟨hI.track.once, hI.track.mem, hI.track.todo, hI.track.run, hI.track.fin, hI.track.idle⟩, hI.pcs, hI.len, hI.glen, hI.blk, hI.goal, hI.fb, hI.idx, hI.upd, hI.lock, hI.sub⟩
      | cons j js =>
        simp only [hl, pushAll, List.map_cons, List.cons_append] at hst
        cases hq : s.pool.mainStep k with
        | none => rw [hq] at hst; cases hst
        | some q =>
          rw [hq] at hst; cases hst
          have hpr := h.prog
          rw [hl] at hpr
          obtain ⟨h1, h2, h3⟩ := push_step s.pool q k _ _ hm hpr hq
          exact .upPush items e dom js bs g (hx.push q _ h1 h2) hr h3 rfl
    | upWait items e dom bs g hx hr hmm hl =>
      have ht : s.pool.total = 0 := by
        rcases hmm with hmm | hmm
        · rw [hm] at hmm; cases hmm
        · exact hmm.2
      obtain ⟨o1, o2, o3⟩ := hx.over h.pool hm ht
      cases items with
      | nil => simp [hl, linesOf] at hst
      | cons it items =>
        simp only [hl, linesOf_cons] at hst
        cases hst
        have hn := ex_new be it.kind e it.ex s h.pool hm ht o3 o1 o2 (pushAll it.kind (List.range N) ++ .pool .wait :: it.after upd (linesOf N upd items))
        rw [hr.len] at hn
        exact .exPush it items e (List.range N) hn hr (Or.inl hm) rfl
  · next hm =>
    cases hq : s.pool.mainStep k with
    | none => rw [hq] at hst; cases hst
    | some q =>
      rw [hq] at hst; cases hst
      obtain ⟨m1, m2⟩ := main_eff s.pool q k h.pool hq hm
      have hs : Same s.pool q := by
        cases h.at' with
        | exPush it items e js h hr hm hl => exact (m1 hm).1
        | exWait it items e h hr hm hl => exact (m2 hm).1
        | upPush items e dom js bs g h hr hm hl => exact (m1 hm).1
        | upWait items e dom bs g h hr hm hl => exact (m2 hm).1
      exact where_same h.at' q hs (fun hm => (m1 hm).2) (fun hm => (m2 hm).2)

theorem inv_step' {s s' : State B E} (hk : Keeps be n P) (hf : SteadyFlags be) (h : Inv be smp n N P upd final s) (a : Act)
    (hst : s.step be smp a = some s') : Inv be smp n N P upd final s' := by
  obtain ⟨hp, hprog⟩ := step_pool be smp s s' a h.prog hst
  have hw : Where be smp n N P upd final s' := by
    cases a with
    | main k => exact where_main hk hf h k hst
    | worker i => exact where_worker h i hst
    | spuriousMain =>
      simp only [State.step] at hst
      cases hq : s.pool.step .spuriousMain with
      | none => rw [hq] at hst; cases hst
      | some q =>
        rw [hq] at hst; cases hst
        obtain ⟨m1, m2, m3⟩ := spurious_eff s.pool q _ rfl hq
        exact where_same h.at' q m1 m2 m3
    | spuriousWorker i =>
      simp only [State.step] at hst
      cases hq : s.pool.step (.spuriousWorker i) with
      | none => rw [hq] at hst; cases hst
      | some q =>
        rw [hq] at hst; cases hst
        obtain ⟨m1, m2, m3⟩ := spurious_eff s.pool q _ rfl hq
        exact where_same h.at' q m1 m2 m3
  rcases hp with hp | hp
  · obtain ⟨h1, h2⟩ := running_step s.pool s'.pool a h.nostop h.running hp
    exact ⟨inv_step _ _ a h.pool hp, hprog, h1, h2, hw⟩
  · exact ⟨by rw [hp]; exact h.pool, hprog, by rw [hp]; exact h.nostop, by rw [hp]; exact h.running, hw⟩

theorem inv_init' (hr : Ready n P e) (req hw : Nat) (items : List (Item E)) :
    Inv be smp n e.blocks.length P (trainableAt be e.blocks) (oneByOne be smp items e) (init be req hw e items) := by
  have hp := inv_init req hw (poolCmds (linesOf e.blocks.length (trainableAt be e.blocks) items))
  refine ⟨hp, rfl, poolCmds_nostop _ _ _, rfl, ?_⟩
  refine .upWait items e [] _ _ (up_idle be (init be req hw e items) hp rfl rfl (fun _ => rfl) rfl) ⟨rfl, rfl, hr, rfl, rfl⟩ (Or.inr ⟨rfl, rfl⟩) rfl

theorem inv_run' {s s' : State B E} (hk : Keeps be n P) (hf : SteadyFlags be) (acts : List Act) (h : Inv be smp n N P upd final s)
    (hst : s.run be smp acts = some s') : Inv be smp n N P upd final s' := by
  induction acts generalizing s with
  | nil => cases hst; exact h
  | cons a acts ih =>
    simp only [State.run] at hst
    split at hst
    · next s1 h1 => exact ih (inv_step' hk hf h a h1) hst
    · cases hst

/-- What the invariant says at the end. -/
theorem inv_end {s : State B E} (h : Inv be smp n N P upd final s) (hd : MtReturned s) : s.exec = final.1 ∧ s.out = final.2 := by
  obtain ⟨hl, hm⟩ := hd
  cases h.at' with
  | exPush it items e js hx hr hmm hl' => rw [hl] at hl'; cases js <;> cases hl'
  | exWait it items e hx hr hmm hl' => rw [hl] at hl'; cases it <;> cases hl'
  | upPush items e dom js bs g hx hr hmm hl' => rw [hl] at hl'; cases js <;> cases hl'
  | upWait items e dom bs g hx hr hmm hl' =>
    have ht : s.pool.total = 0 := by
      rcases hmm with hmm | hmm
      · rw [hm] at hmm; cases hmm
      · exact hmm.2
    cases items with
    | cons it items => rw [hl, linesOf_cons] at hl'; cases hl'
    | nil =>
      have := hr.fst
      have := hr.snd
      simp [oneByOne] at *
      exact ⟨by rw [(hx.over h.pool hm ht).1]; assumption, this⟩

end GT.Mt

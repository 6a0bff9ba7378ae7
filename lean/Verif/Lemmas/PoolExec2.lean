import Verif.Lemmas.PoolExec
import Verif.Lemmas.Executor

/-! # The phases of one example on the thread pool -/

namespace GT.Mt

open GT.Pool GT.Spec

variable {B E : Type}

/-! ## The example phase -/

/-- While the tasks of one example run: the shared memory is that of some run of `Verif.Model.Threads`. -/
structure ExI (be : Backend B E) (k : Kind) (e : Exec B) (x : E) (js : List Nat) (s : State B E)
    (sch : List Nat) (ph : Phase B) (pc : Nat → Pc) : Prop where
  run   : Phase.run (compute be k · x) be.votes e.fb.nClasses sch (Phase.init e.fb.reset.votes e.blocks) = some ph
  track : Track k (List.range e.blocks.length) js s.pool s.wpc pc
  pcs   : ∀ (j : Nat) c, ph.tasks[j]? = some c → pc j = c.pc
  blk   : ph.tasks.map (·.block) = s.exec.blocks
  fb    : s.exec.fb = { e.fb.reset with votes := ph.votes }
  idx   : s.exec.index = e.index
  cur   : s.cur = some x
  free  : s.vlock = none → ph.lock = none
  held  : ∀ w, s.vlock = some w → ∃ j, ph.lock = some j ∧ s.pool.workers[w]? = some (.run (taskOf k j))

def Ex (be : Backend B E) (k : Kind) (e : Exec B) (x : E) (js : List Nat) (s : State B E) : Prop :=
  ∃ sch ph pc, ExI be k e x js s sch ph pc

theorem run_append' {B : Type} (f : B → B) (bv : B → List Int) (n : Nat) (sch : List Nat) (p q r : Phase B) (t : Nat)
    (h : Phase.run f bv n sch p = some q) (h2 : q.step f bv n t = some r) : Phase.run f bv n (sch ++ [t]) p = some r := by
  induction sch generalizing p with
  | nil => cases h; simp [Phase.run, h2]
  | cons a sch ih =>
    simp only [List.cons_append, Phase.run] at h ⊢
    split at h
    · exact ih _ h
    · cases h

/-- The shared facts after a step of a task. -/
theorem ExI.step {be : Backend B E} {k e x js} {s s' : State B E} {sch ph pc} (h : ExI be k e x js s sch ph pc) (i j : Nat)
    (hw : s.pool.workers[i]? = some (.run (taskOf k j))) (ph' : Phase B) (c : Pc) (b' : B)
    (hst : ph.step (compute be k · x) be.votes e.fb.nClasses j = some ph')
    (hts : ph'.tasks = ph.tasks.set j ⟨b', c⟩)
    (hpool : s'.pool = s.pool) (hwpc : s'.wpc = fun i' => if i' = i then c else s.wpc i')
    (hblk : s'.exec.blocks = s.exec.blocks.set j b') (hfb : s'.exec.fb = { s.exec.fb with votes := ph'.votes })
    (hidx : s'.exec.index = s.exec.index) (hcur : s'.cur = s.cur)
    (hfree : s'.vlock = none → ph'.lock = none)
    (hheld : ∀ w, s'.vlock = some w → ∃ j, ph'.lock = some j ∧ s.pool.workers[w]? = some (.run (taskOf k j))) :
    Ex be k e x js s' := by
  refine ⟨sch ++ [j], ph', fun j' => if j' = j then c else pc j', run_append' _ _ _ _ _ _ _ _ h.run hst, ?_, ?_, ?_, ?_, ?_, ?_, hfree, ?_⟩
  · rw [hpool, hwpc]; exact h.track.move hw c
  · intro j' c' hc'
    rw [hts] at hc'
    by_cases hj : j' = j
    · subst hj
      rw [if_pos rfl]
      by_cases hlt : j' < ph.tasks.length
      · rw [List.getElem?_set_self hlt] at hc'; cases hc'; rfl
      · rw [List.getElem?_eq_none (by rw [List.length_set]; omega)] at hc'; cases hc'
    · rw [if_neg hj]
      rw [List.getElem?_set_ne (fun h => hj h.symm)] at hc'
      exact h.pcs j' c' hc'
  · rw [hts, hblk, List.map_set, h.blk]
  · rw [hfb, h.fb]
  · rw [hidx, h.idx]
  · rw [hcur, h.cur]
  · rw [hpool]; exact hheld

theorem ExI.get {be : Backend B E} {k e x js} {s : State B E} {sch ph pc} (h : ExI be k e x js s sch ph pc) (i j : Nat)
    (hw : s.pool.workers[i]? = some (.run (taskOf k j))) (b : B) (hb : s.exec.blocks[j]? = some b) :
    ph.tasks[j]? = some ⟨b, s.wpc i⟩ := by
  rw [← h.blk, List.getElem?_map] at hb
  cases hc : ph.tasks[j]? with
  | none => rw [hc] at hb; cases hb
  | some c =>
    rw [hc] at hb
    have h1 := h.pcs j c hc
    rw [h.track.run i j hw] at h1
    rw [h1]
    cases hb
    rfl

theorem set_self {α : Type} (l : List α) (j : Nat) (a : α) (h : l[j]? = some a) : l.set j a = l := by
  apply List.ext_getElem?
  intro i
  by_cases hij : j = i
  · subst hij
    rw [List.getElem?_set_self (by
      rcases Nat.lt_or_ge j l.length with h' | h'
      · exact h'
      · rw [List.getElem?_eq_none h'] at h; cases h)]
    exact h.symm
  · rw [List.getElem?_set_ne hij]

/-- A step of a worker in a task of the example phase. -/
theorem ExI.task {be : Backend B E} {k e x js} {s s' : State B E} {sch ph pc} (hk : k ≠ .update) (h : ExI be k e x js s sch ph pc)
    (i j : Nat) (hw : s.pool.workers[i]? = some (.run (taskOf k j))) (hst : s.taskStep be i k j = some s') :
    (s'.pool = s.pool ∧ s'.lines = s.lines ∧ s'.out = s.out ∧ Ex be k e x js s') ∨
    (s.wpc i = .done ∧ ∃ p, s.pool.workerStep i = some p ∧ s' = { s with pool := p }.goto i .start) := by
  unfold State.taskStep at hst
  split at hst
  · next b x' hb hx =>
    rw [h.cur] at hx
    cases hx
    have hg := h.get i j hw b hb
    have hbl : s.exec.blocks.set j b = s.exec.blocks := set_self _ _ _ hb
    split at hst
    · next hpc =>
      rw [if_neg hk] at hst
      cases hst
      refine Or.inl ⟨rfl, rfl, rfl, ?_⟩
      refine h.step i j hw { ph with tasks := ph.tasks.set j ⟨compute be k b x, .computed⟩ } .computed (compute be k b x) ?_ rfl rfl rfl rfl ?_ rfl rfl
        h.free h.held
      · unfold Phase.step; rw [hg, hpc]
      · show s.exec.fb = _
        rw [h.fb]
    · next hpc =>
      split at hst
      · next hl =>
        cases hst
        refine Or.inl ⟨rfl, rfl, rfl, ?_⟩
        refine h.step i j hw { ph with lock := some j, tasks := ph.tasks.set j ⟨b, .adding 0⟩ } (.adding 0) b ?_ rfl rfl rfl ?_ ?_ rfl rfl ?_ ?_
        · unfold Phase.step; rw [hg, hpc]; dsimp only; rw [h.free hl]
        · exact hbl.symm
        · show s.exec.fb = _
          rw [h.fb]
        · intro hn; cases hn
        · intro w hwv
          cases hwv
          exact ⟨j, rfl, hw⟩
      · cases hst
    · next c hpc =>
      have hnc : s.exec.fb.nClasses = e.fb.nClasses := by rw [h.fb]; rfl
      have hvs : s.exec.fb.votes = ph.votes := by rw [h.fb]
      split at hst
      · next hc =>
        cases hst
        refine Or.inl ⟨rfl, rfl, rfl, ?_⟩
        refine h.step i j hw { ph with tasks := ph.tasks.set j ⟨b, .loaded c (ph.votes.getD c 0)⟩ } (.loaded c (ph.votes.getD c 0)) b ?_ rfl rfl ?_ ?_ ?_ rfl rfl h.free h.held
        · unfold Phase.step; rw [hg, hpc]; dsimp only; rw [← hnc, if_pos hc]
        · rw [← hvs]; rfl
        · exact hbl.symm
        · show s.exec.fb = _
          rw [h.fb]
      · next hc =>
        cases hst
        refine Or.inl ⟨rfl, rfl, rfl, ?_⟩
        refine h.step i j hw { ph with lock := none, tasks := ph.tasks.set j ⟨b, .done⟩ } .done b ?_ rfl rfl rfl ?_ ?_ rfl rfl ?_ ?_
        · unfold Phase.step; rw [hg, hpc]; dsimp only; rw [← hnc, if_neg hc]
        · exact hbl.symm
        · show s.exec.fb = _
          rw [h.fb]
        · intro _; rfl
        · intro w hwv; cases hwv
    · next c v hpc =>
      have hvs : s.exec.fb.votes = ph.votes := by rw [h.fb]
      cases hst
      refine Or.inl ⟨rfl, rfl, rfl, ?_⟩
      refine h.step i j hw { ph with votes := ph.votes.set c (wrap16 (v + (be.votes b).getD c 0)), tasks := ph.tasks.set j ⟨b, .adding (c + 1)⟩ }
        (.adding (c + 1)) b ?_ rfl rfl rfl ?_ ?_ rfl rfl h.free h.held
      · unfold Phase.step; rw [hg, hpc]
      · exact hbl.symm
      · show ({ s.exec.fb with votes := s.exec.fb.votes.set c (wrap16 (v + (be.votes b).getD c 0)) } : FB) = _
        rw [hvs]
    · next hpc =>
      right
      refine ⟨hpc, ?_⟩
      cases hp : s.pool.workerStep i with
      | none => rw [hp] at hst; cases hst
      | some p => rw [hp] at hst; cases hst; exact ⟨p, rfl, rfl⟩
  · cases hst

/-- The invariant of `Verif.Model.Threads` holds of the phase. -/
theorem ExI.pinv {be : Backend B E} {k e x js} {s : State B E} {sch ph pc} (h : ExI be k e x js s sch ph pc)
    (hv : e.fb.nClasses ≤ e.fb.votes.length) :
    GT.PInv (compute be k · x) be.votes e.fb.nClasses e.fb.votes.length e.blocks ph :=
  pinv_run _ _ _ _ e.blocks hv sch _ ph (pinv_init _ _ _ _ e.blocks hv) h.run

theorem Ex.same {be : Backend B E} {k e x js} {s : State B E} (h : Ex be k e x js s) (q : Pool) (l : List (Line E)) (hs : Same s.pool q) :
    Ex be k e x js { s with pool := q, lines := l } := by
  obtain ⟨sch, ph, pc, h⟩ := h
  refine ⟨sch, ph, pc, h.run, h.track.same hs, h.pcs, h.blk, h.fb, h.idx, h.cur, h.free, ?_⟩
  intro w hw
  obtain ⟨j, h1, h2⟩ := h.held w hw
  exact ⟨j, h1, (hs.run w _).2 h2⟩

theorem Ex.push {be : Backend B E} {k e x j js} {s : State B E} (h : Ex be k e x (j :: js) s) (q : Pool) (l : List (Line E))
    (hq : q.queue = s.pool.queue ++ [taskOf k j]) (hw : q.workers = s.pool.workers) :
    Ex be k e x js { s with pool := q, lines := l } := by
  obtain ⟨sch, ph, pc, h⟩ := h
  refine ⟨sch, ph, pc, h.run, h.track.push hq hw, h.pcs, h.blk, h.fb, h.idx, h.cur, h.free, ?_⟩
  intro w hwv
  obtain ⟨j, h1, h2⟩ := h.held w hwv
  exact ⟨j, h1, by rw [← h2]; exact congrArg (·[w]?) hw⟩

theorem Ex.grab {be : Backend B E} {k e x js} {s : State B E} (h : Ex be k e x js s) (q : Pool) (i t : Nat)
    (hg : Grab s.pool q i t) : Ex be k e x js { s with pool := q } := by
  obtain ⟨sch, ph, pc, h⟩ := h
  refine ⟨sch, ph, pc, h.run, h.track.grab hg, h.pcs, h.blk, h.fb, h.idx, h.cur, h.free, ?_⟩
  intro w hwv
  obtain ⟨j, h1, h2⟩ := h.held w hwv
  refine ⟨j, h1, ?_⟩
  show q.workers[w]? = _
  rw [hg.workers, getElem?_set' _ _ _ _ _ _ hg.at']
  refine Or.inr ⟨?_, h2⟩
  rintro rfl
  rw [hg.at'] at h2; cases h2

theorem Ex.finish {be : Backend B E} {k e x js} {s : State B E} (h : Ex be k e x js s) (q : Pool) (i j : Nat)
    (hv : e.fb.nClasses ≤ e.fb.votes.length)
    (hw : s.pool.workers[i]? = some (.run (taskOf k j))) (hd : s.wpc i = .done) (hq : q.queue = s.pool.queue)
    (hs : q.workers = s.pool.workers.set i .finish) : Ex be k e x js ({ s with pool := q }.goto i .start) := by
  obtain ⟨sch, ph, pc, h⟩ := h
  refine ⟨sch, ph, pc, h.run, h.track.finish hw hd hq hs, h.pcs, h.blk, h.fb, h.idx, h.cur, h.free, ?_⟩
  intro w hwv
  obtain ⟨j', h1, h2⟩ := h.held w hwv
  refine ⟨j', h1, ?_⟩
  show q.workers[w]? = _
  rw [hs, getElem?_set' _ _ _ _ _ _ hw]
  refine Or.inr ⟨?_, h2⟩
  rintro rfl
  obtain ⟨c, hc, hin⟩ := (h.pinv hv).held j' h1
  rw [← h.pcs j' c hc, h.track.run i j' h2, hd] at hin
  exact hin

/-- After the barrier the blocks and votes are those of the single-threaded loop. -/
theorem Ex.over {be : Backend B E} {k e x} {s : State B E} (h : Ex be k e x [] s) (hp : GT.Pool.PInv s.pool)
    (hm : s.pool.mpc = .ready) (ht : s.pool.total = 0) (h1 : e.fb.nClasses ≤ e.fb.votes.length)
    (h2 : ∀ b ∈ e.blocks, e.fb.nClasses ≤ (be.votes (compute be k b x)).length) :
    s.exec = ⟨(exampleLoop (compute be k · x) be.votes e.blocks e.fb.reset).2, (exampleLoop (compute be k · x) be.votes e.blocks e.fb.reset).1, e.index⟩ ∧
    s.vlock = none ∧ s.cur = some x ∧ ∀ i, s.wpc i = .start := by
  obtain ⟨sch, ph, pc, h⟩ := h
  obtain ⟨ho, hi⟩ := h.track.over hp hm ht
  have hinv := h.pinv h1
  have hfin : ph.finished := by
    intro c hc
    obtain ⟨j, hj, rfl⟩ := List.mem_iff_getElem.1 hc
    rw [← h.pcs j _ (List.getElem?_eq_getElem hj)]
    exact ho j (List.mem_range.2 (by rw [← hinv.len]; exact hj))
  obtain ⟨r1, r2⟩ := phase_result (compute be k · x) be.votes e.fb e.blocks sch ph h1 h2 h.run hfin
  refine ⟨?_, ?_, h.cur, hi⟩
  · rw [exampleLoop_frame, ← r1, ← r2, h.blk, ← h.idx, ← h.fb]
  · cases hv : s.vlock with
    | none => rfl
    | some w =>
      obtain ⟨j, -, hj⟩ := h.held w hv
      exact absurd hj (quiet_run _ (quiet _ hp hm ht).2 w _)

/-- The start of an example. -/
theorem ex_new (be : Backend B E) (k : Kind) (e : Exec B) (x : E) (s : State B E) (hp : GT.Pool.PInv s.pool)
    (hm : s.pool.mpc = .ready) (ht : s.pool.total = 0) (hw : ∀ i, s.wpc i = .start) (he : s.exec = e) (hv : s.vlock = none)
    (l : List (Line E)) :
    Ex be k e x (List.range e.blocks.length) { s with lines := l, cur := some x, exec := { s.exec with fb := s.exec.fb.reset } } := by
  refine ⟨[], _, _, rfl, track_new k _ s.pool s.wpc List.nodup_range hp hm ht hw, ?_, ?_, ?_, ?_, rfl, fun _ => rfl, ?_⟩
  · intro j c hc
    simp only [Phase.init, List.getElem?_map] at hc
    cases hb : e.blocks[j]? with
    | none => rw [hb] at hc; cases hc
    | some b => rw [hb] at hc; cases hc; rfl
  · simp [Phase.init, he, Function.comp_def]
  · simp [Phase.init, he]
  · simp [he]
  · intro w hwv
    rw [show s.vlock = some w from hwv] at hv; cases hv

/-! ## The update phase, and between the examples -/

/-- While the update tasks run: each block is as before or already updated. -/
structure UpI (be : Backend B E) (dom js : List Nat) (bs : List B) (g : B → B) (e : Exec B) (s : State B E) (pc : Nat → Pc) : Prop where
  track : Track .update dom js s.pool s.wpc pc
  pcs   : ∀ j ∈ dom, pc j = .start ∨ pc j = .done
  len   : s.exec.blocks.length = bs.length
  glen  : e.blocks.length = bs.length
  blk   : ∀ (j : Nat) b, bs[j]? = some b → s.exec.blocks[j]? = some (if j ∈ dom ∧ pc j = .done then g b else b)
  goal  : ∀ (j : Nat) b, bs[j]? = some b → e.blocks[j]? = some (if j ∈ dom then g b else b)
  fb    : s.exec.fb = e.fb
  idx   : s.exec.index = e.index
  upd   : ∀ j ∈ dom, ∃ x, s.cur = some x ∧ ∀ b, be.trainUpdate b x s.exec.fb.feedback = g b
  lock  : s.vlock = none
  sub   : dom ⊆ List.range bs.length

def Up (be : Backend B E) (dom js : List Nat) (bs : List B) (g : B → B) (e : Exec B) (s : State B E) : Prop :=
  ∃ pc, UpI be dom js bs g e s pc

theorem Up.same {be : Backend B E} {dom js bs g e} {s : State B E} (h : Up be dom js bs g e s) (q : Pool) (l : List (Line E)) (hs : Same s.pool q) :
    Up be dom js bs g e { s with pool := q, lines := l } := by
  obtain ⟨pc, h⟩ := h
  exact ⟨pc, h.track.same hs, h.pcs, h.len, h.glen, h.blk, h.goal, h.fb, h.idx, h.upd, h.lock, h.sub⟩

theorem Up.push {be : Backend B E} {dom j js bs g e} {s : State B E} (h : Up be dom (j :: js) bs g e s) (q : Pool) (l : List (Line E))
    (hq : q.queue = s.pool.queue ++ [taskOf .update j]) (hw : q.workers = s.pool.workers) :
    Up be dom js bs g e { s with pool := q, lines := l } := by
  obtain ⟨pc, h⟩ := h
  exact ⟨pc, h.track.push hq hw, h.pcs, h.len, h.glen, h.blk, h.goal, h.fb, h.idx, h.upd, h.lock, h.sub⟩

theorem Up.grab {be : Backend B E} {dom js bs g e} {s : State B E} (h : Up be dom js bs g e s) (q : Pool) (i t : Nat)
    (hg : Grab s.pool q i t) : Up be dom js bs g e { s with pool := q } := by
  obtain ⟨pc, h⟩ := h
  exact ⟨pc, h.track.grab hg, h.pcs, h.len, h.glen, h.blk, h.goal, h.fb, h.idx, h.upd, h.lock, h.sub⟩

theorem Up.finish {be : Backend B E} {dom js bs g e} {s : State B E} (h : Up be dom js bs g e s) (q : Pool) (i j : Nat)
    (hw : s.pool.workers[i]? = some (.run (taskOf .update j))) (hd : s.wpc i = .done) (hq : q.queue = s.pool.queue)
    (hs : q.workers = s.pool.workers.set i .finish) : Up be dom js bs g e ({ s with pool := q }.goto i .start) := by
  obtain ⟨pc, h⟩ := h
  exact ⟨pc, h.track.finish hw hd hq hs, h.pcs, h.len, h.glen, h.blk, h.goal, h.fb, h.idx, h.upd, h.lock, h.sub⟩

theorem UpI.task {be : Backend B E} {dom js bs g e} {s s' : State B E} {pc} (h : UpI be dom js bs g e s pc) (i j : Nat)
    (hw : s.pool.workers[i]? = some (.run (taskOf .update j))) (hst : s.taskStep be i .update j = some s') :
    (s'.pool = s.pool ∧ s'.lines = s.lines ∧ s'.out = s.out ∧ Up be dom js bs g e s') ∨
    (s.wpc i = .done ∧ ∃ p, s.pool.workerStep i = some p ∧ s' = { s with pool := p }.goto i .start) := by
  obtain ⟨j', hj', hjj⟩ := h.track.ran i _ hw
  have hjd : j ∈ dom := by rw [taskOf_inj _ hjj]; exact hj'
  have hpcj := h.track.run i j hw
  unfold State.taskStep at hst
  split at hst
  · next b x hb hx =>
    obtain ⟨x', hx', hg⟩ := h.upd j hjd
    rw [hx'] at hx
    cases hx
    split at hst
    · next hpc =>
      rw [if_pos rfl] at hst
      cases hst
      refine Or.inl ⟨rfl, rfl, rfl, fun j'' => if j'' = j then .done else pc j'', h.track.move hw .done, ?_, ?_, h.glen, ?_, h.goal, h.fb, h.idx, ?_, h.lock, h.sub⟩
      · intro j'' hj''
        by_cases hh : j'' = j
        · rw [if_pos hh]; exact Or.inr rfl
        · rw [if_neg hh]; exact h.pcs j'' hj''
      · show (s.exec.blocks.set j _).length = _
        rw [List.length_set, h.len]
      · intro j'' b'' hb''
        show (s.exec.blocks.set j _)[j'']? = _
        by_cases hh : j'' = j
        · subst hh
          have hlt : j'' < s.exec.blocks.length := by
            rw [h.len]
            rcases Nat.lt_or_ge j'' bs.length with h' | h'
            · exact h'
            · rw [List.getElem?_eq_none h'] at hb''; cases hb''
          rw [List.getElem?_set_self hlt, if_pos rfl, if_pos ⟨hjd, rfl⟩, hg]
          have := h.blk j'' b'' hb''
          rw [hb, if_neg (by rw [hpcj, hpc]; simp)] at this
          cases this; rfl
        · rw [List.getElem?_set_ne (fun h => hh h.symm), if_neg hh]
          exact h.blk j'' b'' hb''
      · intro j'' _
        exact ⟨x, hx', hg⟩
    · next hpc =>
      rcases h.pcs j hjd with h1 | h1 <;> rw [hpcj, hpc] at h1 <;> cases h1
    · next c hpc =>
      rcases h.pcs j hjd with h1 | h1 <;> rw [hpcj, hpc] at h1 <;> cases h1
    · next c v hpc =>
      rcases h.pcs j hjd with h1 | h1 <;> rw [hpcj, hpc] at h1 <;> cases h1
    · next hpc =>
      right
      refine ⟨hpc, ?_⟩
      cases hp : s.pool.workerStep i with
      | none => rw [hp] at hst; cases hst
      | some p => rw [hp] at hst; cases hst; exact ⟨p, rfl, rfl⟩
  · cases hst

theorem Up.over {be : Backend B E} {dom bs g e} {s : State B E} (h : Up be dom [] bs g e s) (hp : GT.Pool.PInv s.pool)
    (hm : s.pool.mpc = .ready) (ht : s.pool.total = 0) : s.exec = e ∧ s.vlock = none ∧ ∀ i, s.wpc i = .start := by
  obtain ⟨pc, h⟩ := h
  obtain ⟨ho, hi⟩ := h.track.over hp hm ht
  refine ⟨?_, h.lock, hi⟩
  have hbl : s.exec.blocks = e.blocks := by
    apply List.ext_getElem?
    intro j
    by_cases hj : j < bs.length
    · rw [h.blk j _ (List.getElem?_eq_getElem hj), h.goal j _ (List.getElem?_eq_getElem hj)]
      by_cases hd : j ∈ dom
      · rw [if_pos ⟨hd, ho j hd⟩, if_pos hd]
      · rw [if_neg (fun h => hd h.1), if_neg hd]
    · rw [List.getElem?_eq_none (by rw [h.len]; omega), List.getElem?_eq_none (by rw [h.glen]; omega)]
  have h1 := h.fb
  have h2 := h.idx
  cases hs : s.exec
  cases e
  rw [hs] at h1 h2 hbl
  simp at h1 h2 hbl
  rw [h1, h2, hbl]

theorem trainableAt_mem (be : Backend B E) (bs : List B) (j : Nat) (b : B) (h : bs[j]? = some b) :
    j ∈ trainableAt be bs ↔ be.trainable b = true := by
  have hlt : j < bs.length := by
    rcases Nat.lt_or_ge j bs.length with h' | h'
    · exact h'
    · rw [List.getElem?_eq_none h'] at h; cases h
  simp only [trainableAt, List.mem_filter, List.mem_range, h, Option.map_some, Option.getD_some]
  exact ⟨fun h => h.2, fun h => ⟨hlt, h⟩⟩

/-- The start of the update phase. -/
theorem up_new (be : Backend B E) (x : E) (s : State B E) (hp : GT.Pool.PInv s.pool)
    (hm : s.pool.mpc = .ready) (ht : s.pool.total = 0) (hw : ∀ i, s.wpc i = .start) (hv : s.vlock = none) (hc : s.cur = some x)
    (l : List (Line E)) (fb : FB) :
    Up be (trainableAt be s.exec.blocks) (trainableAt be s.exec.blocks) s.exec.blocks (be.trainUpdate · x fb.feedback)
      ⟨fb, s.exec.blocks.map fun b => if be.trainable b then be.trainUpdate b x fb.feedback else b, s.exec.index⟩
      { s with lines := l, exec := { s.exec with fb := fb } } := by
  refine ⟨_, track_new .update _ s.pool s.wpc ?_ hp hm ht hw, fun _ _ => Or.inl rfl, rfl, by simp, ?_, ?_, rfl, rfl, ?_, hv, fun _ h => (List.mem_filter.1 h).1⟩
  · exact List.Nodup.filter _ List.nodup_range
  · intro j b hb
    rw [if_neg (by simp)]; exact hb
  · intro j b hb
    simp only [List.getElem?_map, hb, Option.map_some, trainableAt_mem be _ j b hb]
  · intro j _
    exact ⟨x, hc, fun _ => rfl⟩

/-- Between two examples. -/
theorem up_idle (be : Backend B E) (s : State B E) (hp : GT.Pool.PInv s.pool) (hm : s.pool.mpc = .ready) (ht : s.pool.total = 0)
    (hw : ∀ i, s.wpc i = .start) (hv : s.vlock = none) : Up be [] [] s.exec.blocks id s.exec s := by
  refine ⟨_, track_new .update [] s.pool s.wpc List.nodup_nil hp hm ht hw, by simp, rfl, rfl, ?_, ?_, rfl, rfl, by simp, hv, by simp⟩
  · intro j b hb; rw [if_neg (by simp)]; exact hb
  · intro j b hb; rw [if_neg (by simp)]; exact hb

end GT.Mt

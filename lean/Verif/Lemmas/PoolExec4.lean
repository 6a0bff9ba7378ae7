import Verif.Lemmas.PoolExec3

/-! # No deadlock, no endless run, no data race in the multi-threaded executor -/

namespace GT.Mt

open GT.Pool GT.Spec

variable {B E : Type} {be : Backend B E} {smp : List Rat → Rat → Nat} {n N : Nat} {P : B → Prop} {upd : List Nat} {final : Exec B × List Nat}

/-! ## No data race -/

theorem Where.track {s : State B E} (h : Where be smp n N P upd final s) : ∃ k dom js pc, Track k dom js s.pool s.wpc pc := by
  cases h with
  | exPush it items e js h hr hm hl => obtain ⟨_, _, _, h⟩ := h; exact ⟨_, _, _, _, h.track⟩
  | exWait it items e h hr hm hl => obtain ⟨_, _, _, h⟩ := h; exact ⟨_, _, _, _, h.track⟩
  | upPush items e dom js bs g h hr hm hl => obtain ⟨_, h⟩ := h; exact ⟨_, _, _, _, h.track⟩
  | upWait items e dom bs g h hr hm hl => obtain ⟨_, h⟩ := h; exact ⟨_, _, _, _, h.track⟩

theorem one_worker {s : State B E} (h : Inv be smp n N P upd final s) (i i' j : Nat) (h1 : WorksOn s i j) (h2 : WorksOn s i' j) : i = i' := by
  obtain ⟨k, dom, js, pc, ht⟩ := h.at'.track
  obtain ⟨t, hw, hb⟩ := h1
  obtain ⟨t', hw', hb'⟩ := h2
  obtain ⟨j1, _, rfl⟩ := ht.ran i t hw
  obtain ⟨j2, _, rfl⟩ := ht.ran i' t' hw'
  rw [blockOf_taskOf] at hb hb'
  subst hb; subst hb'
  exact ht.unique i i' _ hw hw'

theorem owner_alone {s : State B E} (h : Inv be smp n N P upd final s) (ho : OwnerActs s) (i j : Nat) : ¬ WorksOn s i j := by
  obtain ⟨hm, l, r, hl, hne⟩ := ho
  have hq : s.pool.total = 0 → ¬ WorksOn s i j := by
    rintro ht ⟨t, hw, _⟩
    exact quiet_run _ (quiet _ h.pool hm ht).2 i t hw
  have hW : Waiting s.pool → s.pool.total = 0 := by
    rintro (hw | hw)
    · rw [hm] at hw; cases hw
    · exact hw.2
  cases h.at' with
  | exPush it items e js h hr hmm hl' =>
    rw [hl] at hl'
    cases js <;> (cases hl'; exact absurd rfl (hne _))
  | exWait it items e h hr hmm hl' => exact hq (hW hmm)
  | upPush items e dom js bs g h hr hmm hl' =>
    rw [hl] at hl'
    cases js <;> (cases hl'; exact absurd rfl (hne _))
  | upWait items e dom bs g h hr hmm hl' => exact hq (hW hmm)

theorem inside_one {s : State B E} (h : Inv be smp n N P upd final s) (i i' t t' : Nat) (hw : s.pool.workers[i]? = some (.run t))
    (hw' : s.pool.workers[i']? = some (.run t')) (h1 : (s.wpc i).inside) (h2 : (s.wpc i').inside) : i = i' := by
  have hex : ∀ (it : Item E) e js, Ready n P e → Ex be it.kind e it.ex js s → i = i' := by
    intro it e js hr hx
    obtain ⟨sch, ph, pc, hI⟩ := hx
    have hp := hI.pinv (ready_votes hr)
    obtain ⟨j, hj, rfl⟩ := hI.track.ran i t hw
    obtain ⟨j', hj', rfl⟩ := hI.track.ran i' t' hw'
    have key : ∀ i j : Nat, j ∈ List.range e.blocks.length → s.pool.workers[i]? = some (.run (taskOf it.kind j)) → (s.wpc i).inside → ph.lock = some j := by
      intro i j hj hw hin
      have hlt : j < ph.tasks.length := by rw [hp.len]; exact List.mem_range.1 hj
      have hg := List.getElem?_eq_getElem hlt
      refine hp.owner j _ hg ?_
      rw [← hI.pcs j _ hg, hI.track.run i j hw]; exact hin
    have e1 := key i j hj hw h1
    have e2 := key i' j' hj' hw' h2
    rw [e1] at e2; cases e2
    exact hI.track.unique i i' _ hw hw'
  have hup : ∀ e dom js bs g, Up be dom js bs g e s → i = i' := by
    intro e dom js bs g hx
    obtain ⟨pc, hI⟩ := hx
    obtain ⟨j, hj, rfl⟩ := hI.track.ran i t hw
    have := hI.pcs j hj
    rw [hI.track.run i j hw] at this
    rcases this with h3 | h3 <;> rw [h3] at h1 <;> exact h1.elim
  cases h.at' with
  | exPush it items e js h hr hm hl => exact hex it e js hr.ready h
  | exWait it items e h hr hm hl => exact hex it e [] hr.ready h
  | upPush items e dom js bs g h hr hm hl => exact hup e dom js bs g h
  | upWait items e dom bs g h hr hm hl => exact hup e dom [] bs g h

/-- In one phase all running tasks call the same method; updating tasks are never in the votes. -/
theorem same_kind {s : State B E} (h : Inv be smp n N P upd final s) (i i' t t' : Nat) (hw : s.pool.workers[i]? = some (.run t))
    (hw' : s.pool.workers[i']? = some (.run t')) (hk : kindOf t' = .update) : ¬ (s.wpc i).inside := by
  have hex : ∀ (it : Item E) e js, Ex be it.kind e it.ex js s → False := by
    intro it e js hx
    obtain ⟨sch, ph, pc, hI⟩ := hx
    obtain ⟨j, hj, rfl⟩ := hI.track.ran i' t' hw'
    rw [kindOf_taskOf] at hk
    exact it.kind_ne hk
  have hup : ∀ e dom js bs g, Up be dom js bs g e s → ¬ (s.wpc i).inside := by
    intro e dom js bs g hx
    obtain ⟨pc, hI⟩ := hx
    obtain ⟨j, hj, rfl⟩ := hI.track.ran i t hw
    have := hI.pcs j hj
    rw [hI.track.run i j hw] at this
    rcases this with h3 | h3 <;> rw [h3] <;> exact id
  cases h.at' with
  | exPush it items e js h hr hm hl => exact (hex it e js h).elim
  | exWait it items e h hr hm hl => exact (hex it e [] h).elim
  | upPush items e dom js bs g h hr hm hl => exact hup e dom js bs g h
  | upWait items e dom bs g h hr hm hl => exact hup e dom [] bs g h

/-- A worker that touches anything is in a task. -/
theorem touches_worker {s : State B E} {i : Nat} {p : Place} {w : Bool} (h : (p, w) ∈ touches s (some i)) :
    ∃ t, s.pool.workers[i]? = some (.run t) ∧
      (p = .block (blockOf t) ∨ (p = .example ∧ w = false) ∨ (p = .feedback ∧ ((s.wpc i).inside ∨ (kindOf t = .update ∧ w = false)))) := by
  unfold touches at h
  split at h
  · next h0 => cases h0
  · next i' h0 =>
    cases h0
    split at h
    · next t hw =>
      refine ⟨t, hw, ?_⟩
      split at h
      · split at h
        · next hk => simp at h; rcases h with ⟨h, -⟩ | ⟨h, h'⟩ | ⟨h, h'⟩ <;> simp [*]
        · simp at h; rcases h with ⟨h, -⟩ | ⟨h, h'⟩ <;> simp [*]
      · simp at h
      · next hpc => simp at h; simp [h, hpc, Pc.inside]
      · next hpc => simp at h; rcases h with ⟨h, -⟩ | ⟨h, h'⟩ <;> simp [h, hpc, Pc.inside]
      · simp at h
    · simp at h

theorem touches_owner {s : State B E} {p : Place} {w : Bool} (h : (p, w) ∈ touches s none) : OwnerActs s := by
  unfold touches at h
  split at h
  · split at h
    · next hm =>
      refine ⟨hm, ?_⟩
      split at h
      · next hl => exact ⟨_, _, hl, by simp⟩
      · next hl => exact ⟨_, _, hl, by simp⟩
      · next hl => exact ⟨_, _, hl, by simp⟩
      · simp at h
    · simp at h
  · next h0 => cases h0

theorem no_race {s : State B E} (h : Inv be smp n N P upd final s) : ¬ Race s := by
  rintro ⟨a, b, p, w, hab, ha, hb⟩
  cases a with
  | none =>
    cases b with
    | none => exact hab rfl
    | some i =>
      obtain ⟨t, hw, -⟩ := touches_worker hb
      exact owner_alone h (touches_owner ha) i _ ⟨t, hw, rfl⟩
  | some i =>
    obtain ⟨t, hw, ht⟩ := touches_worker ha
    cases b with
    | none => exact owner_alone h (touches_owner hb) i _ ⟨t, hw, rfl⟩
    | some i' =>
      obtain ⟨t', hw', ht'⟩ := touches_worker hb
      have hne : i ≠ i' := fun e => hab (by rw [e])
      rcases ht with rfl | ⟨_, h2⟩ | ⟨rfl, h2⟩
      · rcases ht' with h3 | ⟨h3, _⟩ | ⟨h3, _⟩
        · injection h3 with h3
          exact hne (one_worker h i i' _ ⟨t, hw, rfl⟩ ⟨t', hw', h3.symm⟩)
        · cases h3
        · cases h3
      · cases h2
      · rcases h2 with h2 | ⟨_, h2⟩
        · rcases ht' with h3 | ⟨h3, _⟩ | ⟨_, h4⟩
          · cases h3
          · cases h3
          · rcases h4 with h4 | ⟨h4, _⟩
            · exact hne (inside_one h i i' t t' hw hw' h2 h4)
            · exact same_kind h i i' t t' hw hw' h4 h2
        · cases h2

/-! ## No deadlock -/

theorem Where.notStopping {s : State B E} (h : Where be smp n N P upd final s) : notStopping s.pool.mpc = true := by
  have hP : Pushing s.pool.mpc → GT.Pool.notStopping s.pool.mpc = true := by
    rintro (h | h | h) <;> rw [h] <;> rfl
  have hW : Waiting s.pool → GT.Pool.notStopping s.pool.mpc = true := by
    rintro (h | h)
    · revert h; cases s.pool.mpc <;> simp [inWait, GT.Pool.notStopping]
    · rw [h.1]; rfl
  cases h with
  | exPush it items e js h hr hm hl => exact hP hm
  | exWait it items e h hr hm hl => exact hW hm
  | upPush items e dom js bs g h hr hm hl => exact hP hm
  | upWait items e dom bs g h hr hm hl => exact hW hm

/-- A task that is not waiting for the votes lock can go on. -/
theorem task_moves (s : State B E) (i t j : Nat) (k : Kind) (hw : s.pool.workers[i]? = some (.run t)) (b : B) (x : E)
    (hb : s.exec.blocks[j]? = some b) (hx : s.cur = some x) (hc : s.wpc i = .computed → s.vlock = none) :
    s.taskStep be i k j ≠ none := by
  unfold State.taskStep
  rw [hb, hx]
  dsimp only
  split
  · split <;> simp
  · next h => rw [hc h]; simp
  · split <;> simp
  · simp
  · simp [Pool.workerStep, hw]

theorem stuck_no_run {s : State B E} (h : Inv be smp n N P upd final s) (hs : ∀ i, s.workerStep be i = none) (i t : Nat) :
    s.pool.workers[i]? ≠ some (.run t) := by
  intro hw
  have hi : ∀ i t : Nat, s.pool.workers[i]? = some (.run t) → s.taskStep be i (kindOf t) (blockOf t) = none := by
    intro i t hw
    have := hs i
    unfold State.workerStep at this
    rw [hw] at this
    exact this
  have hex : ∀ (it : Item E) e js, Ready n P e → Ex be it.kind e it.ex js s → False := by
    intro it e js hr hx
    obtain ⟨sch, ph, pc, hI⟩ := hx
    have hp := hI.pinv (ready_votes hr)
    have hblk : ∀ i t : Nat, s.pool.workers[i]? = some (.run t) → ∃ b, s.exec.blocks[blockOf t]? = some b := by
      intro i t hw
      obtain ⟨j, hj, rfl⟩ := hI.track.ran i t hw
      rw [blockOf_taskOf, ← hI.blk]
      have hlt : j < ph.tasks.length := by rw [hp.len]; exact List.mem_range.1 hj
      exact ⟨_, by rw [List.getElem?_map, List.getElem?_eq_getElem hlt]; rfl⟩
    have hvl : s.vlock = none := by
      cases hv : s.vlock with
      | none => rfl
      | some w =>
        exfalso
        obtain ⟨j, hl, hwj⟩ := hI.held w hv
        obtain ⟨c, hc, hin⟩ := hp.held j hl
        rw [← hI.pcs j c hc, hI.track.run w j hwj] at hin
        obtain ⟨b, hb⟩ := hblk w _ hwj
        refine task_moves s w _ _ _ hwj b _ hb hI.cur ?_ (hi w _ hwj)
        intro h3; rw [h3] at hin; exact hin.elim
    obtain ⟨b, hb⟩ := hblk i t hw
    exact task_moves s i t _ _ hw b _ hb hI.cur (fun _ => hvl) (hi i t hw)
  have hup : ∀ e dom js bs g, Up be dom js bs g e s → dom ⊆ List.range bs.length → False := by
    intro e dom js bs g hx hsub
    obtain ⟨pc, hI⟩ := hx
    obtain ⟨j, hj, rfl⟩ := hI.track.ran i t hw
    obtain ⟨x, hx, _⟩ := hI.upd j hj
    have hlt := List.mem_range.1 (hsub hj)
    have := hI.blk j _ (List.getElem?_eq_getElem hlt)
    refine task_moves s i _ _ _ hw _ x (by rw [blockOf_taskOf]; exact this) hx (fun _ => hI.lock) (hi i _ hw)
  cases h.at' with
  | exPush it items e js h hr hm hl => exact hex it e js hr.ready h
  | exWait it items e h hr hm hl => exact hex it e [] hr.ready h
  | upPush items e dom js bs g h hr hm hl => obtain ⟨pc, hI⟩ := h; exact hup e dom js bs g ⟨pc, hI⟩ hI.sub
  | upWait items e dom bs g h hr hm hl => obtain ⟨pc, hI⟩ := h; exact hup e dom [] bs g ⟨pc, hI⟩ hI.sub

theorem no_deadlock {s : State B E} (h : Inv be smp n N P upd final s) (hs : MtStuck be smp s) : MtReturned s := by
  have hW : ∀ i, s.workerStep be i = none := fun i => hs (.worker i) rfl
  have hM : ∀ k, s.mainStep smp k = none := fun k => hs (.main k) rfl
  have hnr := stuck_no_run h hW
  have hpw : ∀ i, s.pool.workerStep i = none := by
    intro i
    have := hW i
    unfold State.workerStep at this
    split at this
    · next t hw => exact absurd hw (hnr i t)
    · cases hq : s.pool.workerStep i with
      | none => rfl
      | some q => rw [hq] at this; cases this
  by_cases hm : s.pool.mpc = .ready
  · cases hl : s.lines with
    | nil => exact ⟨hl, hm⟩
    | cons l r =>
      exfalso
      have hpool : ∀ k, s.pool.mainStep k = none := by
        intro k
        have := hM k
        unfold State.mainStep at this
        rw [if_pos hm, hl] at this
        cases l with
        | prepare x => cases this
        | process y => cases this
        | predict => cases this
        | pool c =>
          dsimp only at this
          cases hq : s.pool.mainStep k with
          | none => rfl
          | some q => rw [hq] at this; cases this
      have hst : Stuck s.pool := by
        intro a ha
        cases a with
        | main k => exact hpool k
        | worker i => exact hpw i
        | spuriousMain => cases ha
        | spuriousWorker i => cases ha
      have hdone := progress s.pool h.pool h.running h.at'.notStopping hst
      have hp := h.prog
      rw [hdone.1, hl] at hp
      have := hM 0
      unfold State.mainStep at this
      rw [if_pos hm, hl] at this
      cases l with
      | prepare x => cases this
      | process y => cases this
      | predict => cases this
      | pool c => rw [poolCmds] at hp; cases hp
  · exfalso
    have hst : Stuck s.pool := by
      intro a ha
      cases a with
      | main k =>
        have := hM k
        unfold State.mainStep at this
        rw [if_neg hm] at this
        show s.pool.mainStep k = none
        cases hq : s.pool.mainStep k with
        | none => rfl
        | some q => rw [hq] at this; cases this
      | worker i => exact hpw i
      | spuriousMain => cases ha
      | spuriousWorker i => cases ha
    exact hm (progress s.pool h.pool h.running h.at'.notStopping hst).2

/-! ## No endless run -/

/-- Steps a task can still take. -/
def pcRank (n : Nat) : Pc → Nat
  | .start => 2 * n + 4
  | .computed => 2 * n + 3
  | .adding c => 2 * (n - c) + 2
  | .loaded c _ => 2 * (n - c) + 1
  | .done => 1

def sumTo (f : Nat → Nat) : Nat → Nat
  | 0 => 0
  | w + 1 => sumTo f w + f w

theorem sumTo_update (f : Nat → Pc) (n i W : Nat) (c : Pc) (hi : i < W) :
    sumTo (fun j => pcRank n (if j = i then c else f j)) W + pcRank n (f i) = sumTo (fun j => pcRank n (f j)) W + pcRank n c := by
  induction W with
  | zero => omega
  | succ W ih =>
    simp only [sumTo]
    by_cases hw : i = W
    · subst hw
      have : ∀ V, V ≤ i → sumTo (fun j => pcRank n (if j = i then c else f j)) V = sumTo (fun j => pcRank n (f j)) V := by
        intro V hV
        induction V with
        | zero => rfl
        | succ V ih' =>
          simp only [sumTo]
          rw [ih' (by omega), if_neg (by omega)]
      rw [this i (Nat.le_refl i), if_pos rfl]
      omega
    · have := ih (by omega)
      rw [if_neg (fun h => hw h.symm)]
      omega

/-- Lines the owning thread runs outside the pool. -/
def ownLines : List (Line E) → Nat
  | [] => 0
  | .pool _ :: r => ownLines r
  | .prepare _ :: r => ownLines r + 1
  | .process _ :: r => ownLines r + 1
  | .predict :: r => ownLines r + 1

/-- Bound on the steps that can still follow. -/
def mtRank (n : Nat) (s : State B E) : Nat :=
  (2 * n + 4) * rank s.pool + sumTo (fun i => pcRank n (s.wpc i)) s.pool.workers.length + ownLines s.lines

theorem workers_len (p q : Pool) (a : Act) (h : p.step a = some q) : q.workers.length = p.workers.length := by
  cases a with
  | main k =>
    simp only [Pool.step, Pool.mainStep] at h
    split at h <;> grind
  | worker i => simp only [Pool.step, Pool.workerStep] at h; grind
  | spuriousWorker i => simp only [Pool.step] at h; grind
  | spuriousMain => simp only [Pool.step] at h; grind

theorem lt_len (l : List WPc) (i : Nat) (w : WPc) (h : l[i]? = some w) : i < l.length := by
  rcases Nat.lt_or_ge i l.length with h' | h'
  · exact h'
  · rw [List.getElem?_eq_none h'] at h; cases h

/-- What a step of a running task does to the rank of its worker. -/
theorem task_rank {s s' : State B E} (h : Inv be smp n N P upd final s) (i t : Nat) (hw : s.pool.workers[i]? = some (.run t))
    (hst : s.taskStep be i (kindOf t) (blockOf t) = some s') (hr : ∀ q, s.pool.workerStep i = some q → rank q + 1 ≤ rank s.pool) :
    mtRank n s' + 1 ≤ mtRank n s := by
  have hlt := lt_len _ _ _ hw
  have hload : ∀ c v, s.wpc i = .loaded c v → c < n := by
    intro c v hpc
    have hex : ∀ (it : Item E) e js, Ready n P e → Ex be it.kind e it.ex js s → c < n := by
      intro it e js hr hx
      obtain ⟨sch, ph, pc, hI⟩ := hx
      have hp := hI.pinv (ready_votes hr)
      obtain ⟨j, hj, rfl⟩ := hI.track.ran i t hw
      have hlt : j < ph.tasks.length := by rw [hp.len]; exact List.mem_range.1 hj
      have hg := List.getElem?_eq_getElem hlt
      have := hp.reg j c v _ hg (by rw [← hI.pcs j _ hg, hI.track.run i j hw, hpc])
      rw [hr.fbClasses] at this
      exact this.1
    have hup : ∀ e dom js bs g, Up be dom js bs g e s → c < n := by
      intro e dom js bs g hx
      obtain ⟨pc, hI⟩ := hx
      obtain ⟨j, hj, rfl⟩ := hI.track.ran i t hw
      have := hI.pcs j hj
      rw [hI.track.run i j hw, hpc] at this
      rcases this with h3 | h3 <;> cases h3
    cases h.at' with
    | exPush it items e js h hr hm hl => exact hex it e js hr.ready h
    | exWait it items e h hr hm hl => exact hex it e [] hr.ready h
    | upPush items e dom js bs g h hr hm hl => exact hup e dom js bs g h
    | upWait items e dom bs g h hr hm hl => exact hup e dom [] bs g h
  have key : ∀ (c : Pc) (s' : State B E), s'.pool = s.pool → s'.lines = s.lines → s'.wpc = (fun j => if j = i then c else s.wpc j) →
      pcRank n c + 1 ≤ pcRank n (s.wpc i) → mtRank n s' + 1 ≤ mtRank n s := by
    intro c s' h1 h2 h3 h4
    have := sumTo_update s.wpc n i s.pool.workers.length c hlt
    unfold mtRank
    rw [h1, h2, h3]
    dsimp only
    omega
  unfold State.taskStep at hst
  split at hst
  · split at hst
    · next hpc =>
      split at hst
      · cases hst; exact key .done _ rfl rfl rfl (by rw [hpc]; simp only [pcRank]; omega)
      · cases hst; exact key .computed _ rfl rfl rfl (by rw [hpc]; simp only [pcRank]; omega)
    · next hpc =>
      split at hst
      · cases hst; exact key (.adding 0) _ rfl rfl rfl (by rw [hpc]; simp only [pcRank]; omega)
      · cases hst
    · next c hpc =>
      split at hst
      · cases hst; exact key (.loaded c _) _ rfl rfl rfl (by rw [hpc]; simp only [pcRank]; omega)
      · cases hst; exact key .done _ rfl rfl rfl (by rw [hpc]; simp only [pcRank]; omega)
    · next c v hpc =>
      have := hload c v hpc
      cases hst; exact key (.adding (c + 1)) _ rfl rfl rfl (by rw [hpc]; simp only [pcRank]; omega)
    · next hpc =>
      cases hq : s.pool.workerStep i with
      | none => rw [hq] at hst; cases hst
      | some q =>
        rw [hq] at hst; cases hst
        have h1 := hr q hq
        have h2 := workers_len s.pool q (.worker i) hq
        have h3 := sumTo_update s.wpc n i s.pool.workers.length .start hlt
        rw [hpc] at h3
        simp only [pcRank] at h3
        have h4 : (2 * n + 4) * (rank q + 1) ≤ (2 * n + 4) * rank s.pool := Nat.mul_le_mul_left _ h1
        rw [Nat.mul_add] at h4
        show (2 * n + 4) * rank q + sumTo (fun j => pcRank n (if j = i then .start else s.wpc j)) q.workers.length + ownLines s.lines + 1 ≤ _
        unfold mtRank
        rw [h2]
        simp only [pcRank] at *
        omega
  · cases hst

theorem pool_rank (n : Nat) (p q : Pool) (a : Act) (h : rank q + (if a.spurious then 0 else 1) ≤ rank p + (if a.spurious then 3 else 0)) :
    (2 * n + 4) * rank q + (if a.spurious then 0 else 1) ≤ (2 * n + 4) * rank p + (if a.spurious then 3 * (2 * n + 4) else 0) := by
  cases ha : a.spurious with
  | true =>
    rw [ha] at h
    have := Nat.mul_le_mul_left (2 * n + 4) h
    simp only [if_true, Nat.mul_add] at this ⊢
    omega
  | false =>
    rw [ha] at h
    have := Nat.mul_le_mul_left (2 * n + 4) h
    simp only [Bool.false_eq_true, if_false, Nat.mul_add] at this ⊢
    omega

theorem mtRank_step {s s' : State B E} (h : Inv be smp n N P upd final s) (a : Act) (hst : s.step be smp a = some s') :
    mtRank n s' + (if a.spurious then 0 else 1) ≤ mtRank n s + (if a.spurious then 3 * (2 * n + 4) else 0) := by
  have hpool : ∀ q, s.pool.step a = some q → rank q + (if a.spurious then 0 else 1) ≤ rank s.pool + (if a.spurious then 3 else 0) :=
    fun q hq => rank_step s.pool q a h.nostop h.running h.at'.notStopping hq
  have key : ∀ q (s' : State B E), s.pool.step a = some q → s'.pool = q → s'.wpc = s.wpc → ownLines s'.lines ≤ ownLines s.lines →
      mtRank n s' + (if a.spurious then 0 else 1) ≤ mtRank n s + (if a.spurious then 3 * (2 * n + 4) else 0) := by
    intro q s' hq h1 h2 h3
    have h4 := pool_rank n s.pool q a (hpool q hq)
    have h5 := workers_len s.pool q a hq
    unfold mtRank
    rw [h1, h2, h5]
    omega
  cases a with
  | main k =>
    simp only [State.step, State.mainStep] at hst
    split at hst
    · split at hst
      · cases hst
      · next c r hl =>
        cases hq : s.pool.mainStep k with
        | none => rw [hq] at hst; cases hst
        | some q => rw [hq] at hst; cases hst; exact key q _ hq rfl rfl (by rw [hl]; exact Nat.le_refl _)
      · next x r hl =>
        cases hst; simp only [Act.spurious, mtRank, hl, ownLines]; simp only [Bool.false_eq_true, if_false]; omega
      · next x r hl =>
        cases hst; simp only [Act.spurious, mtRank, hl, ownLines]; simp only [Bool.false_eq_true, if_false]; omega
      · next r hl =>
        cases hst; simp only [Act.spurious, mtRank, hl, ownLines]; simp only [Bool.false_eq_true, if_false]; omega
    · cases hq : s.pool.mainStep k with
      | none => rw [hq] at hst; cases hst
      | some q => rw [hq] at hst; cases hst; exact key q _ hq rfl rfl (Nat.le_refl _)
  | worker i =>
    simp only [State.step, State.workerStep] at hst
    split at hst
    · next t hw =>
      refine task_rank h i t hw hst fun q hq => ?_
      have := hpool q hq
      simpa [Act.spurious] using this
    · cases hq : s.pool.workerStep i with
      | none => rw [hq] at hst; cases hst
      | some q => rw [hq] at hst; cases hst; exact key q _ hq rfl rfl (Nat.le_refl _)
  | spuriousMain =>
    simp only [State.step] at hst
    cases hq : s.pool.step .spuriousMain with
    | none => rw [hq] at hst; cases hst
    | some q => rw [hq] at hst; cases hst; exact key q _ hq rfl rfl (Nat.le_refl _)
  | spuriousWorker i =>
    simp only [State.step] at hst
    cases hq : s.pool.step (.spuriousWorker i) with
    | none => rw [hq] at hst; cases hst
    | some q => rw [hq] at hst; cases hst; exact key q _ hq rfl rfl (Nat.le_refl _)

theorem mtRank_run {s s' : State B E} (hk : Keeps be n P) (hf : SteadyFlags be) (acts : List Act) (h : Inv be smp n N P upd final s)
    (hst : s.run be smp acts = some s') :
    mtRank n s' + acts.countP (fun a => !a.spurious) ≤ mtRank n s + 3 * (2 * n + 4) * acts.countP Act.spurious := by
  induction acts generalizing s with
  | nil => cases hst; simp
  | cons a acts ih =>
    simp only [State.run] at hst
    split at hst
    · next s1 h1 =>
      have h2 := mtRank_step h a h1
      have h3 := ih (inv_step' hk hf h a h1) hst
      simp only [List.countP_cons]
      generalize 3 * (2 * n + 4) = K at h2 h3 ⊢
      cases ha : a.spurious with
      | true => rw [ha] at h2; simp only [if_true, Bool.not_true, Bool.false_eq_true, if_false, Nat.mul_add] at h2 ⊢; omega
      | false => rw [ha] at h2; simp only [if_true, Bool.not_false, Bool.false_eq_true, if_false, Nat.mul_add] at h2 ⊢; omega
    · cases hst

theorem can_return {s : State B E} (hk : Keeps be n P) (hf : SteadyFlags be) (h : Inv be smp n N P upd final s) :
    ∃ more s', (∀ a ∈ more, a.spurious = false) ∧ s.run be smp more = some s' ∧ MtReturned s' := by
  have key : ∀ m (s : State B E), mtRank n s = m → Inv be smp n N P upd final s →
      ∃ more s', (∀ a ∈ more, a.spurious = false) ∧ s.run be smp more = some s' ∧ MtReturned s' := by
    intro m
    induction m using Nat.strongRecOn with
    | _ m ih =>
      intro s hm h
      by_cases hs : MtStuck be smp s
      · exact ⟨[], s, by simp, rfl, no_deadlock h hs⟩
      · simp only [MtStuck, Classical.not_forall] at hs
        obtain ⟨a, ha, hne⟩ := hs
        cases hst : s.step be smp a with
        | none => exact absurd hst hne
        | some s1 =>
          have hr := mtRank_step h a hst
          rw [ha] at hr
          simp only [Bool.false_eq_true, if_false] at hr
          obtain ⟨more, s', h1, h2, h3⟩ := ih (mtRank n s1) (by omega) s1 rfl (inv_step' hk hf h a hst)
          refine ⟨a :: more, s', ?_, ?_, h3⟩
          · intro b hb
            rcases List.mem_cons.1 hb with rfl | hb
            · exact ha
            · exact h1 b hb
          · simp only [State.run, hst]; exact h2
  exact key _ s rfl h

/-! ## The bound in numbers -/

theorem pushes_pushAll (k : Kind) (js : List Nat) (l : List (Line E)) :
    pushes (poolCmds (pushAll k js ++ l)) = js.length + pushes (poolCmds l) ∧ waits (poolCmds (pushAll k js ++ l)) = waits (poolCmds l) ∧
    ownLines (pushAll k js ++ l) = ownLines l := by
  induction js with
  | nil => simp [pushAll]
  | cons j js ih =>
    obtain ⟨h1, h2, h3⟩ := ih
    simp only [pushAll, List.map_cons, List.cons_append, poolCmds, ownLines] at h1 h2 h3 ⊢
    refine ⟨?_, ?_, h3⟩
    · simp only [pushes, tasksOf, List.length_cons] at h1 ⊢; omega
    · simp only [waits] at h2 ⊢; simpa using h2

theorem lines_count (N : Nat) (upd : List Nat) (hu : upd.length ≤ N) (items : List (Item E)) :
    pushes (poolCmds (linesOf N upd items)) ≤ 2 * N * items.length ∧ waits (poolCmds (linesOf N upd items)) ≤ 2 * items.length ∧
    ownLines (linesOf N upd items) ≤ 2 * items.length := by
  induction items with
  | nil => simp [linesOf, poolCmds, pushes, tasksOf, waits, ownLines]
  | cons it items ih =>
    obtain ⟨h1, h2, h3⟩ := ih
    rw [linesOf_cons]
    have hp : ∀ l : List (Line E), pushes (poolCmds (.pool .wait :: l)) = pushes (poolCmds l) ∧ waits (poolCmds (.pool .wait :: l)) = waits (poolCmds l) + 1 := by
      intro l
      simp [poolCmds, pushes, tasksOf, waits]
    obtain ⟨q1, q2, q3⟩ := pushes_pushAll it.kind (List.range N) (.pool .wait :: it.after upd (linesOf N upd items))
    rw [List.length_range] at q1
    have e1 : 2 * N * (items.length + 1) = 2 * N * items.length + 2 * N := by rw [Nat.mul_add, Nat.mul_one]
    simp only [poolCmds, ownLines, List.length_cons] at *
    rw [e1, q1, q2, q3]
    cases it with
    | train x y =>
      obtain ⟨r1, r2, r3⟩ := pushes_pushAll .update upd (.pool .wait :: linesOf N upd items)
      have p1 := hp (linesOf N upd items)
      have p2 := hp (pushAll .update upd ++ .pool .wait :: linesOf N upd items)
      simp only [poolCmds, Item.after, ownLines] at *
      omega
    | eval x =>
      have p1 := hp (linesOf N upd items)
      simp only [poolCmds, Item.after, ownLines] at *
      omega

theorem sumTo_const (c W : Nat) : sumTo (fun _ => c) W = W * c := by
  induction W with
  | zero => simp [sumTo]
  | succ W ih => simp [sumTo, ih, Nat.add_mul]

theorem trainableAt_length (be : Backend B E) (bs : List B) : (trainableAt be bs).length ≤ bs.length := by
  have := List.length_filter_le (fun i => (bs[i]?.map be.trainable).getD false) (List.range bs.length)
  rw [List.length_range] at this
  exact this

theorem mtRank_init (be : Backend B E) (n req hw : Nat) (e : Exec B) (items : List (Item E)) :
    mtRank n (init be req hw e items) ≤ (2 * n + 4) * (items.length * (34 * e.blocks.length + 8) + 5 * threadCount req hw) + 2 * items.length := by
  obtain ⟨h1, h2, h3⟩ := lines_count e.blocks.length (trainableAt be e.blocks) (trainableAt_length be e.blocks) items
  have hrank : rank (init be req hw e items).pool ≤ items.length * (34 * e.blocks.length + 8) + 4 * threadCount req hw := by
    simp only [init, rank, Pool.init, mrank, sumOf_replicate, wrank, List.length_nil, Nat.mul_zero, Nat.add_zero]
    have e1 : items.length * (34 * e.blocks.length + 8) = 17 * (2 * e.blocks.length * items.length) + 8 * items.length := by
      rw [Nat.mul_add, Nat.mul_comm items.length (34 * _), ← Nat.mul_assoc 17, ← Nat.mul_assoc 17, Nat.mul_comm items.length 8]
    rw [e1]
    omega
  have hsum : sumTo (fun i => pcRank n ((init be req hw e items).wpc i)) (init be req hw e items).pool.workers.length = threadCount req hw * (2 * n + 4) := by
    simp only [init, Pool.init, List.length_replicate, pcRank]
    exact sumTo_const _ _
  have hmul := Nat.mul_le_mul_left (2 * n + 4) hrank
  unfold mtRank
  rw [hsum]
  have e2 : (2 * n + 4) * (items.length * (34 * e.blocks.length + 8) + 5 * threadCount req hw) =
      (2 * n + 4) * (items.length * (34 * e.blocks.length + 8) + 4 * threadCount req hw) + threadCount req hw * (2 * n + 4) := by
    rw [Nat.mul_comm (threadCount req hw) (2 * n + 4), ← Nat.mul_add]
    congr 1
    omega
  rw [e2]
  have : ownLines (init be req hw e items).lines ≤ 2 * items.length := h3
  omega

end GT.Mt

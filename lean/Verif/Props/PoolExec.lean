import Verif.Lemmas.PoolExec4
import Verif.Props.ConvExec
import Verif.Props.SparseExec
import Verif.Props.Executor

/-!
# C79: a whole multi-threaded run

The executor, its thread pool and its tasks together (`Verif.Model.PoolExec`): for every number of threads and every order of
their steps, including spurious wake-ups.
-/

namespace GT

open Spec Pool Mt

/-- C79: whenever the owning thread has returned from its last call, the executor is in the state, and has made the predictions, of
the same training and evaluation done by one thread. -/
theorem C79_same_as_one_thread {B E : Type} (be : Backend B E) (n : Nat) (P : B → Prop) (hk : Keeps be n P) (hf : SteadyFlags be)
    (smp : List Rat → Rat → Nat) (e : Exec B) (hr : Ready n P e) (req hw : Nat) (items : List (Item E)) (acts : List Act)
    (s : State B E) (h : State.run be smp acts (init be req hw e items) = some s) (hd : MtReturned s) :
    (s.exec, s.out) = oneByOne be smp items e := by
  obtain ⟨h1, h2⟩ := inv_end (inv_run' hk hf acts (inv_init' hr req hw items) h) hd
  rw [h1, h2]

theorem oneByOne_train {B E : Type} (be : Backend B E) (smp : List Rat → Rat → Nat) (ds : List (E × Nat)) (e : Exec B) :
    oneByOne be smp (ds.map fun d => .train d.1 d.2) e = (trainAll be smp ds e, []) := by
  induction ds generalizing e with
  | nil => rfl
  | cons d ds ih => simp only [List.map_cons, oneByOne]; rw [ih]; rfl

theorem oneByOne_eval {B E : Type} (be : Backend B E) (smp : List Rat → Rat → Nat) (xs : List E) (e : Exec B) :
    oneByOne be smp (xs.map .eval) e = Exec.evalLoop be xs e := by
  induction xs generalizing e with
  | nil => rfl
  | cons x xs ih => simp only [List.map_cons, oneByOne, Exec.evalLoop]; rw [ih]

/-- C79 for the calls a user makes: training on a sequence of examples, and predicting a batch. -/
theorem C79_training_and_prediction {B E : Type} (be : Backend B E) (n : Nat) (P : B → Prop) (hk : Keeps be n P) (hf : SteadyFlags be)
    (smp : List Rat → Rat → Nat) (e : Exec B) (hr : Ready n P e) (req hw : Nat) (acts : List Act) (s : State B E) (hd : MtReturned s) :
    (∀ ds, State.run be smp acts (init be req hw e (ds.map fun d => .train d.1 d.2)) = some s → s.exec = trainAll be smp ds e) ∧
    (∀ xs, State.run be smp acts (init be req hw e (xs.map .eval)) = some s → (s.exec, s.out) = Exec.evalLoop be xs e) := by
  refine ⟨fun ds h => ?_, fun xs h => ?_⟩
  · have := C79_same_as_one_thread be n P hk hf smp e hr req hw _ acts s h hd
    rw [oneByOne_train] at this
    exact congrArg Prod.fst this
  · have := C79_same_as_one_thread be n P hk hf smp e hr req hw _ acts s h hd
    rwa [oneByOne_eval] at this

/-- C79: no deadlock. If no thread can move, the owning thread has returned from its last call. -/
theorem C79_no_deadlock {B E : Type} (be : Backend B E) (n : Nat) (P : B → Prop) (hk : Keeps be n P) (hf : SteadyFlags be)
    (smp : List Rat → Rat → Nat) (e : Exec B) (hr : Ready n P e) (req hw : Nat) (items : List (Item E)) (acts : List Act)
    (s : State B E) (h : State.run be smp acts (init be req hw e items) = some s) (hs : MtStuck be smp s) : MtReturned s :=
  no_deadlock (inv_run' hk hf acts (inv_init' hr req hw items) h) hs

/-- C79: no endless run. However the threads are scheduled, the steps are bounded by the number of examples, blocks, classes and
threads; a spurious wake-up costs a bounded number more. -/
theorem C79_ends {B E : Type} (be : Backend B E) (n : Nat) (P : B → Prop) (hk : Keeps be n P) (hf : SteadyFlags be)
    (smp : List Rat → Rat → Nat) (e : Exec B) (hr : Ready n P e) (req hw : Nat) (items : List (Item E)) (acts : List Act)
    (s : State B E) (h : State.run be smp acts (init be req hw e items) = some s) :
    acts.countP (fun a => !a.spurious) ≤
      (2 * n + 4) * (items.length * (34 * e.blocks.length + 8) + 5 * threadCount req hw) + 2 * items.length +
        3 * (2 * n + 4) * acts.countP Act.spurious := by
  have h1 := mtRank_run hk hf acts (inv_init' (be := be) (smp := smp) hr req hw items) h
  have h2 := mtRank_init be n req hw e items
  omega

/-- C79: from every state that can be reached the owning thread gets back from its last call, by letting any thread that can move
do so. -/
theorem C79_can_finish {B E : Type} (be : Backend B E) (n : Nat) (P : B → Prop) (hk : Keeps be n P) (hf : SteadyFlags be)
    (smp : List Rat → Rat → Nat) (e : Exec B) (hr : Ready n P e) (req hw : Nat) (items : List (Item E)) (acts : List Act)
    (s : State B E) (h : State.run be smp acts (init be req hw e items) = some s) :
    ∃ more s', (∀ a ∈ more, a.spurious = false) ∧ s.run be smp more = some s' ∧ MtReturned s' :=
  can_return hk hf (inv_run' hk hf acts (inv_init' hr req hw items) h)

/-- C79: no data race. No two threads are ever about to touch the same clause block, the feedback block or the example buffer with
one of them writing. -/
theorem C79_no_data_race {B E : Type} (be : Backend B E) (n : Nat) (P : B → Prop) (hk : Keeps be n P) (hf : SteadyFlags be)
    (smp : List Rat → Rat → Nat) (e : Exec B) (hr : Ready n P e) (req hw : Nat) (items : List (Item E)) (acts : List Act)
    (s : State B E) (h : State.run be smp acts (init be req hw e items) = some s) : ¬ Race s :=
  no_race (inv_run' hk hf acts (inv_init' hr req hw items) h)

/-- C79: a clause block is never worked on by two threads, and the owning thread touches shared memory only while no worker is in a
task. -/
theorem C79_owner_alone {B E : Type} (be : Backend B E) (n : Nat) (P : B → Prop) (hk : Keeps be n P) (hf : SteadyFlags be)
    (smp : List Rat → Rat → Nat) (e : Exec B) (hr : Ready n P e) (req hw : Nat) (items : List (Item E)) (acts : List Act)
    (s : State B E) (h : State.run be smp acts (init be req hw e items) = some s) :
    (∀ i i' j, WorksOn s i j → WorksOn s i' j → i = i') ∧ (OwnerActs s → ∀ i j, ¬ WorksOn s i j) := by
  have hI := inv_run' hk hf acts (inv_init' hr req hw items) h
  exact ⟨fun i i' j => one_worker hI i i' j, fun ho => owner_alone hI ho⟩

/-- C79: the theorems above apply to every backend. -/
theorem C79_backends_qualify (m np n : Nat) :
    (Keeps denseBackend n (DenseBlockOK n) ∧ SteadyFlags denseBackend) ∧
    (Keeps avxBackend n (AvxBlockOK n) ∧ SteadyFlags avxBackend) ∧
    (Keeps sparseBackend n (SparseBlockOK n) ∧ SteadyFlags sparseBackend) ∧
    (Keeps convBackend n (ConvBlockOK m np n) ∧ SteadyFlags convBackend) ∧
    (Keeps avxConvBackend n (AvxConvBlockOK m np n) ∧ SteadyFlags avxConvBackend) ∧
    (Keeps neonBackend n (NeonBudgetOK m n) ∧ SteadyFlags neonBackend) :=
  ⟨⟨dense_keeps n, fun _ _ _ => ⟨rfl, rfl, rfl⟩⟩, ⟨avx_keeps n, fun _ _ _ => ⟨rfl, rfl, rfl⟩⟩, ⟨sparse_keeps n, fun _ _ _ => ⟨rfl, rfl, rfl⟩⟩,
    ⟨CE.conv_keeps m np n, fun _ _ _ => ⟨rfl, rfl, rfl⟩⟩, ⟨CE.avxConv_keeps m np n, fun _ _ _ => ⟨rfl, rfl, rfl⟩⟩,
    ⟨CE.neon_keeps m n, fun _ _ _ => ⟨rfl, rfl, rfl⟩⟩⟩

/-! A concrete interleaving: two workers, two blocks, one training example and one prediction. -/

def exMtActs : List Act :=
  [0, 1, 0, 3, 0, 0, 1, 1, 1, 3, 2, 2, 0, 0, 0, 3, 0, 2, 0, 3, 0, 3, 0, 1, 0, 1, 0, 1, 0, 1, 0, 1, 0, 1, 0, 1, 0, 1, 0, 3, 1, 1, 1, 2, 2, 1,
    1, 1, 0, 1, 0, 0, 1, 1, 1, 2, 2, 3, 2, 2, 2, 2, 0, 0, 0, 2, 0, 2, 0, 3, 0, 2, 0, 0, 0, 3, 2, 2, 0, 0, 0, 1, 0, 1, 0, 1, 0, 0, 0, 2, 0, 2,
    2, 3, 0, 0, 0, 2, 2, 3, 1, 1, 1, 1, 1, 3, 1, 1, 1, 1, 1, 3, 1, 1, 1, 1, 1, 2, 0, 2, 0, 0, 0, 3, 0, 2, 0, 2, 0, 1, 0, 1, 0, 1, 0, 0, 0, 0,
    0, 2, 0, 3, 2, 2, 0, 0, 0].map fun k => if k < 2 then .worker k else .main (k - 2)

def exMtInit : State DBlock (List Nat) := init denseBackend 2 4 exExec [.train [1, 1] 1, .eval [1, 1]]

example : Ready 2 (DenseBlockOK 2) exExec := setUp_ready exExec_setUp.1

/-- The schedule runs to the end, with the prediction and votes of the single-threaded run. -/
example : (exMtInit.run denseBackend (fun _ _ => 0) exMtActs).map (fun s => (s.lines.length, s.pool.mpc, s.out, s.exec.fb.votes)) =
    some (0, .ready, [1], [-2, 3]) := by decide +kernel

/-- Part of the way both workers are inside tasks on different blocks. -/
example : (exMtInit.run denseBackend (fun _ _ => 0) (exMtActs.take 30)).map (fun s => s.pool.workers) = some [.run 0, .run 3] := by
  decide +kernel

end GT

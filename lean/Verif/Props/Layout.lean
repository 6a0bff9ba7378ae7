import Verif.Lemmas.Layout
import Verif.Props.Predictor

/-! # Moving a machine's state between blocks and arrays (C28) -/

namespace GT
open Spec

/-- The machine's blocks together hold `n_clauses` clauses of its dimensions. -/
def Spec.Allocated (m : Holder) (bs : List Flat) : Prop :=
  m.cbs = some bs ∧ (∀ b ∈ bs, Fits m.nLits m.nClasses b) ∧ totalClauses bs = m.nClauses

/-- Every block the initialisers allocate has rows long enough. -/
theorem C28_allocations_fit (n k m : Nat) (cl ws : Nat → Int) (pad : Bool) (opv : Nat) (ho : 0 < opv) :
    Fits n m (Flat.portable n k m cl ws) ∧ Fits n m (Flat.avx2 pad opv n k m cl ws) := by
  refine ⟨⟨rfl, rfl, Nat.le_refl _, Nat.le_refl _⟩, rfl, rfl, ?_, ?_⟩
  · show n ≤ avxMem n
    unfold avxMem
    split <;> omega
  · show m ≤ if pad then (m / opv + 1) * opv else m
    split
    · have := Nat.div_add_mod m opv
      have := Nat.mod_lt m ho
      rw [Nat.succ_mul, Nat.mul_comm]; omega
    · exact Nat.le_refl _

/-- C28: collecting the state copies every clause of every block, in order, into the machine's rows of a new
state, and changes nothing in the machine. -/
theorem C28_snapshot (m : Holder) (bs : List Flat) (h : Allocated m bs) :
    ∃ a, m.loadStateFromBackend true = .ok (m, some a) ∧ a.rows = m.nClauses ∧ a.nLits = m.nLits ∧
      a.nClasses = m.nClasses ∧ arrayClauses m.nLits m.nClasses m.nClauses a = machineClauses bs := by
  obtain ⟨h1, h2, h3⟩ := h
  refine ⟨loadLoop bs 0 (Arrays.zeros m.nLits m.nClauses m.nClasses), ?_, ?_⟩
  · simp [Holder.loadStateFromBackend, h1]
  · obtain ⟨-, -, -, e1, e2, e3⟩ := loadLoop_spec m.nLits m.nClasses bs (fun b hb => ⟨(h2 b hb).1, (h2 b hb).2.1⟩) 0
      (Arrays.zeros m.nLits m.nClauses m.nClasses)
    rw [e1, e2, e3, ← h3]
    exact ⟨rfl, rfl, rfl, load_reads _ _ bs (fun b hb => ⟨(h2 b hb).1, (h2 b hb).2.1⟩) _⟩

/-- C28: collecting into an existing state overwrites its rows with the blocks' clauses, whatever they were,
and writes nothing outside these rows. -/
theorem C28_snapshot_in_place (m : Holder) (bs : List Flat) (h : Allocated m bs) (a0 : Arrays)
    (hs : m.state = some a0) :
    ∃ a, m.loadStateFromBackend false = .ok ({ m with state := some a }, none) ∧
      arrayClauses m.nLits m.nClasses m.nClauses a = machineClauses bs ∧
      (∀ p, m.nClauses * (2 * m.nLits) ≤ p → a.c p = a0.c p) ∧ (∀ p, m.nClauses * m.nClasses ≤ p → a.w p = a0.w p) := by
  obtain ⟨h1, h2, h3⟩ := h
  refine ⟨loadLoop bs 0 a0, by simp [Holder.loadStateFromBackend, h1, hs], ?_⟩
  have hb : ∀ b ∈ bs, b.nLits = m.nLits ∧ b.nClasses = m.nClasses := fun b hb => ⟨(h2 b hb).1, (h2 b hb).2.1⟩
  obtain ⟨-, e1, e2, -⟩ := loadLoop_spec m.nLits m.nClasses bs hb 0 a0
  rw [Nat.zero_add, h3] at e1 e2
  refine ⟨?_, fun p hp => e1 p (Or.inr hp), fun p hp => e2 p (Or.inr hp)⟩
  rw [← h3]
  exact load_reads _ _ bs hb _

/-- C28: saving a state in the backend puts every clause of the state in its block, in order, and changes no
padding and nothing else in the blocks. -/
theorem C28_restore (m : Holder) (bs : List Flat) (h : Allocated m bs) (a : Arrays) (hs : m.state = some a) :
    ∃ bs', m.saveStateInBackend = .ok { m with cbs := some bs' } ∧
      machineClauses bs' = arrayClauses m.nLits m.nClasses m.nClauses a ∧ List.Forall₂ SamePadding bs bs' := by
  obtain ⟨h1, h2, h3⟩ := h
  refine ⟨saveLoop bs 0 a, by simp [Holder.saveStateInBackend, h1, hs], ?_, ?_⟩
  · rw [saveLoop_spec m.nLits m.nClasses bs h2, ← h3, arrayClauses_eq]
    simp only [Nat.zero_add]
  · generalize 0 = off
    clear h1 h3
    induction bs generalizing off with
    | nil => exact .nil
    | cons b bs ih =>
      refine .cons ?_ (ih (fun b hb => h2 b (by simp [hb])) _)
      obtain ⟨f1, f2, f3, f4⟩ := h2 b (by simp)
      have p1 := setClauseState_pad b (by omega) a.c off
      have p2 := setClauseWeights_pad (b.setClauseState a.c off) (show b.nClasses ≤ b.wMem by omega) a.w off
      exact ⟨rfl, rfl, rfl, rfl, rfl, p1.1, p2.1, p1.2, p2.2⟩

theorem samePadding_allocated {m : Holder} {bs bs' : List Flat} (h : Allocated m bs) (hp : List.Forall₂ SamePadding bs bs') :
    Allocated { m with cbs := some bs' } bs' := by
  obtain ⟨-, h2, h3⟩ := h
  refine ⟨rfl, ?_, ?_⟩
  · clear h3
    induction hp with
    | nil => intro b hb; simp at hb
    | cons hb _ ih =>
      intro b hb'
      rcases List.mem_cons.mp hb' with rfl | hb'
      · obtain ⟨f1, f2, f3, f4⟩ := h2 _ (List.mem_cons_self ..)
        exact ⟨hb.1.trans f1, hb.2.2.1.trans f2, by rw [hb.2.2.2.1]; exact f3, by rw [hb.2.2.2.2.1]; exact f4⟩
      · exact ih (fun b hb => h2 b (by simp [hb])) b hb'
  · rw [← h3]
    clear h2 h3
    induction hp with
    | nil => rfl
    | cons hb _ ih =>
      simp only [totalClauses, List.map_cons, List.sum_cons] at ih ⊢
      rw [ih, hb.2.1]

/-- C28: a state collected from one machine and loaded into another of the same dimensions, whose blocks may
be divided, padded and filled differently, gives it the same clauses, and collecting it again gives equal
arrays. -/
theorem C28_round_trip (m m2 : Holder) (bs bs2 : List Flat) (h : Allocated m bs) (h2 : Allocated m2 bs2)
    (e1 : m2.nLits = m.nLits) (e2 : m2.nClauses = m.nClauses) (e3 : m2.nClasses = m.nClasses) :
    ∃ a bs2' m2' a2, m.loadStateFromBackend true = .ok (m, some a) ∧
      (m2.loadState a).saveStateInBackend = .ok m2' ∧ m2'.cbs = some bs2' ∧
      machineClauses bs2' = machineClauses bs ∧
      m2'.loadStateFromBackend true = .ok (m2', some a2) ∧ a2.toDState = a.toDState := by
  obtain ⟨a, ha, r1, r2, r3, hcl⟩ := C28_snapshot m bs h
  obtain ⟨bs2', hs, hcl2, hpad⟩ := C28_restore (m2.loadState a) bs2 h2 a rfl
  have hal := samePadding_allocated (m := m2.loadState a) h2 hpad
  obtain ⟨a2, ha2, q1, q2, q3, hcl3⟩ := C28_snapshot _ bs2' hal
  have hall : arrayClauses a2.nLits a2.nClasses a2.rows a2 = arrayClauses a.nLits a.nClasses a.rows a := by
    rw [q1, q2, q3, hcl3, hcl2]
    show arrayClauses m2.nLits m2.nClasses m2.nClauses a = _
    rw [r1, r2, r3, e1, e2, e3]
  refine ⟨a, bs2', _, a2, ha, hs, rfl, ?_, ha2, ?_⟩
  · rw [hcl2, ← hcl]
    show arrayClauses m2.nLits m2.nClasses m2.nClauses a = _
    rw [e1, e2, e3]
  · have hc : a2.toDState.c = a.toDState.c := by rw [toDState_c, toDState_c, hall]
    have hw : a2.toDState.w = a.toDState.w := by rw [toDState_w, toDState_w, hall]
    have hl : a2.nLits = a.nLits := by rw [q2, r2]; exact e1
    have hk : a2.nClasses = a.nClasses := by rw [q3, r3]; exact e3
    have : ∀ d d' : DState, d.nLits = d'.nLits → d.nClasses = d'.nClasses → d.c = d'.c → d.w = d'.w → d = d' := by
      intro d d' x1 x2 x3 x4
      cases d; cases d'; simp_all
    exact this _ _ hl hk hc hw

/-- C28: the state collected from a machine predicts like the machine: the predictor made from it agrees with
every executor whose blocks hold the machine's clauses. -/
theorem C28_state_predicts (m : Holder) (bs : List Flat) (h : Allocated m bs) :
    ∃ a, m.loadStateFromBackend true = .ok (m, some a) ∧ WellShaped a.toDState ∧
      ∀ (e : Exec DBlock), SetUp m.nLits m.nClasses e → model e = machineClauses bs → MergesFit a.toDState →
      ∀ (ml : Bool) (rs : Rules), compileDense ml a.toDState = .ok rs →
      ∀ (s : String) (excl : Bool) (p : Predictor), Predictor.fromRuleset rs s excl = .ok p → p.names = none →
      ∀ data : List (List Nat), (∀ x ∈ data, Binary x ∧ x.length = m.nLits) →
        (∀ x ∈ data, ∀ k, k < m.nClasses → -32768 ≤ firingSum (model e) x k ∧ firingSum (model e) x k ≤ 32767) →
        ∃ ks, (Exec.evalPredict denseBackend data data.length e).2 = some ks ∧ ks.length = data.length ∧
          ∀ (i : Nat) (x : List Nat) (k : Nat), data[i]? = some x → ks[i]? = some k →
            (p.predict x).2 = .ok (.idx k) := by
  obtain ⟨a, ha, r1, r2, r3, hcl⟩ := C28_snapshot m bs h
  refine ⟨a, ha, wellShaped_toDState a, ?_⟩
  intro e hse hme hmf ml rs hc s excl p hp hnames data hx hv
  have hperm : (model e).Perm (stateClauses a.toDState) := by
    rw [hme, ← hcl, stateClauses_toDState, r1, r2, r3]
  exact C24_agrees_with_executor m.nLits m.nClasses e hse a.toDState (wellShaped_toDState a) r2 r3 hperm hmf ml rs hc
    s excl p hp [] hnames data hx hv

/-- C28: without blocks or without a state the transfer raises and changes nothing. -/
theorem C28_nothing_to_move (m : Holder) :
    (m.cbs = none → m.saveStateInBackend = .error .valueError ∧
      ∀ b, m.loadStateFromBackend b = .error .typeError) ∧
    (m.state = none → m.saveStateInBackend = .error .valueError) := by
  refine ⟨?_, ?_⟩
  · intro h
    exact ⟨by simp [Holder.saveStateInBackend, h], fun b => by simp [Holder.loadStateFromBackend, h]⟩
  · intro h
    unfold Holder.saveStateInBackend
    rw [h]
    cases m.cbs <;> rfl

/-! Two portable blocks with one clause each, and one AVX2 block with two. -/
def lay1 : Holder := ⟨2, 2, 2, none, some [Flat.portable 2 1 2 (fun i => i) (fun i => 10 + i),
  Flat.portable 2 1 2 (fun i => -1 - i) (fun i => 20 + i)]⟩
def lay2 : Holder := ⟨2, 2, 2, none, some [Flat.avx2 true 16 2 2 2 (fun _ => -109) (fun _ => 0)]⟩

example : (∃ bs, Allocated lay1 bs) ∧ ∃ bs, Allocated lay2 bs := by
  refine ⟨⟨_, rfl, ?_, rfl⟩, ⟨_, rfl, ?_, rfl⟩⟩
  · intro b hb
    simp only [List.mem_cons, List.not_mem_nil, or_false] at hb
    rcases hb with rfl | rfl <;> exact (C28_allocations_fit 2 1 2 _ _ true 16 (by decide)).1
  · intro b hb
    simp only [List.mem_cons, List.not_mem_nil, or_false] at hb
    subst hb
    exact (C28_allocations_fit 2 2 2 _ _ true 16 (by decide)).2

example : machineClauses (lay1.cbs.getD []) = [([0, 1], [2, 3], [10, 11]), ([-1, -2], [-3, -4], [20, 21])] := by
  decide +kernel

/-- C28: the shape of a loaded state is not checked: a state for two literals is accepted by a machine for
one, whose second clause then holds entries of the first. -/
theorem C28_shape_not_checked :
    ∃ (m : Holder) (bs bs' : List Flat) (a : Arrays) (m' : Holder), Allocated m bs ∧ a.nLits ≠ m.nLits ∧
      (m.loadState a).saveStateInBackend = .ok m' ∧ m'.cbs = some bs' ∧
      machineClauses bs' = [([1], [2], [0]), ([3], [4], [0])] ∧
      arrayClauses a.nLits a.nClasses a.rows a = [([1, 2], [3, 4], [0]), ([5, 6], [7, 8], [0])] := by
  refine ⟨⟨1, 2, 1, none, some [Flat.portable 1 2 1 (fun _ => 0) (fun _ => 0)]⟩, _, _,
    ⟨2, 2, 1, fun i => i + 1, fun _ => 0⟩, _, ⟨rfl, ?_, rfl⟩, by decide, rfl, rfl, by decide +kernel, by decide +kernel⟩
  intro b hb
  simp only [List.mem_cons, List.not_mem_nil, or_false] at hb
  subst hb
  exact (C28_allocations_fit 1 2 1 _ _ true 16 (by decide)).1

end GT

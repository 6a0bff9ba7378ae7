import Verif.Spec.Backend

namespace GT
open Spec

/-- Values that are not a class for sparse machines. -/
def NotSparseVal : RegVal → Prop
  | .cls (.sparse _ _ _) => False
  | .cls .pySparseInput => False
  | _ => True

/-- Classes for sparse machines. -/
def SparseVal : RegVal → Prop
  | .cls (.sparse _ _ _) => True
  | .cls .pySparseInput => True
  | _ => False

theorem sparse_ne {a b : RegVal} (ha : NotSparseVal a) (hb : SparseVal b) : a ≠ b := by
  intro h
  subst h
  cases a with
  | cls c => cases c <;> simp_all [NotSparseVal, SparseVal]
  | noneVal => simp_all [NotSparseVal, SparseVal]
  | tuple c => simp_all [NotSparseVal, SparseVal]

/-- What always holds of the process. -/
structure ProcOk (pl : Platform) (p : Process) : Prop where
  dense   : p.reg.dense = (loadBackend pl).dense
  sparse  : p.reg.sparse = (loadBackend pl).sparse
  conv    : p.reg.convCb = (loadBackend pl).convCb
  cb      : NotSparseVal p.reg.cb
  scb     : SparseVal p.reg.sparseCb
  machs   : ∀ m ∈ p.machs, m.kind ≠ .sparse → NotSparseVal m.current

theorem load_dense (pl : Platform) (l b : Bool) :
    (loadBackend pl).dense l b = if pl.core then some (.cls (wantedDense pl l b)) else none := by
  rcases pl with ⟨c, a, n⟩
  cases c <;> cases a <;> cases n <;> rfl

theorem load_sparse (pl : Platform) (l d b : Bool) :
    (loadBackend pl).sparse l d b = if pl.core then some (.cls (.sparse l d b)) else none := by
  rcases pl with ⟨c, a, n⟩
  cases c <;> cases a <;> cases n <;> rfl

theorem load_conv (pl : Platform) :
    (loadBackend pl).convCb =
      if pl.core then (if pl.avx2 then .cls .convAvx2 else .tuple .conv) else .noneVal := by
  rcases pl with ⟨c, a, n⟩
  cases c <;> cases a <;> cases n <;> rfl

theorem procOk_load (pl : Platform) : ProcOk pl ⟨loadBackend pl, []⟩ := by
  rcases pl with ⟨c, a, n⟩
  cases c <;> cases a <;> cases n <;> exact ⟨rfl, rfl, rfl, trivial, trivial, by simp⟩

theorem wantedDense_not_sparse (pl : Platform) (l b : Bool) : NotSparseVal (.cls (wantedDense pl l b)) := by
  rcases pl with ⟨c, a, n⟩
  cases a <;> cases n <;> trivial

/-- A machine and a registry, with the parts of `ProcOk` about them. -/
structure MachOk (pl : Platform) (m : Mach) (r : Registry) : Prop where
  dense   : r.dense = (loadBackend pl).dense
  sparse  : r.sparse = (loadBackend pl).sparse
  conv    : r.convCb = (loadBackend pl).convCb
  cb      : NotSparseVal r.cb
  scb     : SparseVal r.sparseCb
  mach    : m.kind ≠ .sparse → NotSparseVal m.current

theorem machConstruct_ok {pl : Platform} {m : Mach} {r : Registry} (h : MachOk pl m r) :
    MachOk pl (m.construct r).1 (m.construct r).2.1 ∧ (m.construct r).1.kind = m.kind := by
  have hd : ∀ l b, r.dense l b = _ := fun l b => (congrFun (congrFun h.dense l) b).trans (load_dense pl l b)
  have hs : ∀ l d b, r.sparse l d b = _ :=
    fun l d b => (congrFun (congrFun (congrFun h.sparse l) d) b).trans (load_sparse pl l d b)
  have hcv := h.conv.trans (load_conv pl)
  rcases hk : m.kind with _ | _ | _
  · cases hc : pl.core with
    | false =>
      have e : m.construct r = (m, r, .error .keyError) := by
        simp [Mach.construct, Mach.getBackend, hk, hd, hc]
      rw [e]; exact ⟨h, hk⟩
    | true =>
      have e : m.construct r = ({ m with current := .cls (wantedDense pl m.budget m.boost) },
          { r with cb := .cls (wantedDense pl m.budget m.boost) }, .ok (wantedDense pl m.budget m.boost)) := by
        simp [Mach.construct, Mach.getBackend, hk, hd, hc]
      rw [e]
      exact ⟨⟨h.dense, h.sparse, h.conv, wantedDense_not_sparse _ _ _, h.scb, fun _ => wantedDense_not_sparse _ _ _⟩,
        hk⟩
  · cases hc : pl.core with
    | false =>
      have e : m.construct r = (m, r, .error .keyError) := by
        simp [Mach.construct, Mach.getBackend, hk, hs, hc]
      rw [e]; exact ⟨h, hk⟩
    | true =>
      have e : m.construct r = ({ m with current := .cls (.sparse m.budget m.dynAL m.boost) },
          { r with sparseCb := .cls (.sparse m.budget m.dynAL m.boost) },
          .ok (.sparse m.budget m.dynAL m.boost)) := by
        simp [Mach.construct, Mach.getBackend, hk, hs, hc]
      rw [e]
      exact ⟨⟨h.dense, h.sparse, h.conv, h.cb, trivial, fun hne => absurd hk hne⟩, hk⟩
  · have e : (m.construct r).1 = { m with current := r.convCb } ∧ (m.construct r).2.1 = r := by
      simp [Mach.construct, Mach.getBackend, hk]
    rw [e.1, e.2]
    refine ⟨⟨h.dense, h.sparse, h.conv, h.cb, h.scb, fun _ => ?_⟩, hk⟩
    show NotSparseVal r.convCb
    rw [hcv]
    cases pl.core <;> cases pl.avx2 <;> trivial

theorem machTrain_fst (m : Mach) (r : Registry) (a b : DataKind) :
    ((m.train r a b).1 = m ∧ (m.train r a b).2.1 = r) ∨
    ((m.train r a b).1 = (m.construct r).1 ∧ (m.train r a b).2.1 = (m.construct r).2.1) := by
  unfold Mach.train
  split
  · exact .inl ⟨rfl, rfl⟩
  · split
    · exact .inl ⟨rfl, rfl⟩
    · exact .inr ⟨rfl, rfl⟩

theorem ProcOk.mach {pl : Platform} {p : Process} (h : ProcOk pl p) {i : Nat} {m : Mach} (hi : p.machs[i]? = some m) :
    MachOk pl m p.reg :=
  ⟨h.dense, h.sparse, h.conv, h.cb, h.scb, h.machs m (List.mem_of_getElem? hi)⟩

theorem ProcOk.put {pl : Platform} {p : Process} (h : ProcOk pl p) {i : Nat} {m : Mach} {r : Registry}
    (hm : MachOk pl m r) : ProcOk pl ⟨r, p.machs.set i m⟩ := by
  refine ⟨hm.dense, hm.sparse, hm.conv, hm.cb, hm.scb, ?_⟩
  intro m' hm' hne
  rcases List.mem_or_eq_of_mem_set hm' with h1 | h1
  · exact h.machs m' h1 hne
  · subst h1; exact hm.mach hne

theorem procStep_ok {pl : Platform} {p : Process} (h : ProcOk pl p) (op : ProcessOp) : ProcOk pl (p.step op) := by
  cases op with
  | create k l d b =>
    refine ⟨h.dense, h.sparse, h.conv, h.cb, h.scb, ?_⟩
    intro m hm hne
    simp only [Process.step, List.mem_append, List.mem_singleton] at hm
    rcases hm with hm | hm
    · exact h.machs m hm hne
    · subst hm
      cases k with
      | dense => exact h.cb
      | sparse => exact absurd rfl hne
      | conv => exact h.cb
  | setBudget i =>
    unfold Process.step
    dsimp only
    cases hi : p.machs[i]? with
    | none => exact h
    | some m =>
      have := h.mach hi
      exact h.put (m := { m with budget := true })
        ⟨this.dense, this.sparse, this.conv, this.cb, this.scb, this.mach⟩
  | construct i =>
    unfold Process.step
    dsimp only
    cases hi : p.machs[i]? with
    | none => exact h
    | some m => exact h.put (machConstruct_ok (h.mach hi)).1
  | train i a b =>
    unfold Process.step
    dsimp only
    cases hi : p.machs[i]? with
    | none => exact h
    | some m =>
      refine h.put ?_
      rcases machTrain_fst m p.reg a b with ⟨e1, e2⟩ | ⟨e1, e2⟩
      · rw [e1, e2]; exact h.mach hi
      · rw [e1, e2]; exact (machConstruct_ok (h.mach hi)).1

theorem procRun_ok (pl : Platform) (ops : List ProcessOp) : ProcOk pl (runProcess pl ops) := by
  unfold runProcess
  generalize hp : (⟨loadBackend pl, []⟩ : Process) = p
  have h : ProcOk pl p := hp ▸ procOk_load pl
  clear hp
  induction ops generalizing p with
  | nil => exact h
  | cons op ops ih => exact ih _ (procStep_ok h op)

theorem construct_dense {pl : Platform} {m : Mach} {r : Registry} (h : MachOk pl m r) (hc : pl.core = true)
    (hk : m.kind = .dense) : (m.construct r).2.2 = .ok (wantedDense pl m.budget m.boost) := by
  have hd : ∀ l b, r.dense l b = _ := fun l b => (congrFun (congrFun h.dense l) b).trans (load_dense pl l b)
  simp [Mach.construct, Mach.getBackend, hk, hd, hc]

theorem construct_sparse {pl : Platform} {m : Mach} {r : Registry} (h : MachOk pl m r) (hc : pl.core = true)
    (hk : m.kind = .sparse) :
    m.construct r = ({ m with current := .cls (.sparse m.budget m.dynAL m.boost) },
      { r with sparseCb := .cls (.sparse m.budget m.dynAL m.boost) }, .ok (.sparse m.budget m.dynAL m.boost)) := by
  have hs : ∀ l d b, r.sparse l d b = _ :=
    fun l d b => (congrFun (congrFun (congrFun h.sparse l) d) b).trans (load_sparse pl l d b)
  simp [Mach.construct, Mach.getBackend, hk, hs, hc]

theorem construct_conv {pl : Platform} {m : Mach} {r : Registry} (h : MachOk pl m r) (hk : m.kind = .conv) :
    (m.construct r).2.2 = if pl.core ∧ pl.avx2 then .ok .convAvx2 else .error .typeError := by
  have hcv := h.conv.trans (load_conv pl)
  simp only [Mach.construct, Mach.getBackend, hk, hcv]
  cases pl.core <;> cases pl.avx2 <;> rfl

theorem construct_no_core {pl : Platform} {m : Mach} {r : Registry} (h : MachOk pl m r) (hc : pl.core = false) :
    (m.construct r).2.2 = .error (if m.kind = .conv then .typeError else .keyError) := by
  have hd : ∀ l b, r.dense l b = _ := fun l b => (congrFun (congrFun h.dense l) b).trans (load_dense pl l b)
  have hs : ∀ l d b, r.sparse l d b = _ :=
    fun l d b => (congrFun (congrFun (congrFun h.sparse l) d) b).trans (load_sparse pl l d b)
  have hcv := h.conv.trans (load_conv pl)
  cases hk : m.kind <;> simp [Mach.construct, Mach.getBackend, hk, hd, hs, hcv, hc]

/-- A dense step leaves the sparse entry alone. -/
theorem construct_keeps_scb {m : Mach} {r : Registry} (hk : m.kind ≠ .sparse) :
    (m.construct r).2.1.sparseCb = r.sparseCb := by
  unfold Mach.construct Mach.getBackend
  cases hm : m.kind with
  | dense => cases h : r.dense m.budget m.boost <;> simp
  | sparse => exact absurd hm hk
  | conv => rfl

/-! ### The sparse entry follows the sparse machines -/

/-- Every sparse machine has the class of the registry. -/
def Follows (p : Process) : Prop := ∀ m ∈ p.machs, m.kind = .sparse → m.current = p.reg.sparseCb

/-- How many sparse machines there are. -/
def numSparse (ms : List Mach) : Nat := ms.countP (fun m => m.kind == .sparse)

theorem numSparse_set {ms : List Mach} {i : Nat} {m m' : Mach} (hi : ms[i]? = some m) (hk : m'.kind = m.kind) :
    numSparse (ms.set i m') = numSparse ms := by
  induction ms generalizing i with
  | nil => simp at hi
  | cons a ms ih =>
    cases i with
    | zero =>
      simp only [List.getElem?_cons_zero, Option.some.injEq] at hi
      subst hi
      simp [numSparse, List.countP_cons, hk]
    | succ i =>
      simp only [List.getElem?_cons_succ] at hi
      have := ih hi
      simp only [numSparse] at this
      simp [numSparse, List.countP_cons, this]

theorem only_one {ms : List Mach} (h1 : numSparse ms ≤ 1) {i j : Nat} {m m' : Mach} (hi : ms[i]? = some m)
    (hj : ms[j]? = some m') (hk : m.kind = .sparse) (hk' : m'.kind = .sparse) : i = j := by
  induction ms generalizing i j with
  | nil => simp at hi
  | cons a ms ih =>
    simp only [numSparse, List.countP_cons] at h1
    have pos : ∀ {k : Nat} {x : Mach}, ms[k]? = some x → x.kind = .sparse →
        0 < ms.countP (fun m => m.kind == .sparse) := by
      intro k x hx hxk
      exact List.countP_pos_iff.mpr ⟨x, List.mem_of_getElem? hx, by simp [hxk]⟩
    cases i with
    | zero =>
      cases j with
      | zero => rfl
      | succ j =>
        simp only [List.getElem?_cons_zero, Option.some.injEq, List.getElem?_cons_succ] at hi hj
        subst hi
        have := pos hj hk'
        rw [if_pos (by simp [hk])] at h1
        omega
    | succ i =>
      cases j with
      | zero =>
        simp only [List.getElem?_cons_zero, Option.some.injEq, List.getElem?_cons_succ] at hi hj
        subst hj
        have := pos hi hk
        rw [if_pos (by simp [hk'])] at h1
        omega
      | succ j =>
        simp only [List.getElem?_cons_succ] at hi hj
        have : numSparse ms ≤ 1 := by
          simp only [numSparse]; split at h1 <;> omega
        rw [ih this hi hj]

theorem construct_kind (m : Mach) (r : Registry) : (m.construct r).1.kind = m.kind := by
  unfold Mach.construct
  cases m.getBackend r <;> rfl

theorem train_kind (m : Mach) (r : Registry) (a b : DataKind) : (m.train r a b).1.kind = m.kind := by
  rcases machTrain_fst m r a b with ⟨e, _⟩ | ⟨e, _⟩
  · rw [e]
  · rw [e, construct_kind]

theorem step_numSparse (p : Process) (op : ProcessOp) :
    numSparse (p.step op).machs = numSparse p.machs + sparseCreated [op] := by
  cases op with
  | create k l d b =>
    cases k <;> simp [Process.step, numSparse, sparseCreated, List.countP_append, Mach.new]
  | setBudget i =>
    simp only [Process.step, sparseCreated]
    cases hi : p.machs[i]? with
    | none => rfl
    | some m => exact numSparse_set hi rfl
  | construct i =>
    simp only [Process.step, sparseCreated]
    cases hi : p.machs[i]? with
    | none => rfl
    | some m => exact numSparse_set hi (construct_kind m p.reg)
  | train i a b =>
    simp only [Process.step, sparseCreated]
    cases hi : p.machs[i]? with
    | none => rfl
    | some m => exact numSparse_set hi (train_kind m p.reg a b)

theorem sparseCreated_cons (op : ProcessOp) (ops : List ProcessOp) :
    sparseCreated (op :: ops) = sparseCreated [op] + sparseCreated ops := by
  cases op with
  | create k l d b => cases k <;> simp [sparseCreated]; omega
  | _ => simp [sparseCreated]

/-- Putting a constructed machine back. -/
theorem follows_construct {pl : Platform} {p : Process} (hok : ProcOk pl p) (hc : pl.core = true) (hf : Follows p)
    (h1 : numSparse p.machs ≤ 1) {i : Nat} {m : Mach} (hi : p.machs[i]? = some m) :
    Follows ⟨(m.construct p.reg).2.1, p.machs.set i (m.construct p.reg).1⟩ := by
  intro m' hm' hk'
  obtain ⟨j, hj⟩ := List.mem_iff_getElem?.mp hm'
  have hlt : i < p.machs.length := (List.getElem?_eq_some_iff.mp hi).1
  by_cases hij : i = j
  · subst hij
    rw [List.getElem?_set_self hlt] at hj
    simp only [Option.some.injEq] at hj
    have hk : m.kind = .sparse := by rw [← construct_kind m p.reg, hj]; exact hk'
    have e := construct_sparse (hok.mach hi) hc hk
    rw [← hj, e]
  · rw [List.getElem?_set_ne hij] at hj
    by_cases hk : m.kind = .sparse
    · exact absurd (only_one h1 hi hj hk hk') hij
    · show m'.current = (m.construct p.reg).2.1.sparseCb
      rw [construct_keeps_scb hk]
      exact hf m' (List.mem_of_getElem? hj) hk'

theorem step_follows {pl : Platform} {p : Process} (hok : ProcOk pl p) (hc : pl.core = true) (hf : Follows p) (op : ProcessOp)
    (h1 : numSparse (p.step op).machs ≤ 1) : Follows (p.step op) := by
  cases op with
  | create k l d b =>
    intro m hm hk
    simp only [Process.step, List.mem_append, List.mem_singleton] at hm
    rcases hm with hm | hm
    · exact hf m hm hk
    · subst hm
      cases k with
      | dense => cases hk
      | sparse => rfl
      | conv => cases hk
  | setBudget i =>
    unfold Process.step
    dsimp only
    cases hi : p.machs[i]? with
    | none => exact hf
    | some m =>
      intro m' hm' hk'
      rcases List.mem_or_eq_of_mem_set hm' with h | h
      · exact hf m' h hk'
      · subst h; exact hf m (List.mem_of_getElem? hi) hk'
  | construct i =>
    rw [step_numSparse] at h1
    simp only [sparseCreated, Nat.add_zero] at h1
    unfold Process.step
    dsimp only
    cases hi : p.machs[i]? with
    | none => exact hf
    | some m => exact follows_construct hok hc hf h1 hi
  | train i a b =>
    rw [step_numSparse] at h1
    simp only [sparseCreated, Nat.add_zero] at h1
    unfold Process.step
    dsimp only
    cases hi : p.machs[i]? with
    | none => exact hf
    | some m =>
      dsimp only
      rcases machTrain_fst m p.reg a b with ⟨e1, e2⟩ | ⟨e1, e2⟩
      · rw [e1, e2]
        intro m' hm' hk'
        rcases List.mem_or_eq_of_mem_set hm' with h | h
        · exact hf m' h hk'
        · subst h; exact hf m' (List.mem_of_getElem? hi) hk'
      · rw [e1, e2]; exact follows_construct hok hc hf h1 hi

theorem run_follows (pl : Platform) (hc : pl.core = true) (ops : List ProcessOp) (h1 : sparseCreated ops ≤ 1) :
    Follows (runProcess pl ops) := by
  unfold runProcess
  have h2 : numSparse (⟨loadBackend pl, []⟩ : Process).machs + sparseCreated ops ≤ 1 := by simpa [numSparse] using h1
  have hf : Follows (⟨loadBackend pl, []⟩ : Process) := by intro m hm; simp at hm
  have hok := procOk_load pl
  generalize (⟨loadBackend pl, []⟩ : Process) = p at *
  clear h1
  induction ops generalizing p with
  | nil => exact hf
  | cons op ops ih =>
    rw [sparseCreated_cons] at h2
    have h3 := step_numSparse p op
    exact ih _ (by omega) (step_follows hok hc hf op (by omega)) (procStep_ok hok op)

/-- With only fallback sparse machines: the entry never changes. -/
structure Fallback (p : Process) : Prop where
  reg   : p.reg.sparseCb = .cls (.sparse true true false)
  machs : ∀ m ∈ p.machs, m.kind = .sparse →
    m.current = .cls (.sparse true true false) ∧ m.budget = true ∧ m.dynAL = true ∧ m.boost = false

theorem fallback_put {pl : Platform} {p : Process} (hok : ProcOk pl p) (hc : pl.core = true) (h : Fallback p) {i : Nat}
    {m : Mach} (hi : p.machs[i]? = some m) :
    Fallback ⟨(m.construct p.reg).2.1, p.machs.set i (m.construct p.reg).1⟩ := by
  have hm := List.mem_of_getElem? hi
  by_cases hk : m.kind = .sparse
  · obtain ⟨_, h2, h3, h4⟩ := h.machs m hm hk
    have e := construct_sparse (hok.mach hi) hc hk
    rw [e]
    refine ⟨by simp [h2, h3, h4], ?_⟩
    intro m' hm' hk'
    rcases List.mem_or_eq_of_mem_set hm' with h' | h'
    · exact h.machs m' h' hk'
    · subst h'; exact ⟨by simp [h2, h3, h4], h2, h3, h4⟩
  · refine ⟨(construct_keeps_scb hk).trans h.reg, ?_⟩
    intro m' hm' hk'
    rcases List.mem_or_eq_of_mem_set hm' with h' | h'
    · exact h.machs m' h' hk'
    · subst h'; rw [construct_kind] at hk'; exact absurd hk' hk

theorem step_fallback {pl : Platform} {p : Process} (hok : ProcOk pl p) (hc : pl.core = true) (h : Fallback p)
    (op : ProcessOp) (hop : OnlyFallbackSparse [op]) : Fallback (p.step op) := by
  have hput : ∀ {i : Nat} {m : Mach}, p.machs[i]? = some m → ∀ b, b = m ∨ b = { m with budget := true } →
      Fallback ⟨p.reg, p.machs.set i b⟩ := by
    intro i m hi b hb
    refine ⟨h.reg, ?_⟩
    intro m' hm' hk'
    rcases List.mem_or_eq_of_mem_set hm' with h' | h'
    · exact h.machs m' h' hk'
    · subst h'
      rcases hb with hb | hb
      · subst hb; exact h.machs _ (List.mem_of_getElem? hi) hk'
      · subst hb
        have := h.machs _ (List.mem_of_getElem? hi) hk'
        exact ⟨this.1, rfl, this.2.2⟩
  cases op with
  | create k l d b =>
    refine ⟨h.reg, ?_⟩
    intro m hm hk
    simp only [Process.step, List.mem_append, List.mem_singleton] at hm
    rcases hm with hm | hm
    · exact h.machs m hm hk
    · subst hm
      cases k with
      | dense => cases hk
      | sparse =>
        obtain ⟨h1, h2, h3⟩ := hop _ (List.mem_singleton_self _)
        exact ⟨h.reg, h1, h2, h3⟩
      | conv => cases hk
  | setBudget i =>
    unfold Process.step
    dsimp only
    cases hi : p.machs[i]? with
    | none => exact h
    | some m => exact hput hi _ (.inr rfl)
  | construct i =>
    unfold Process.step
    dsimp only
    cases hi : p.machs[i]? with
    | none => exact h
    | some m => exact fallback_put hok hc h hi
  | train i a b =>
    unfold Process.step
    dsimp only
    cases hi : p.machs[i]? with
    | none => exact h
    | some m =>
      dsimp only
      rcases machTrain_fst m p.reg a b with ⟨e1, e2⟩ | ⟨e1, e2⟩
      · rw [e1, e2]; exact hput hi _ (.inl rfl)
      · rw [e1, e2]; exact fallback_put hok hc h hi

theorem run_fallback (pl : Platform) (hc : pl.core = true) (ops : List ProcessOp) (h1 : OnlyFallbackSparse ops) :
    Fallback (runProcess pl ops) := by
  unfold runProcess
  have hf : Fallback (⟨loadBackend pl, []⟩ : Process) := by
    refine ⟨?_, by simp⟩
    rcases pl with ⟨c, a, n⟩
    cases c
    · cases hc
    · cases a <;> cases n <;> rfl
  have hok := procOk_load pl
  generalize (⟨loadBackend pl, []⟩ : Process) = p at *
  induction ops generalizing p with
  | nil => exact hf
  | cons op ops ih =>
    exact ih (fun o ho => h1 o (List.mem_cons_of_mem _ ho)) _
      (step_fallback hok hc hf op (fun o ho => by
        rw [List.mem_singleton] at ho; subst ho; exact h1 _ (List.mem_cons_self ..)))
      (procStep_ok hok op)

end GT

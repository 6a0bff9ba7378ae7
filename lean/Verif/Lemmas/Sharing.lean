import Verif.Spec.Sharing

/-! # Lemmas for C87: references and values -/

namespace GT.Share
open GT GT.Spec

variable {S R X Y P : Type}

/-! ## The heap -/

theorem get_prefix {h h' : StateHeap R} (e : h <+: h') {r : Ref} (hr : r < h.length) : h'.get r = h.get r := by
  obtain ⟨t, rfl⟩ := e
  simp [StateHeap.get, List.getD, List.getElem?_append_left hr]

theorem map_get_prefix {h h' : StateHeap R} (e : h <+: h') {o : Option Ref} (ho : ∀ r ∈ o, r < h.length) :
    o.map h'.get = o.map h.get := by
  cases o with
  | none => rfl
  | some r => simp only [Option.map_some]; rw [get_prefix e (ho r rfl)]

theorem get_new (h : StateHeap R) (rows : List R) : StateHeap.get (h ++ [rows]) h.length = rows := by
  simp [StateHeap.get, List.getD]

theorem modify_last (h : StateHeap R) (rows : List R) (f : List R → List R) : (h ++ [rows]).modify h.length f = h ++ [f rows] := by
  induction h with
  | nil => rfl
  | cons a h ih => simp only [List.cons_append, List.length_cons, List.modify_succ_cons, ih]

theorem writeParts_last (zero : R) (n : Nat) (h : StateHeap R) : ∀ (ps : List (List R)) (A : List R),
    writeParts h.length ps A.length (h ++ [A ++ List.replicate (n - A.length) zero]) =
      h ++ [A ++ ps.flatten ++ List.replicate (n - (A ++ ps.flatten).length) zero] := by
  intro ps
  induction ps with
  | nil => intro A; simp [writeParts]
  | cons p ps ih =>
    intro A
    rw [writeParts, modify_last]
    have e : putRows (A ++ List.replicate (n - A.length) zero) A.length p = (A ++ p) ++ List.replicate (n - (A ++ p).length) zero := by
      unfold putRows
      rw [List.take_left' rfl, List.drop_append]
      have : List.drop (A.length + p.length) A = [] := List.drop_eq_nil_of_le (by omega)
      rw [this, List.drop_replicate, List.length_append]
      simp only [List.nil_append]
      congr 2
      omega
    rw [e, show A.length + p.length = (A ++ p).length by simp, ih (A ++ p)]
    simp [List.append_assoc]

theorem collect_new (zero : R) (n : Nat) (own : Option Ref) (parts : List (List R)) (h : StateHeap R) (b : Bool) (hb : b = true ∨ own = none) :
    collect zero n own b parts h = (h ++ [parts.flatten ++ List.replicate (n - parts.flatten.length) zero], h.length) := by
  have e : (if b then none else own) = (none : Option Ref) := by rcases hb with rfl | rfl <;> simp
  unfold collect
  rw [e]
  simp only [StateHeap.alloc]
  have := writeParts_last zero n h parts []
  simp only [List.length_nil, List.nil_append, Nat.sub_zero] at this
  rw [this]

/-! ## Attributes -/

def absA (h : StateHeap R) (a : Attrs S Ref X Y) : Attrs S (List R) X Y :=
  ⟨a.xTrain, a.yTrain, a.xEval, a.yEval, a.best.map h.get, a.results, a.tmState.map h.get, a.blocks⟩

def ValidA (h : StateHeap R) (a : Attrs S Ref X Y) : Prop := (∀ r ∈ a.best, r < h.length) ∧ (∀ r ∈ a.tmState, r < h.length)

theorem absA_prefix {h h' : StateHeap R} (e : h <+: h') {a : Attrs S Ref X Y} (ha : ValidA h a) : absA h' a = absA h a := by
  unfold absA
  rw [map_get_prefix e ha.1, map_get_prefix e ha.2]

theorem ValidA.mono {h h' : StateHeap R} (e : h <+: h') {a : Attrs S Ref X Y} (ha : ValidA h a) : ValidA h' a :=
  ⟨fun r hr => Nat.lt_of_lt_of_le (ha.1 r hr) e.length_le, fun r hr => Nat.lt_of_lt_of_le (ha.2 r hr) e.length_le⟩

/-- The code on references does what the code on values does, and only adds objects. -/
def Sim {α : Type} (p : Py (StateHeap R × Attrs S Ref X Y) α) (q : Py (Attrs S (List R) X Y) α) : Prop :=
  ∀ h a n, ValidA h a →
    q (absA h a) n = (absA (p (h, a) n).1.1 (p (h, a) n).1.2, (p (h, a) n).2) ∧
    ValidA (p (h, a) n).1.1 (p (h, a) n).1.2 ∧ h <+: (p (h, a) n).1.1

theorem Sim.pure {α : Type} (x : α) : Sim (R := R) (S := S) (X := X) (Y := Y) (Py.pure x) (Py.pure x) :=
  fun h _ _ hv => ⟨rfl, hv, List.prefix_refl h⟩

theorem Sim.bind {α β : Type} {p : Py (StateHeap R × Attrs S Ref X Y) α} {q : Py (Attrs S (List R) X Y) α}
    {p' : α → Py (StateHeap R × Attrs S Ref X Y) β} {q' : α → Py (Attrs S (List R) X Y) β}
    (hp : Sim p q) (hp' : ∀ x, Sim (p' x) (q' x)) : Sim (p.bind p') (q.bind q') := by
  intro h a n hv
  obtain ⟨e, hv', hx⟩ := hp h a n hv
  unfold Py.bind
  rw [e]
  dsimp only
  cases hr : (p (h, a) n).2 with
  | none => exact ⟨rfl, hv', hx⟩
  | some xn =>
    obtain ⟨x, n'⟩ := xn
    obtain ⟨e2, hv2, hx2⟩ := hp' x (p (h, a) n).1.1 (p (h, a) n).1.2 n' hv'
    exact ⟨e2, hv2, hx.trans hx2⟩

theorem Sim.stmt {α : Type} {f : StateHeap R × Attrs S Ref X Y → (StateHeap R × Attrs S Ref X Y) × α} {g : Attrs S (List R) X Y → Attrs S (List R) X Y × α}
    (hf : ∀ h a, ValidA h a → g (absA h a) = (absA (f (h, a)).1.1 (f (h, a)).1.2, (f (h, a)).2) ∧
      ValidA (f (h, a)).1.1 (f (h, a)).1.2 ∧ h <+: (f (h, a)).1.1) : Sim (Py.stmt f) (Py.stmt g) := by
  intro h a n hv
  obtain ⟨e, hv', hx⟩ := hf h a hv
  unfold Py.stmt
  match n with
  | none => simp only [e]; exact ⟨trivial, hv', hx⟩
  | some 0 => exact ⟨rfl, hv, List.prefix_refl h⟩
  | some (n + 1) => simp only [e]; exact ⟨trivial, hv', hx⟩

/-- Statements that leave both states alone. -/
theorem Sim.onStmt {α : Type} {f : Attrs S Ref X Y → Attrs S Ref X Y × α} {g : Attrs S (List R) X Y → Attrs S (List R) X Y × α}
    (hf : ∀ (h : StateHeap R) a, g (absA h a) = (absA h (f a).1, (f a).2) ∧ (f a).1.best = a.best ∧ (f a).1.tmState = a.tmState) :
    Sim (onAttrs (Py.stmt f)) (Py.stmt g) := by
  intro h a n hv
  obtain ⟨e, e1, e2⟩ := hf h a
  have hv' : ValidA h (f a).1 := ⟨by rw [e1]; exact hv.1, by rw [e2]; exact hv.2⟩
  unfold onAttrs Py.stmt
  match n with
  | none => simp only [e]; exact ⟨trivial, hv', List.prefix_refl h⟩
  | some 0 => exact ⟨rfl, hv, List.prefix_refl h⟩
  | some (n + 1) => simp only [e]; exact ⟨trivial, hv', List.prefix_refl h⟩

theorem Sim.ite {α : Type} {c : Prop} [Decidable c] {p p' : Py (StateHeap R × Attrs S Ref X Y) α} {q q' : Py (Attrs S (List R) X Y) α}
    (h1 : Sim p q) (h2 : Sim p' q') : Sim (if c then p else p') (if c then q else q') := by
  by_cases hc : c
  · rw [if_pos hc, if_pos hc]; exact h1
  · rw [if_neg hc, if_neg hc]; exact h2

theorem sim_onBlocks {α : Type} (f : S → S × α) (d : α) : Sim (R := R) (onAttrs (onBlocks (X := X) (Y := Y) f d)) (onBlocks f d) := by
  refine Sim.onStmt fun h a => ?_
  obtain ⟨x1, y1, x2, y2, b, res, st, bl⟩ := a
  unfold Attrs.call absA
  cases bl <;> exact ⟨rfl, rfl, rfl⟩

theorem fresh_eq (k : Shop S R) (n : Nat) (h : StateHeap R) (a : Attrs S Ref X Y) (b : S) (hb : a.blocks = .live b) :
    freshCopy k n (h, a) = (h ++ [allRows k n b], some h.length) := by
  unfold freshCopy
  dsimp only
  rw [hb]
  dsimp only
  rw [collect_new _ _ _ _ _ _ (.inl rfl)]
  rfl

theorem fresh_none (k : Shop S R) (n : Nat) (h : StateHeap R) (a : Attrs S Ref X Y) (hb : ∀ b, a.blocks ≠ .live b) :
    freshCopy k n (h, a) = (h, none) := by
  unfold freshCopy
  cases hb' : a.blocks with
  | live b => exact absurd hb' (hb b)
  | raw => rfl
  | none => rfl

theorem fresh_spec (k : Shop S R) (n : Nat) (c : TrainerCfg S R X Y) (xt yt xe ye) (h : StateHeap R) (a : Attrs S Ref X Y) :
    h <+: (freshCopy k n (h, a)).1 ∧ (∀ r ∈ (freshCopy k n (h, a)).2, r < (freshCopy k n (h, a)).1.length) ∧
    (absA h a).current ((asSettings k n c).backend xt yt xe ye) = (freshCopy k n (h, a)).2.map (freshCopy k n (h, a)).1.get := by
  cases hb : a.blocks with
  | live b =>
    rw [fresh_eq k n h a b hb]
    refine ⟨List.prefix_append _ _, fun r hr => ?_, ?_⟩
    · cases hr; simp
    · simp only [Attrs.current, absA, hb, Option.map_some, get_new]
      rfl
  | raw =>
    rw [fresh_none k n h a (by simp [hb])]
    exact ⟨List.prefix_refl _, (fun r hr => by cases hr), (by simp [Attrs.current, absA, hb])⟩
  | none =>
    rw [fresh_none k n h a (by simp [hb])]
    exact ⟨List.prefix_refl _, (fun r hr => by cases hr), (by simp [Attrs.current, absA, hb])⟩

theorem sim_keepBest (k : Shop S R) (n : Nat) (c : TrainerCfg S R X Y) (xt yt xe ye) (epoch : Nat) (score : Rat) (b : Rat × Int) :
    Sim (keepBestRef k n c epoch score b) (keepBest (asSettings k n c) ((asSettings k n c).backend xt yt xe ye) epoch score b) := by
  unfold keepBestRef keepBest
  refine Sim.ite ?_ (Sim.pure _)
  refine Sim.ite (c := c.loadBest = true) ?_ (Sim.pure _)
  refine Sim.stmt fun h a hv => ?_
  obtain ⟨h1, h2, h3⟩ := fresh_spec k n c xt yt xe ye h a
  dsimp only
  refine ⟨?_, ⟨h2, (hv.mono h1).2⟩, h1⟩
  rw [h3]
  unfold absA
  dsimp only
  rw [map_get_prefix h1 hv.2]

theorem sim_store (k : Shop S R) (n : Nat) (c : TrainerCfg S R X Y) (xt yt xe ye) :
    Sim (storeRef k n c) (storeState (asSettings k n c) ((asSettings k n c).backend xt yt xe ye)) := by
  unfold storeRef storeState
  refine Sim.stmt fun h a hv => ?_
  obtain ⟨h1, h2, h3⟩ := fresh_spec k n c xt yt xe ye h a
  rw [h3]
  cases hl : c.loadBest with
  | true =>
    simp only [if_true, asSettings, hl]
    exact ⟨rfl, ⟨hv.1, hv.1⟩, List.prefix_refl h⟩
  | false =>
    simp only [if_false, Bool.false_eq_true, asSettings, hl]
    refine ⟨?_, ⟨(hv.mono h1).1, h2⟩, h1⟩
    unfold absA
    dsimp only
    rw [map_get_prefix h1 hv.1]

theorem sim_epochs (k : Shop S R) (n : Nat) (c : TrainerCfg S R X Y) (xt yt xe ye) : ∀ (m epoch : Nat) (r : Results),
    Sim (epochsRef k n c (c.backend xt yt xe ye) epoch m r) (epochsPy (asSettings k n c) ((asSettings k n c).backend xt yt xe ye) epoch m r) := by
  intro m
  induction m with
  | zero => intro epoch r; exact Sim.pure r
  | succ m ih =>
    intro epoch r
    unfold epochsRef epochsPy
    refine Sim.bind (sim_onBlocks _ _) fun acc => ?_
    refine Sim.bind (sim_onBlocks _ _) fun _ => ?_
    refine Sim.bind (sim_onBlocks _ _) fun score => ?_
    refine Sim.bind (sim_keepBest k n c xt yt xe ye epoch score _) fun b => ?_
    refine Sim.ite (c := score ≥ c.earlyAcc) (Sim.pure _) ?_
    refine Sim.ite (ih _ _) ?_
    exact Sim.bind (sim_onBlocks _ _) fun _ => ih _ _

theorem sim_raw : Sim (R := R) (onAttrs (Py.stmt fun a : Attrs S Ref X Y => ({ a with blocks := .raw }, ()))) (Py.stmt fun a => ({ a with blocks := .raw }, ())) :=
  Sim.onStmt fun _ _ => ⟨rfl, rfl, rfl⟩

theorem sim_results (q : Option (Results ⊕ FoldResults)) :
    Sim (R := R) (onAttrs (Py.stmt fun a : Attrs S Ref X Y => ({ a with results := q }, ()))) (Py.stmt fun a => ({ a with results := q }, ())) :=
  Sim.onStmt fun _ _ => ⟨rfl, rfl, rfl⟩

theorem sim_inner (k : Shop S R) (n : Nat) (c : TrainerCfg S R X Y) : Sim (trainInnerRef k n c) (trainInnerPy (asSettings k n c)) := by
  intro h a m hv
  unfold trainInnerRef trainInnerPy
  dsimp only
  refine Sim.bind (p := onAttrs _) sim_raw (fun _ => ?_) h a m hv
  refine Sim.ite (c := c.nEpochs < 1) (Sim.pure _) ?_
  refine Sim.bind (Sim.stmt fun h' a' hv' => ?_) fun _ => ?_
  · exact ⟨rfl, hv', List.prefix_refl _⟩
  refine Sim.bind (sim_epochs k n c a.xTrain a.yTrain a.xEval a.yEval c.nEpochs.toNat 0 _) fun r => ?_
  refine Sim.bind (sim_store k n c a.xTrain a.yTrain a.xEval a.yEval) fun _ => ?_
  exact Sim.bind sim_raw fun _ => sim_results _

theorem sim_setFold (x : List X) (y : List Y) (f : List Nat × List Nat) : Sim (R := R) (S := S) (onAttrs (setFold x y f)) (setFold x y f) := by
  intro h a n hv
  unfold setFold onAttrs
  match n with
  | none => exact ⟨rfl, hv, List.prefix_refl h⟩
  | some 0 => exact ⟨rfl, hv, List.prefix_refl h⟩
  | some 1 => exact ⟨rfl, hv, List.prefix_refl h⟩
  | some 2 => exact ⟨rfl, hv, List.prefix_refl h⟩
  | some 3 => exact ⟨rfl, hv, List.prefix_refl h⟩
  | some (n + 4) => exact ⟨rfl, hv, List.prefix_refl h⟩

theorem sim_collectFold (r : FoldResults) : Sim (R := R) (S := S) (X := X) (Y := Y) (onAttrs (collectFold r)) (collectFold r) := by
  intro h a n hv
  obtain ⟨x1, y1, x2, y2, b, res, st, bl⟩ := a
  unfold onAttrs collectFold absA
  rcases res with _ | q | q <;> exact ⟨rfl, hv, List.prefix_refl h⟩

theorem sim_folds (k : Shop S R) (n : Nat) (c : TrainerCfg S R X Y) (x : List X) (y : List Y) : ∀ (fs : List (List Nat × List Nat)) (r : FoldResults),
    Sim (foldsRef k n c x y fs r) (foldsPy (asSettings k n c) x y fs r) := by
  intro fs
  induction fs with
  | nil => intro r; exact Sim.pure r
  | cons f fs ih =>
    intro r
    unfold foldsRef foldsPy
    refine Sim.bind (sim_setFold x y f) fun _ => ?_
    refine Sim.bind (sim_inner k n c) fun _ => ?_
    exact Sim.bind (sim_collectFold r) fun r => ih r

theorem sim_train (k : Shop S R) (n : Nat) (c : TrainerCfg S R X Y) : Sim (trainRef k n c) (trainPy (asSettings k n c)) := by
  intro h a m hv
  unfold trainRef trainPy
  dsimp only
  by_cases hk : c.kFolds > 1
  · rw [if_pos (show (asSettings k n c).kFolds > 1 from hk), if_pos hk]
    exact Sim.bind (sim_folds k n c _ _ _ _) (fun r => sim_results _) h a m hv
  · rw [if_neg (show ¬ (asSettings k n c).kFolds > 1 from hk), if_neg hk]
    exact sim_inner k n c h a m hv

/-! ## Programs -/

theorem map_set_eq {α β : Type} (l : List α) (f : α → β) (i : Nat) (x : α) : (l.set i x).map f = (l.map f).set i (f x) := by
  rw [List.map_set]

def absM (h : StateHeap R) (m : Mach1 S Ref) : Mach1 S (List R) := ⟨m.n, m.st.map h.get, m.blocks⟩

def absT (h : StateHeap R) (t : Train1 S R Ref X Y) : Train1 S R (List R) X Y :=
  ⟨t.mach, t.cfg, t.xTrain, t.yTrain, t.xEval, t.yEval, t.best.map h.get, t.results⟩

theorem valuesOf_eq (h : StateHeap R) (w : Made S R Ref X Y) :
    valuesOf h w = ⟨w.vars.map h.get, w.machines.map (absM h), w.trainers.map (absT h), w.files⟩ := rfl

theorem values_prefix {h h' : StateHeap R} (e : h <+: h') {w : Made S R Ref X Y} (hw : References h w) : valuesOf h' w = valuesOf h w := by
  rw [valuesOf_eq, valuesOf_eq]
  congr 1
  · exact List.map_congr_left fun r hr => get_prefix e (hw.1 r hr)
  · refine List.map_congr_left fun m hm => ?_
    unfold absM
    rw [map_get_prefix e (hw.2.1 m hm)]
  · refine List.map_congr_left fun t ht => ?_
    unfold absT
    rw [map_get_prefix e (hw.2.2 t ht)]

theorem references_mono {h h' : StateHeap R} (e : h <+: h') {w : Made S R Ref X Y} (hw : References h w) : References h' w :=
  ⟨fun r hr => Nat.lt_of_lt_of_le (hw.1 r hr) e.length_le, fun m hm r hr => Nat.lt_of_lt_of_le (hw.2.1 m hm r hr) e.length_le,
   fun t ht r hr => Nat.lt_of_lt_of_le (hw.2.2 t ht r hr) e.length_le⟩

theorem refs_addVar {h : StateHeap R} {w : Made S R Ref X Y} (hw : References h w) {r : Ref} (hr : r < h.length) :
    References h { w with vars := w.vars ++ [r] } := by
  refine ⟨fun r' h' => ?_, hw.2.1, hw.2.2⟩
  rcases List.mem_append.1 h' with h' | h'
  · exact hw.1 r' h'
  · rw [List.mem_singleton.1 h']; exact hr

theorem values_addVar (h : StateHeap R) (w : Made S R Ref X Y) (r : Ref) :
    valuesOf h { w with vars := w.vars ++ [r] } = { valuesOf h w with vars := (valuesOf h w).vars ++ [h.get r] } := by
  simp [valuesOf_eq]

theorem refs_setState {h : StateHeap R} {w : Made S R Ref X Y} (hw : References h w) (i : Nat) (m : Mach1 S Ref) {r : Ref} (hr : r < h.length) :
    References h (w.setState i m r) := by
  refine ⟨hw.1, fun m' hm' r' hr' => ?_, hw.2.2⟩
  rcases List.mem_or_eq_of_mem_set hm' with h' | h'
  · exact hw.2.1 m' h' r' hr'
  · rw [h'] at hr'
    cases hr'
    exact hr

theorem values_setState (h : StateHeap R) (w : Made S R Ref X Y) (i : Nat) (m : Mach1 S Ref) (r : Ref) :
    valuesOf h (w.setState i m r) = (valuesOf h w).give i (absM h m) (h.get r) := by
  simp [valuesOf_eq, Made.setState, Made.give, List.map_set, absM]

theorem machine_get (h : StateHeap R) (w : Made S R Ref X Y) (i : Nat) : (valuesOf h w).machines[i]? = (w.machines[i]?).map (absM h) := by
  rw [valuesOf_eq]; simp

theorem trainer_get (h : StateHeap R) (w : Made S R Ref X Y) (i : Nat) : (valuesOf h w).trainers[i]? = (w.trainers[i]?).map (absT h) := by
  rw [valuesOf_eq]; simp

theorem var_get (h : StateHeap R) (w : Made S R Ref X Y) (i : Nat) : (valuesOf h w).vars[i]? = (w.vars[i]?).map h.get := by
  rw [valuesOf_eq]; simp

theorem mem_of_getElem? {α : Type} {l : List α} {i : Nat} {a : α} (h : l[i]? = some a) : a ∈ l := List.mem_of_getElem? h

theorem train_values (h h' : StateHeap R) (e : h <+: h') (w : Made S R Ref X Y) (hw : References h w) (i : Nat) (t : Train1 S R Ref X Y) (m : Mach1 S Ref)
    (a : Attrs S Ref X Y) :
    valuesOf h' (w.withAttrs i t m a) = { valuesOf h w with
      machines := (valuesOf h w).machines.set t.mach ⟨m.n, (absA h' a).tmState, a.blocks⟩
      trainers := (valuesOf h w).trainers.set i ⟨t.mach, t.cfg, a.xTrain, a.yTrain, a.xEval, a.yEval, (absA h' a).best, a.results⟩ } := by
  rw [← values_prefix e hw]
  simp [valuesOf_eq, Made.withAttrs, List.map_set, absM, absT, absA]

theorem train_refs (h' : StateHeap R) (w : Made S R Ref X Y) (hw : References h' w) (i : Nat) (t : Train1 S R Ref X Y) (m : Mach1 S Ref)
    (a : Attrs S Ref X Y) (ha : ValidA h' a) : References h' (w.withAttrs i t m a) := by
  refine ⟨hw.1, fun m' hm' => ?_, fun t' ht' => ?_⟩
  · rcases List.mem_or_eq_of_mem_set hm' with h1 | h1
    · exact hw.2.1 m' h1
    · rw [h1]; exact ha.2
  · rcases List.mem_or_eq_of_mem_set ht' with h1 | h1
    · exact hw.2.2 t' h1
    · rw [h1]; exact ha.1

/-- One call: the same with references as with values, and objects are only added. -/
theorem step (k : Shop S R) (compile : List R → P) (h : StateHeap R) (w : Made S R Ref X Y) (hw : References h w) (c : UseCall S R X Y)
    (hc : publicCall c = true) :
    ownCall k compile (valuesOf h w) c = (valuesOf (useCall k compile (h, w) c).1.1 (useCall k compile (h, w) c).1.2, (useCall k compile (h, w) c).2) ∧
    References (useCall k compile (h, w) c).1.1 (useCall k compile (h, w) c).1.2 ∧ h <+: (useCall k compile (h, w) c).1.1 := by
  have pre : ∀ rows, h <+: h ++ [rows] := fun rows => List.prefix_append _ _
  have lt : ∀ rows : List R, h.length < (h ++ [rows]).length := fun rows => by simp
  cases c with
  | machine n =>
    refine ⟨by simp [ownCall, useCall, valuesOf_eq, absM], ⟨hw.1, fun m hm r hr => ?_, hw.2.2⟩, List.prefix_refl _⟩
    rcases List.mem_append.1 hm with h' | h'
    · exact hw.2.1 m h' r hr
    · rw [List.mem_singleton.1 h'] at hr; cases hr
  | state rows =>
    refine ⟨?_, refs_addVar (references_mono (pre rows) hw) (lt rows), pre rows⟩
    simp only [ownCall, useCall, StateHeap.alloc, values_addVar, get_new, values_prefix (pre rows) hw]
  | stateOf m =>
    unfold ownCall useCall
    dsimp only
    rw [machine_get]
    cases hm : w.machines[m]? with
    | none => exact ⟨rfl, hw, List.prefix_refl _⟩
    | some mc =>
      obtain ⟨n, st, bl⟩ := mc
      cases st with
      | none => exact ⟨rfl, hw, List.prefix_refl _⟩
      | some r =>
        refine ⟨?_, refs_addVar hw (hw.2.1 _ (mem_of_getElem? hm) r rfl), List.prefix_refl _⟩
        simp only [Option.map_some, absM, values_addVar]
  | copyOf v =>
    unfold ownCall useCall
    dsimp only
    rw [var_get]
    cases hv : w.vars[v]? with
    | none => exact ⟨rfl, hw, List.prefix_refl _⟩
    | some r =>
      refine ⟨?_, refs_addVar (references_mono (pre _) hw) (lt _), pre _⟩
      simp only [Option.map_some, StateHeap.alloc, values_addVar, get_new, values_prefix (pre _) hw]
  | load m v =>
    unfold ownCall useCall
    dsimp only
    rw [var_get, machine_get]
    cases hm : w.machines[m]? with
    | none => exact ⟨rfl, hw, List.prefix_refl _⟩
    | some mc =>
      cases hv : w.vars[v]? with
      | none => exact ⟨rfl, hw, List.prefix_refl _⟩
      | some r =>
        refine ⟨?_, refs_setState hw m mc (hw.1 r (mem_of_getElem? hv)), List.prefix_refl _⟩
        simp only [Option.map_some, values_setState]
  | loadFile m path =>
    unfold ownCall useCall
    dsimp only
    rw [machine_get, show (valuesOf h w).files = w.files from rfl]
    cases hm : w.machines[m]? with
    | none => exact ⟨rfl, hw, List.prefix_refl _⟩
    | some mc =>
      cases hv : w.files path with
      | none => exact ⟨rfl, hw, List.prefix_refl _⟩
      | some rows =>
        refine ⟨?_, refs_setState (references_mono (pre _) hw) m mc (lt _), pre _⟩
        simp only [Option.map_some, StateHeap.alloc, values_setState, get_new, values_prefix (pre _) hw]
        rfl
  | save m path =>
    unfold ownCall useCall
    dsimp only
    rw [machine_get]
    cases hm : w.machines[m]? with
    | none => exact ⟨rfl, hw, List.prefix_refl _⟩
    | some mc =>
      obtain ⟨n, st, bl⟩ := mc
      cases st with
      | some r => exact ⟨rfl, hw, List.prefix_refl _⟩
      | none =>
        cases bl with
        | none => exact ⟨rfl, hw, List.prefix_refl _⟩
        | raw => exact ⟨rfl, hw, List.prefix_refl _⟩
        | live b =>
          dsimp only
          rw [collect_new _ _ _ _ _ _ (.inr rfl)]
          dsimp only
          refine ⟨?_, refs_setState (references_mono (pre _) hw) m ⟨n, none, .live b⟩ (lt _), pre _⟩
          rw [get_new]
          have e := values_setState (h ++ [allRows k n b]) w m ⟨n, none, .live b⟩ h.length
          rw [get_new, values_prefix (pre _) hw] at e
          simp only [Option.map_some, absM, Option.map_none]
          unfold allRows at e ⊢
          simp only [valuesOf_eq] at e ⊢
          simp only [Made.mk.injEq, Made.setState, Made.give] at e ⊢
          simp_all [absM]
  | rules m =>
    unfold ownCall useCall
    dsimp only
    rw [machine_get]
    cases hm : w.machines[m]? with
    | none => exact ⟨rfl, hw, List.prefix_refl _⟩
    | some mc =>
      obtain ⟨n, st, bl⟩ := mc
      cases st <;> exact ⟨rfl, hw, List.prefix_refl _⟩
  | trainer m cfg xt yt xe ye =>
    unfold ownCall useCall
    dsimp only
    rw [machine_get]
    cases hm : w.machines[m]? with
    | none => exact ⟨rfl, hw, List.prefix_refl _⟩
    | some mc =>
      refine ⟨by simp [valuesOf_eq, absT], ⟨hw.1, hw.2.1, fun t ht r hr => ?_⟩, List.prefix_refl _⟩
      rcases List.mem_append.1 ht with h' | h'
      · exact hw.2.2 t h' r hr
      · rw [List.mem_singleton.1 h'] at hr; cases hr
  | data t xt yt xe ye =>
    unfold ownCall useCall
    dsimp only
    rw [trainer_get]
    cases ht : w.trainers[t]? with
    | none => exact ⟨rfl, hw, List.prefix_refl _⟩
    | some tr =>
      refine ⟨by simp [valuesOf_eq, absT, List.map_set], ⟨hw.1, hw.2.1, fun t' ht' r hr => ?_⟩, List.prefix_refl _⟩
      rcases List.mem_or_eq_of_mem_set ht' with h' | h'
      · exact hw.2.2 t' h' r hr
      · rw [h'] at hr; exact hw.2.2 tr (mem_of_getElem? ht) r hr
  | train t strike =>
    unfold ownCall useCall
    dsimp only
    rw [trainer_get]
    cases ht : w.trainers[t]? with
    | none => exact ⟨rfl, hw, List.prefix_refl _⟩
    | some tr =>
      simp only [Option.map_some]
      rw [machine_get, show (absT h tr).mach = tr.mach from rfl]
      cases hm : w.machines[tr.mach]? with
      | none => exact ⟨rfl, hw, List.prefix_refl _⟩
      | some mc =>
        simp only [Option.map_some]
        have hv : ValidA h (tr.attrs mc) := ⟨hw.2.2 tr (mem_of_getElem? ht), hw.2.1 mc (mem_of_getElem? hm)⟩
        obtain ⟨e1, e2, e3⟩ := sim_train k mc.n tr.cfg h (tr.attrs mc) strike hv
        have ea : (⟨(absT h tr).xTrain, (absT h tr).yTrain, (absT h tr).xEval, (absT h tr).yEval, (absT h tr).best, (absT h tr).results,
            (absM h mc).st, (absM h mc).blocks⟩ : Attrs S (List R) X Y) = absA h (tr.attrs mc) := rfl
        rw [ea, show asSettings k (absM h mc).n (absT h tr).cfg = asSettings k mc.n tr.cfg from rfl, e1]
        refine ⟨?_, train_refs _ w (references_mono e3 hw) t tr mc _ e2, e3⟩
        dsimp only
        rw [train_values h _ e3 w hw]
        refine Prod.ext rfl ?_
        unfold seenTrain
        cases (trainRef k mc.n tr.cfg (h, tr.attrs mc) strike).2 <;> rfl
  | write v i row => cases hc
  | refresh m => cases hc

theorem all (k : Shop S R) (compile : List R → P) : ∀ (cs : List (UseCall S R X Y)) (h : StateHeap R) (w : Made S R Ref X Y), References h w →
    (∀ c ∈ cs, publicCall c = true) →
    ownAll k compile (valuesOf h w) cs = (valuesOf (useAll k compile (h, w) cs).1.1 (useAll k compile (h, w) cs).1.2, (useAll k compile (h, w) cs).2) ∧
    References (useAll k compile (h, w) cs).1.1 (useAll k compile (h, w) cs).1.2 ∧ h <+: (useAll k compile (h, w) cs).1.1 := by
  intro cs
  induction cs with
  | nil => intro h w hw _; exact ⟨rfl, hw, List.prefix_refl h⟩
  | cons c cs ih =>
    intro h w hw hc
    obtain ⟨e1, r1, p1⟩ := step k compile h w hw c (hc c (List.mem_cons_self ..))
    obtain ⟨e2, r2, p2⟩ := ih _ _ r1 fun c' h' => hc c' (List.mem_cons_of_mem _ h')
    unfold ownAll useAll
    rw [e1]
    dsimp only
    rw [e2]
    exact ⟨rfl, r2, p1.trans p2⟩

theorem useAll_append (k : Shop S R) (compile : List R → P) (cs ds : List (UseCall S R X Y)) (s : StateHeap R × Made S R Ref X Y) :
    useAll k compile s (cs ++ ds) =
      ((useAll k compile (useAll k compile s cs).1 ds).1, (useAll k compile s cs).2 ++ (useAll k compile (useAll k compile s cs).1 ds).2) := by
  induction cs generalizing s with
  | nil => rfl
  | cons c cs ih => simp only [List.cons_append, useAll]; rw [ih]

theorem nothing_refs : References (R := R) (S := S) (X := X) (Y := Y) [] nothing :=
  ⟨fun _ h => (by cases h), fun _ h => (by cases h), fun _ h => (by cases h)⟩

end GT.Share

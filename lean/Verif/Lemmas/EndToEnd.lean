import Verif.Props.Trainer
import Verif.Props.Writers
import Verif.Props.Executor
import Verif.Spec.EndToEnd

/-! # Lemmas for the way from training to the delivered program -/

namespace GT
open Spec

/-! ### Shapes survive training -/

theorem clauseUpdate_shaped (cfg : Cfg) (x : List Nat) (j : Nat) (target : Int) (c : Clause) (g : Rng) (m : Nat)
    (h : Shaped m c) : Shaped m (clauseUpdate cfg x j target c g).1 := by
  obtain ⟨h1, h2⟩ := h
  unfold clauseUpdate
  dsimp only
  have a := t1a_length cfg c.pos c.neg x g
  have b := t1b_length cfg c.pos c.neg g
  have d := t2_length c.pos c.neg x
  generalize (if c.w.getD j 0 ≥ 0 then (1 : Int) else -1) = sign
  split
  · split
    · exact ⟨a.1.trans h1, a.2.trans h2⟩
    · exact ⟨b.1.trans h1, b.2.trans h2⟩
  · split
    · exact ⟨d.1.trans h1, d.2.trans h2⟩
    · exact ⟨h1, h2⟩

theorem budgetGate_shaped (cfg : Cfg) (c : Clause) (m : Nat) (h : Shaped m c) : Shaped m (budgetGate cfg c) := by
  unfold budgetGate
  split
  · split
    · exact h
    · exact h
  · exact h

theorem trainClause_shaped (cfg : Cfg) (x : List Nat) (fb : Feedback) (c : Clause) (f g : Rng) (m : Nat)
    (h : Shaped m c) : Shaped m (trainClause cfg x fb c f g).1 := by
  have h0 := budgetGate_shaped cfg c m h
  unfold trainClause
  dsimp only
  have h1 : Shaped m (if f.next.1 < fb.posProb then clauseUpdate cfg x fb.posClass 1 (budgetGate cfg c) g
      else (budgetGate cfg c, g)).1 := by
    split
    · exact clauseUpdate_shaped cfg x _ _ _ _ m h0
    · exact h0
  split
  · exact clauseUpdate_shaped cfg x _ _ _ _ m h1
  · exact h1

theorem trainClauses_shaped (cfg : Cfg) (x : List Nat) (fb : Feedback) (cs : List Clause) (f g : Rng) (m : Nat)
    (h : ∀ c ∈ cs, Shaped m c) : ∀ c ∈ (trainClauses cfg x fb cs f g).1, Shaped m c := by
  induction cs generalizing f g with
  | nil => intro c hc; simp [trainClauses] at hc
  | cons c cs ih =>
    intro d hd
    rw [trainClauses] at hd
    rcases List.mem_cons.mp hd with rfl | hd
    · exact trainClause_shaped cfg x fb c f g m (h c (by simp))
    · exact ih _ _ (fun c hc => h c (by simp [hc])) d hd

/-- A portable block for `m` literals and `n` classes. -/
def ShapedBlock (m n : Nat) (b : DBlock) : Prop := b.nClasses = n ∧ ∀ c ∈ b.clauses, Shaped m c ∧ c.w.length = n

theorem dense_keeps_shape (m n : Nat) : Keeps denseBackend n (ShapedBlock m n) := by
  have hk := dense_keeps n
  have hok : ∀ b, ShapedBlock m n b → DenseBlockOK n b := fun b h => ⟨h.1, fun c hc => (h.2 c hc).2⟩
  constructor
  · intro b x h
    obtain ⟨h1, h2⟩ := hk.train b x (hok b h)
    refine ⟨⟨h1.1, fun c hc => ⟨?_, h1.2 c hc⟩⟩, h2⟩
    obtain ⟨d, hd, rfl⟩ := List.mem_map.mp (show c ∈ b.clauses.map (setOutClause b.cfg x) from hc)
    exact (h.2 d hd).1
  · intro b x h
    obtain ⟨h1, h2⟩ := hk.eval b x (hok b h)
    refine ⟨⟨h1.1, fun c hc => ⟨?_, h1.2 c hc⟩⟩, h2⟩
    obtain ⟨d, hd, rfl⟩ := List.mem_map.mp (show c ∈ b.clauses.map (evalOutClause x) from hc)
    exact (h.2 d hd).1
  · intro b x fb h
    have h1 := hk.update b x fb (hok b h)
    refine ⟨h1.1, fun c hc => ⟨?_, h1.2 c hc⟩⟩
    exact trainClauses_shaped b.cfg x fb b.clauses b.fast b.rng m (fun c hc => (h.2 c hc).1) c hc

theorem setUp_iff_ready (m n : Nat) (e : Exec DBlock) : SetUp m n e ↔ Ready n (ShapedBlock m n) e :=
  ⟨fun h => ⟨h.classes, h.fbClasses, h.fbVotes, h.blocks⟩, fun h => ⟨h.classes, h.fbClasses, h.fbVotes, h.blocks⟩⟩

/-- An AVX2 block for `m` literals and `n` classes. -/
def AvxShapedBlock (m n : Nat) (b : VBlock) : Prop :=
  b.nClasses = n ∧ b.cfg.nLits = m ∧ ∀ c ∈ b.clauses, c.w.length = n

theorem avx_keeps_shape (m n : Nat) (hm : 0 < m) : Keeps avxBackend n (AvxShapedBlock m n) := by
  have hk := avx_keeps n
  have hok : ∀ b, AvxShapedBlock m n b → AvxBlockOK n b := fun b h => ⟨h.1, by rw [h.2.1]; exact hm, h.2.2⟩
  constructor
  · intro b x h
    obtain ⟨h1, h2⟩ := hk.train b x (hok b h)
    exact ⟨⟨h1.1, h.2.1, h1.2.2⟩, h2⟩
  · intro b x h
    obtain ⟨h1, h2⟩ := hk.eval b x (hok b h)
    exact ⟨⟨h1.1, h.2.1, h1.2.2⟩, h2⟩
  · intro b x fb h
    have h1 := hk.update b x fb (hok b h)
    exact ⟨h1.1, h.2.1, h1.2.2⟩

theorem avxSetUp_iff_ready (m n : Nat) (hm : 0 < m) (e : Exec VBlock) :
    AvxSetUp m n e ↔ Ready n (AvxShapedBlock m n) e :=
  ⟨fun h => ⟨h.classes, h.fbClasses, h.fbVotes, h.blocks⟩, fun h => ⟨h.classes, hm, h.fbClasses, h.fbVotes, h.blocks⟩⟩

theorem ready_evalLoop {B E : Type} {be : Backend B E} {n : Nat} {P : B → Prop} (hk : Keeps be n P)
    (xs : List E) (e : Exec B) (h : Ready n P e) : Ready n P (Exec.evalLoop be xs e).1 := by
  induction xs generalizing e with
  | nil => exact h
  | cons x xs ih => exact ih _ (ready_eval hk e x h)

theorem ready_evalPredict {B E : Type} {be : Backend B E} {n : Nat} {P : B → Prop} (hk : Keeps be n P)
    (xs : List E) (k : Nat) (e : Exec B) (h : Ready n P e) : Ready n P (Exec.evalPredict be xs k e).1 := by
  unfold Exec.evalPredict
  split
  · exact h
  · exact ready_evalLoop hk xs e h

theorem ready_trainAll {B E : Type} {be : Backend B E} {n : Nat} {P : B → Prop} (hk : Keeps be n P)
    (smp : List Rat → Rat → Nat) (ds : List (E × Nat)) (e : Exec B) (h : Ready n P e) :
    Ready n P (trainAll be smp ds e) := by
  induction ds generalizing e with
  | nil => exact h
  | cons d ds ih => exact ih _ (ready_train hk smp e d.1 d.2 h)

theorem ready_trainEpoch {B E : Type} {be : Backend B E} {n : Nat} {P : B → Prop} (hk : Keeps be n P)
    (smp : List Rat → Rat → Nat) (sh : List Nat → List Nat) (data : List (E × Nat)) (e : Exec B) (h : Ready n P e) :
    Ready n P (Exec.trainEpoch be smp sh data e).1 := by
  simp only [Exec.trainEpoch, Exec.trainSlice, trainIndices_eq]
  exact ready_trainAll hk smp _ _ ⟨h.classes, h.fbClasses, h.fbVotes, h.blocks⟩

section
variable {B E St : Type} {be : Backend B E} {n : Nat} {P : B → Prop} {snapOf : Exec B → St}
  {init : Option St → Exec B} {smp : List Rat → Rat → Nat}
  {shuffle : Nat → List Nat → List Nat} {metric : List Nat → List Nat → Rat} {tr ev : List (E × Nat)}

theorem ready_afterEval (hk : Keeps be n P) (s : ExecS B E) (h : Ready n P s.e) (k : Nat) :
    Ready n P (afterEval (backendEnv be snapOf init smp shuffle metric tr ev) s k).e := by
  induction k with
  | zero => exact h
  | succ k ih =>
    refine ready_evalPredict hk _ _ _ ?_
    exact ready_trainEpoch hk _ _ _ _ ih

theorem ready_afterTrain (hk : Keeps be n P) (s : ExecS B E) (h : Ready n P s.e) (k : Nat) :
    Ready n P (afterTrain (backendEnv be snapOf init smp shuffle metric tr ev) s k).e :=
  ready_trainEpoch hk _ _ _ _ (ready_afterEval hk s h k)

theorem scoreOf_backend (s : ExecS B E) (k : Nat) :
    scoreOf (backendEnv be snapOf init smp shuffle metric tr ev) s k =
      metric (ev.map (·.2)) ((Exec.evalPredict be (ev.map (·.1)) (ev.map (·.1)).length
        (afterTrain (backendEnv be snapOf init smp shuffle metric tr ev) s k).e).2.getD []) := by
  unfold scoreOf
  generalize afterTrain (backendEnv be snapOf init smp shuffle metric tr ev) s k = a
  show metric _ ((Exec.evalPredict be (ev.map (·.1)) (ev.map (·.2)).length a.e).2.getD []) = _
  rw [List.length_map, List.length_map]

end

theorem avx_snap (e : Exec VBlock) :
    (e.blocks.flatMap fun b => b.clauses.map fun c =>
      ((List.range b.cfg.nLits).map fun i => (c.row i).toInt,
       (List.range b.cfg.nLits).map fun i => (c.row (avxMem b.cfg.nLits + i)).toInt, c.w)) = avxModel e := rfl

/-- One example through predictor and exported program: both choose the class with the most votes of the clauses. -/
theorem deliver_one (m n : Nat) (cls : List (List Int × List Int × List Int)) (st : DState)
    (hw : WellShaped st) (hm : st.nLits = m) (hn : st.nClasses = n) (h0 : 0 < n) (hp : stateClauses st = cls)
    (hf : MergesFit st) (ml : Bool) (rs : Rules) (hc : compileDense ml st = .ok rs)
    (s : String) (excl : Bool) (p : Predictor) (hpr : Predictor.fromRuleset rs s excl = .ok p)
    (cs : List Call) (hnames : (afterCalls p cs).names = none)
    (x : List Nat) (hx : Binary x ∧ x.length = m)
    (hv : ∀ k, k < n → -32768 ≤ firingSum cls x k ∧ firingSum cls x k ≤ 32767)
    (k : Nat) (hk : LowestMax (modelVotes n cls x) k) :
    ((afterCalls p cs).predict x).2 = .ok (.idx k) ∧
    ∀ prev : List Int, prev.length = n → runC (simpleC rs) prev x = some (modelVotes n cls x, k) := by
  obtain ⟨k', hk', hl'⟩ := predictor_lowestMax m n cls st hw hm hn h0 (hp ▸ List.Perm.refl _) hf ml rs hc s excl p hpr cs
    hnames x hx hv
  obtain rfl := lowestMax_unique hl' hk
  refine ⟨hk', ?_⟩
  intro prev hprev
  obtain ⟨hok, e1, e2⟩ := compiled_ok ml st hw rs hc
  obtain ⟨-, hne, -⟩ := C25_compiled_rules_exportable ml st hw rs hc
  have hsum : ∀ j, j < n → ruleSum rs.nLits rs.rules rs.weights x j = firingSum cls x j := by
    intro j hj
    rw [C22_votes_exact ml st hw hf rs hc x j (by omega), hp]
  have hvf : VotesFit rs x := by
    intro j hj
    rw [hsum j (by omega)]
    exact hv j (by omega)
  obtain ⟨k'', h1, h2⟩ := C25_simple_c rs hok hne (by omega) s excl p hpr cs hnames prev (by omega) x hx.1
    (by rw [hx.2, e1, hm]) hvf
  rw [h2] at hk'
  have : k'' = k' := by injection hk' with h; injection h
  subst this
  rw [h1]
  congr 2
  unfold rulesetVotes modelVotes
  rw [e2, hn]
  apply List.map_congr_left
  intro j hj
  have hj' := List.mem_range.mp hj
  have := hv j hj'
  rw [hsum j hj', wrap16_id this.1 this.2]

/-! ### The first executor -/

theorem allocBlocks_shape (m n : Nat) (fastOf rngOf : Nat → Rng) (junk : Nat → Nat) (ls : List (Nat × Cfg)) (seed : Nat)
    (bs : List DBlock) (h : allocBlocks m n fastOf rngOf junk ls seed = some bs) :
    (∀ b ∈ bs, ShapedBlock m n b) ∧ bs.map (·.clauses.length) = ls.map (·.1) := by
  induction ls generalizing seed bs with
  | nil =>
    simp only [allocBlocks, Option.some.injEq] at h
    subst h; simp
  | cons l ls ih =>
    rw [allocBlocks] at h
    split at h
    · rename_i b bs' hb hbs
      simp only [Option.some.injEq] at h
      subst h
      obtain ⟨i1, i2⟩ := ih _ _ hbs
      unfold initTM at hb
      split at hb
      · simp at hb
      · simp only [Option.some.injEq] at hb
        have hr := initRows_spec m l.1 (rngOf seed)
        have hw := initAllWeights_spec n l.1 (fastOf seed)
        refine ⟨?_, ?_⟩
        · intro b' hb'
          rcases List.mem_cons.mp hb' with rfl | hb'
          · subst hb
            refine ⟨rfl, ?_⟩
            intro c hc
            obtain ⟨i, hi, rfl⟩ := List.mem_iff_getElem.mp hc
            simp only [List.getElem_mapIdx]
            have hz := List.getElem_mem (l := ((initRows m l.1 (rngOf seed)).1.zip (initAllWeights n l.1 (fastOf seed)).1)) (by simpa using hi)
            have := List.of_mem_zip hz
            have h1 := hr.2 _ this.1
            have h2 := hw.2 _ this.2
            exact ⟨⟨h1.1, h1.2.1⟩, h2.1⟩
          · exact i1 b' hb'
        · subst hb
          simp only [List.map_cons, i2]
          congr 1
          simp [hr.1, hw.1]
    · simp at h

theorem putState_shape (m n : Nat) (bs : List DBlock) (hb : ∀ b ∈ bs, ShapedBlock m n b)
    (st : List (List Int × List Int × List Int))
    (hst : ∀ t ∈ st, t.1.length = m ∧ t.2.1.length = m ∧ t.2.2.length = n) :
    ∀ b ∈ putState bs st, ShapedBlock m n b := by
  induction bs generalizing st with
  | nil => intro b hb'; simp [putState] at hb'
  | cons b0 bs ih =>
    intro b hb'
    rw [putState] at hb'
    rcases List.mem_cons.mp hb' with rfl | hb'
    · refine ⟨(hb b0 (by simp)).1, ?_⟩
      intro c hc
      obtain ⟨i, hi, rfl⟩ := List.mem_iff_getElem.mp hc
      simp only [List.getElem_zipWith]
      have : (st.take b0.clauses.length)[i]'(by simp at hi ⊢; omega) ∈ st :=
        List.mem_of_mem_take (List.getElem_mem _)
      obtain ⟨a1, a2, a3⟩ := hst _ this
      simp only [List.getElem_take] at *
      exact ⟨⟨a1, a2⟩, a3⟩
    · exact ih (fun b hb'' => hb b (by simp [hb''])) _ (fun t ht => hst t (List.mem_of_mem_drop ht)) b hb'

/-- A state put into blocks with as many clauses as it has is what the blocks hold afterwards. -/
theorem putState_model (bs : List DBlock) (st : List (List Int × List Int × List Int))
    (h : st.length = (bs.map (·.clauses.length)).sum) :
    ((putState bs st).flatMap (·.clauses)).map (fun c => (c.pos, c.neg, c.w)) = st := by
  induction bs generalizing st with
  | nil => simpa [putState] using (List.length_eq_zero_iff.mp (by simpa using h)).symm
  | cons b bs ih =>
    rw [putState, List.flatMap_cons, List.map_append, ih _ (by simp at h ⊢; omega)]
    have : ∀ (cs : List Clause) (ts : List (List Int × List Int × List Int)), ts.length ≤ cs.length →
        (List.zipWith (fun (c : Clause) t => { c with pos := t.1, neg := t.2.1, w := t.2.2 }) cs ts).map
          (fun c => (c.pos, c.neg, c.w)) = ts := by
      intro cs
      induction cs with
      | nil => intro ts ht; simp at ht; simp [ht]
      | cons c cs ih' =>
        intro ts ht
        cases ts with
        | nil => rfl
        | cons t ts => simp only [List.zipWith_cons_cons, List.map_cons, ih' ts (by simpa using ht)]
    simp only
    rw [this _ _ (by simp)]
    exact List.take_append_drop _ _

/-- The votes of firing clauses are bounded by the sum of the absolute weights. -/
theorem firingSum_natAbs (cls : List (List Int × List Int × List Int)) (x : List Nat) (k : Nat) :
    (firingSum cls x k).natAbs ≤ (cls.map fun c => (c.2.2.getD k 0).natAbs).sum := by
  classical
  unfold firingSum
  induction cls with
  | nil => simp
  | cons c cls ih =>
    rw [List.filter_cons]
    split <;> simp only [List.map_cons, List.sum_cons] at ih ⊢ <;> omega

/-! ### The scores of an epoch and the delivered predictor -/

/-- Shared by the backends: if, in the epoch whose clauses were kept, the executor chose the class with the most
votes of these clauses, then predictor and program reproduce the epoch's score. -/
theorem reproduces_of_predictions {E : Type} (view : E → List Nat) (m n : Nat) (h0 : 0 < n)
    (metric : List Nat → List Nat → Rat) (ev : List (E × Nat))
    (cls : List (List Int × List Int × List Int)) (hb : ∀ d ∈ ev, Binary (view d.1) ∧ (view d.1).length = m)
    (ks : List Nat) (hlen : ks.length = ev.length)
    (hks : ∀ (i : Nat) (x : E) (k : Nat), (ev.map (·.1))[i]? = some x → ks[i]? = some k →
      LowestMax (modelVotes n cls (view x)) k)
    (rs : Rules) (p : Predictor) (hd : DeliveredFrom m n cls (ev.map fun d => view d.1) rs p) :
    Reproduces n metric (ev.map fun d => (view d.1, d.2)) p (simpleC rs) (metric (ev.map (·.2)) ks) := by
  obtain ⟨⟨st, ml, s, excl, p0, calls, hw, hm, hn, hcl, hf, hc, hp, rfl⟩, hnames, hv⟩ := hd
  refine ⟨ks, by simpa using hlen, ?_, by rw [List.map_map]; rfl⟩
  intro i d hi
  rw [List.getElem?_map] at hi
  cases hx : ev[i]? with
  | none => rw [hx] at hi; simp at hi
  | some d0 =>
    rw [hx] at hi
    simp only [Option.map_some, Option.some.injEq] at hi
    subst hi
    have hil : i < ks.length := by rw [hlen]; exact (List.getElem?_eq_some_iff.mp hx).1
    have hmem : d0 ∈ ev := List.mem_of_getElem? hx
    refine ⟨ks[i], List.getElem?_eq_getElem hil, ?_⟩
    have hk := hks i d0.1 ks[i] (by rw [List.getElem?_map, hx]; rfl) (List.getElem?_eq_getElem hil)
    obtain ⟨h1, h2⟩ := deliver_one m n cls st hw hm hn h0 hcl hf ml rs hc s excl p0 hp calls hnames (view d0.1)
      (hb d0 hmem) (hv _ (List.mem_map.mpr ⟨d0, hmem, rfl⟩)) ks[i] hk
    exact ⟨h1, fun prev hprev => ⟨_, h2 prev hprev⟩⟩

/-- The reported score of the epoch whose clauses the machine holds afterwards. -/
theorem reported_epoch {S St : Type} (env : Env S St) (hro : ReadOnly env) (t : Trainer St) (tm : Option St)
    (hn : 1 ≤ t.nEpochs) (hl : t.loadBest = true) (r : Results) (hr : (t.trainInner env tm).1.results = some r)
    (hs : ∃ v ∈ r.evalLog, -1 < v) :
    ∃ k : Nat, (t.trainInner env tm).2 = some (env.snap (afterTrain env (env.start tm) k)) ∧
      r.bestScore = scoreOf env (env.start tm) k := by
  obtain ⟨k, h1, h2, h3⟩ := C31_best_state_partial env hro t tm hn hl r hr hs
  obtain ⟨k', h4, h5, h6, -⟩ := C30_best_partial env t tm hn r hr hs
  obtain ⟨r', h7, -, h8, -⟩ := C30_logs env t tm hn
  rw [h7] at hr
  obtain rfl : r' = r := Option.some.inj hr
  have hkk : k' = k := by omega
  subst hkk
  refine ⟨k', h3, ?_⟩
  rw [h8, List.getElem?_map, List.getElem?_range h2.1] at h6
  simpa using h6.symm

theorem last_epoch {S St : Type} (env : Env S St) (hro : ReadOnly env) (t : Trainer St) (tm : Option St)
    (hn : 1 ≤ t.nEpochs) (hl : t.loadBest = false) (r : Results) (hr : (t.trainInner env tm).1.results = some r) :
    ∃ k : Nat, (t.trainInner env tm).2 = some (env.snap (afterTrain env (env.start tm) k)) ∧
      r.evalLog.getLast? = some (scoreOf env (env.start tm) k) := by
  obtain ⟨r', h1, h2, h3⟩ := C31_last_state env hro t tm hn hl
  obtain ⟨r'', h4, -, h5, -⟩ := C30_logs env t tm hn
  rw [hr] at h1 h4
  obtain rfl := Option.some.inj h1
  obtain rfl := Option.some.inj h4
  refine ⟨r.nEpochs - 1, h3, ?_⟩
  obtain ⟨j, hj⟩ : ∃ j, r.nEpochs = j + 1 := ⟨r.nEpochs - 1, by omega⟩
  rw [h5, hj, List.range_succ]
  simp

section Portable
variable (m n : Nat) (init : Option (List (List Int × List Int × List Int)) → Exec DBlock)
  (smp : List Rat → Rat → Nat) (shuffle : Nat → List Nat → List Nat) (metric : List Nat → List Nat → Rat)
  (tr ev : List (List Nat × Nat)) (t : Trainer (List (List Int × List Int × List Int)))
  (tm : Option (List (List Int × List Int × List Int)))

/-- What the machine's clauses after an epoch predict is what the epoch's evaluation scored. -/
theorem portable_reproduces (hi : SetUp m n (init tm)) (hx : ∀ d ∈ ev, Binary d.1 ∧ d.1.length = m) (k : Nat)
    (cls : List (List Int × List Int × List Int))
    (hcls : (execEnv init smp shuffle metric tr ev).snap (afterTrain (execEnv init smp shuffle metric tr ev)
      ((execEnv init smp shuffle metric tr ev).start tm) k) = cls)
    (rs : Rules) (p : Predictor) (hd : DeliveredFrom m n cls (ev.map (·.1)) rs p) :
    Reproduces n metric ev p (simpleC rs) (scoreOf (execEnv init smp shuffle metric tr ev)
      ((execEnv init smp shuffle metric tr ev).start tm) k) := by
  have hready := ready_afterTrain (snapOf := fun e => (e.blocks.flatMap (·.clauses)).map fun c => (c.pos, c.neg, c.w))
    (init := init) (smp := smp) (shuffle := shuffle) (metric := metric) (tr := tr) (ev := ev)
    (dense_keeps_shape m n) ⟨init tm, [], 0⟩ ((setUp_iff_ready m n _).mp hi) k
  have hset := (setUp_iff_ready m n _).mpr hready
  rw [show scoreOf (execEnv init smp shuffle metric tr ev) ((execEnv init smp shuffle metric tr ev).start tm) k = _ from
    scoreOf_backend (be := denseBackend) ⟨init tm, [], 0⟩ k]
  obtain ⟨ks, h1, h2, h3⟩ := C17_batch_predictions m n _ (ev.map (·.1)) hset (by
    intro x hx'
    obtain ⟨d, hd', rfl⟩ := List.mem_map.mp hx'
    exact hx d hd')
  rw [h1]
  have := reproduces_of_predictions id m n hi.classes metric ev cls hx ks (by simpa using h2)
    (fun i x k' a b => by subst hcls; exact h3 i x k' a b) rs p hd
  simpa using this

end Portable

section Avx2
variable (m n : Nat) (init : Option (List (List Int × List Int × List Int)) → Exec VBlock)
  (smp : List Rat → Rat → Nat) (shuffle : Nat → List Nat → List Nat) (metric : List Nat → List Nat → Rat)
  (tr ev : List (Mem × Nat)) (t : Trainer (List (List Int × List Int × List Int)))
  (tm : Option (List (List Int × List Int × List Int)))

theorem avx_evalPredict_model {e : Exec VBlock} (h : AvxSetUp m n e) (xs : List Mem) (k : Nat) :
    avxModel (Exec.evalPredict avxBackend xs k e).1 = avxModel e :=
  (C18_avx2_eval_invisible_to_training m n (fun _ _ => 0) e xs k (fun _ => 0, 0) [] h).2

theorem avx_afterEval_snap (hi : AvxSetUp m n (init tm)) (k : Nat) :
    (avxEnv init smp shuffle metric tr ev).snap
        (afterEval (avxEnv init smp shuffle metric tr ev) ((avxEnv init smp shuffle metric tr ev).start tm) (k + 1)) =
      (avxEnv init smp shuffle metric tr ev).snap
        (afterTrain (avxEnv init smp shuffle metric tr ev) ((avxEnv init smp shuffle metric tr ev).start tm) k) := by
  have hready := ready_afterTrain (snapOf := fun e => e.blocks.flatMap fun b => b.clauses.map fun c =>
      ((List.range b.cfg.nLits).map fun i => (c.row i).toInt,
       (List.range b.cfg.nLits).map fun i => (c.row (avxMem b.cfg.nLits + i)).toInt, c.w))
    (init := init) (smp := smp) (shuffle := shuffle) (metric := metric) (tr := tr) (ev := ev)
    (avx_keeps_shape m n hi.lits) ⟨init tm, [], 0⟩ ((avxSetUp_iff_ready m n hi.lits _).mp hi) k
  exact avx_evalPredict_model m n ((avxSetUp_iff_ready m n hi.lits _).mpr hready) (ev.map (·.1)) (ev.map (·.2)).length

theorem avx_reproduces (hi : AvxSetUp m n (init tm)) (hx : ∀ d ∈ ev, Binary (unpadExample m d.1)) (k : Nat)
    (cls : List (List Int × List Int × List Int))
    (hcls : (avxEnv init smp shuffle metric tr ev).snap (afterTrain (avxEnv init smp shuffle metric tr ev)
      ((avxEnv init smp shuffle metric tr ev).start tm) k) = cls)
    (rs : Rules) (p : Predictor) (hd : DeliveredFrom m n cls (ev.map fun d => unpadExample m d.1) rs p) :
    Reproduces n metric (ev.map fun d => (unpadExample m d.1, d.2)) p (simpleC rs)
      (scoreOf (avxEnv init smp shuffle metric tr ev) ((avxEnv init smp shuffle metric tr ev).start tm) k) := by
  have hready := ready_afterTrain (snapOf := fun e => e.blocks.flatMap fun b => b.clauses.map fun c =>
      ((List.range b.cfg.nLits).map fun i => (c.row i).toInt,
       (List.range b.cfg.nLits).map fun i => (c.row (avxMem b.cfg.nLits + i)).toInt, c.w))
    (init := init) (smp := smp) (shuffle := shuffle) (metric := metric) (tr := tr) (ev := ev)
    (avx_keeps_shape m n hi.lits) ⟨init tm, [], 0⟩ ((avxSetUp_iff_ready m n hi.lits _).mp hi) k
  have hset := (avxSetUp_iff_ready m n hi.lits _).mpr hready
  rw [show scoreOf (avxEnv init smp shuffle metric tr ev) ((avxEnv init smp shuffle metric tr ev).start tm) k = _ from
    scoreOf_backend (be := avxBackend) ⟨init tm, [], 0⟩ k]
  obtain ⟨ks, h1, h2, h3⟩ := C17_avx2_batch_predictions m n _ (ev.map (·.1)) hset (by
    intro x hx'
    obtain ⟨d, hd', rfl⟩ := List.mem_map.mp hx'
    exact hx d hd')
  rw [h1]
  exact reproduces_of_predictions (unpadExample m) m n hi.classes metric ev cls
    (fun d hd' => ⟨hx d hd', by simp [unpadExample]⟩) ks (by simpa using h2)
    (fun i x k' a b => by subst hcls; exact h3 i x k' a b) rs p hd

end Avx2

end GT

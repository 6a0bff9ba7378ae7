import Verif.Lemmas.EndToEnd
import Verif.Spec.SparseTrainer
import Verif.Props.SparseState
import Verif.Props.EndToEnd

/-! # Lemmas for the way from training a sparse machine to the delivered program -/

namespace GT.STrain
open GT Spec

/-! ### What every operation keeps of the blocks -/

section Keep
variable {B E α : Type} {be : Backend B E} (f : B → α)

theorem map_evalOne (h : ∀ b x, f (be.evalExample b x) = f b) (e : Exec B) (x : E) :
    (e.evalOne be x).1.blocks.map f = e.blocks.map f := by
  simp only [Exec.evalOne, exampleLoop_blocks, List.map_map]
  exact List.map_congr_left (fun b _ => h b x)

theorem map_evalLoop (h : ∀ b x, f (be.evalExample b x) = f b) (xs : List E) (e : Exec B) :
    (Exec.evalLoop be xs e).1.blocks.map f = e.blocks.map f := by
  induction xs generalizing e with
  | nil => rfl
  | cons x xs ih => exact (ih _).trans (map_evalOne f h e x)

theorem map_evalPredict (h : ∀ b x, f (be.evalExample b x) = f b) (xs : List E) (k : Nat) (e : Exec B) :
    (Exec.evalPredict be xs k e).1.blocks.map f = e.blocks.map f := by
  unfold Exec.evalPredict
  split
  · rfl
  · exact map_evalLoop f h xs e

theorem map_trainOne (h1 : ∀ b x, f (be.trainExample b x) = f b) (h2 : ∀ b x fb, f (be.trainUpdate b x fb) = f b)
    (smp : List Rat → Rat → Nat) (e : Exec B) (x : E) (l : Nat) :
    (e.trainOne be smp x l).blocks.map f = e.blocks.map f := by
  simp only [Exec.trainOne, exampleLoop_blocks, List.map_map]
  apply List.map_congr_left
  intro b _
  simp only [Function.comp]
  split
  · rw [h2, h1]
  · rw [h1]

theorem map_trainEpoch (h1 : ∀ b x, f (be.trainExample b x) = f b) (h2 : ∀ b x fb, f (be.trainUpdate b x fb) = f b)
    (smp : List Rat → Rat → Nat) (sh : List Nat → List Nat) (data : List (E × Nat)) (e : Exec B) :
    (Exec.trainEpoch be smp sh data e).1.blocks.map f = e.blocks.map f := by
  simp only [Exec.trainEpoch, Exec.trainSlice, trainIndices_eq]
  generalize hds : List.filterMap _ _ = ds
  clear hds
  have : ∀ (ds : List (E × Nat)) (e : Exec B), (trainAll be smp ds e).blocks.map f = e.blocks.map f := by
    intro ds
    induction ds with
    | nil => intro e; rfl
    | cons d ds ih =>
      intro e
      exact (ih _).trans (map_trainOne f h1 h2 smp e d.1 d.2)
  rw [this]

variable {St : Type} {snapOf : Exec B → St} {init : Option St → Exec B} {smp : List Rat → Rat → Nat}
  {shuffle : Nat → List Nat → List Nat} {metric : List Nat → List Nat → Rat} {tr ev : List (E × Nat)}

theorem map_afterEval (h0 : ∀ b x, f (be.evalExample b x) = f b) (h1 : ∀ b x, f (be.trainExample b x) = f b)
    (h2 : ∀ b x fb, f (be.trainUpdate b x fb) = f b) (s : ExecS B E) (k : Nat) :
    (afterEval (backendEnv be snapOf init smp shuffle metric tr ev) s k).e.blocks.map f = s.e.blocks.map f := by
  induction k with
  | zero => rfl
  | succ k ih => exact (map_evalPredict f h0 _ _ _).trans ((map_trainEpoch f h1 h2 _ _ _ _).trans ih)

theorem map_afterTrain (h0 : ∀ b x, f (be.evalExample b x) = f b) (h1 : ∀ b x, f (be.trainExample b x) = f b)
    (h2 : ∀ b x fb, f (be.trainUpdate b x fb) = f b) (s : ExecS B E) (k : Nat) :
    (afterTrain (backendEnv be snapOf init smp shuffle metric tr ev) s k).e.blocks.map f = s.e.blocks.map f :=
  (map_trainEpoch f h1 h2 _ _ _ _).trans (map_afterEval f h0 h1 h2 s k)

end Keep

/-! ### The number of clauses -/

theorem train_clauses (b : SBlock) (x : List Nat) :
    (sparseBackend.trainExample b x).clauses.length = b.clauses.length := by
  simp [sparseBackend, SBlock.apply]

theorem update_clauses (b : SBlock) (x : List Nat) (fb : Feedback) :
    (sparseBackend.trainUpdate b x fb).clauses.length = b.clauses.length :=
  sTrainClauses_length b.cfg x fb b.clauses b.al b.fast

theorem eval_kept (b : SBlock) (x : List Nat) :
    ((sparseBackend.evalExample b x).clauses.map sLearned, (sparseBackend.evalExample b x).al) =
      (b.clauses.map sLearned, b.al) := by
  simp only [sparseBackend, SBlock.apply, List.map_map, Prod.mk.injEq, and_true]
  apply List.map_congr_left
  intro c _
  obtain ⟨o, h⟩ := sEvalClause_only_out x c
  simp only [Function.comp, h, sLearned]

theorem eval_clauses (b : SBlock) (x : List Nat) :
    (sparseBackend.evalExample b x).clauses.length = b.clauses.length := by
  have := congrArg (fun p => p.1.length) (eval_kept b x)
  simpa using this

theorem count_sum (bs : List SBlock) : (bs.flatMap (·.clauses)).length = (bs.map (·.clauses.length)).sum := by
  simp [List.length_flatMap]

/-! ### What the state depends on -/

theorem rows_learned (b : SBlock) :
    b.rows = (b.clauses.map sLearned).map (·.1) ++ (b.clauses.map sLearned).map (·.2.1) := by
  simp [SBlock.rows, sLearned, Function.comp_def]

theorem sLoadLoop_congr (bs bs' : List SBlock)
    (h : bs.map (fun b => (b.clauses.map sLearned, b.al)) = bs'.map (fun b => (b.clauses.map sLearned, b.al)))
    (off : Nat) (s : SparseSt) : sLoadLoop bs off s = sLoadLoop bs' off s := by
  induction bs generalizing bs' off s with
  | nil =>
    cases bs' with
    | nil => rfl
    | cons _ _ => simp at h
  | cons b bs ih =>
    cases bs' with
    | nil => simp at h
    | cons b' bs' =>
      simp only [List.map_cons, List.cons.injEq, Prod.mk.injEq] at h
      obtain ⟨⟨h1, h2⟩, h3⟩ := h
      have hl : b.clauses.length = b'.clauses.length := by simpa using congrArg List.length h1
      have hw : b.clauses.map (·.w) = b'.clauses.map (·.w) := by
        have := congrArg (List.map (fun c : Half × Half × List Int => c.2.2)) h1
        simpa [sLearned, Function.comp_def] using this
      have hr : b.rows = b'.rows := by rw [rows_learned, rows_learned, h1]
      rw [sLoadLoop, sLoadLoop, ih bs' h3]
      simp only [hl, hw, SBlock.getCsr, SBlock.getAL, hr, h2]

/-! ### The rows the arrays denote -/

theorem rows_unique {a : CsrArr} {r r' : List Half} (h : Denotes a r) (h' : Denotes a r') : r = r' := by
  obtain ⟨d, i, l, p⟩ := h
  obtain ⟨d', i', l', p'⟩ := h'
  have hflat : r.flatten = r'.flatten := by
    have e1 : r.flatMap id = r'.flatMap id := by
      apply List.ext_getElem
      · have := congrArg List.length (d.symm.trans d'); rwa [List.length_map, List.length_map] at this
      · intro k h1 h2
        have a1 : ((r.flatMap id).map (·.2))[k]? = ((r'.flatMap id).map (·.2))[k]? := by rw [← d, ← d']
        have a2 : ((r.flatMap id).map (·.1))[k]? = ((r'.flatMap id).map (·.1))[k]? := by rw [← i, ← i']
        rw [List.getElem?_map, List.getElem?_map, List.getElem?_eq_getElem h1, List.getElem?_eq_getElem h2] at a1 a2
        simp only [Option.map_some, Option.some.injEq] at a1 a2
        exact Prod.ext a2 a1
    simpa using e1
  have hlen : r.length = r'.length := by omega
  have hs : ∀ k, k ≤ r.length → ((r.take k).map List.length).sum = ((r'.take k).map List.length).sum := by
    intro k hk
    have := (p k hk).symm.trans (p' k (by omega))
    simpa using this
  clear d i l p d' i' l' p'
  induction r generalizing r' with
  | nil => exact (List.length_eq_zero_iff.mp hlen.symm).symm
  | cons x r ih =>
    cases r' with
    | nil => simp at hlen
    | cons y r' =>
      have h1 : x.length = y.length := by have := hs 1 (by simp); simpa using this
      simp only [List.flatten_cons] at hflat
      obtain ⟨e1, e2⟩ := List.append_inj hflat h1
      rw [e1, ih e2 (by simpa using hlen) (by
        intro k hk
        have := hs (k + 1) (by simp; omega)
        simp only [List.take_succ_cons, List.map_cons, List.sum_cons] at this
        omega)]

theorem halves_unique {c c' : List (Half × Half × List Int)}
    (h : c.map (·.1) ++ c.map (·.2.1) = c'.map (·.1) ++ c'.map (·.2.1)) :
    c.map (·.1) = c'.map (·.1) ∧ c.map (·.2.1) = c'.map (·.2.1) := by
  have hl : c.length = c'.length := by
    have := congrArg List.length h
    simp at this; omega
  exact List.append_inj h (by simpa using hl)

theorem triples {c c' : List (Half × Half × List Int)} (h1 : c.map (·.1) = c'.map (·.1))
    (h2 : c.map (·.2.1) = c'.map (·.2.1)) (h3 : c.map (·.2.2) = c'.map (·.2.2)) : c = c' := by
  apply List.ext_getElem
  · simpa using congrArg List.length h1
  · intro k a b
    have e1 := congrArg (·[k]?) h1
    have e2 := congrArg (·[k]?) h2
    have e3 := congrArg (·[k]?) h3
    simp only [List.getElem?_map, List.getElem?_eq_getElem a, List.getElem?_eq_getElem b, Option.map_some,
      Option.some.injEq] at e1 e2 e3
    exact Prod.ext e1 (Prod.ext e2 e3)

/-- The clauses a state holds are those of the blocks it was read from. -/
theorem holds_unique (m nClauses n : Nat) (bs : List SBlock) (hn : (bs.flatMap (·.clauses)).length = nClauses)
    (cls : List (Half × Half × List Int)) (h : StateHolds (sLoad m nClauses n bs) cls) :
    cls = (bs.flatMap (·.clauses)).map sLearned := by
  obtain ⟨parts, rfl, hw, hc, hd⟩ := h
  rw [sLoad_eq m nClauses n bs hn] at hw hc hd
  simp only [List.length_map] at hc
  have hparts : ∀ (bs : List SBlock) (parts : List (List (Half × Half × List Int))), bs.length = parts.length →
      (∀ (i : Nat) (a : CsrArr) (part : List (Half × Half × List Int)), (bs.map (·.getCsr))[i]? = some a →
        parts[i]? = some part → Denotes a (part.map (·.1) ++ part.map (·.2.1))) →
      parts.flatten.map (·.1) = ((bs.flatMap (·.clauses)).map sLearned).map (·.1) ∧
      parts.flatten.map (·.2.1) = ((bs.flatMap (·.clauses)).map sLearned).map (·.2.1) := by
    intro bs
    induction bs with
    | nil =>
      intro parts hl _
      rw [List.length_eq_zero_iff.mp hl.symm]
      exact ⟨rfl, rfl⟩
    | cons b bs ih =>
      intro parts hl hd
      cases parts with
      | nil => simp at hl
      | cons q parts =>
        obtain ⟨i1, i2⟩ := ih parts (by simpa using hl) (fun i a part e1 e2 =>
          hd (i + 1) a part (by simpa using e1) (by simpa using e2))
        have hq := hd 0 b.getCsr q rfl rfl
        have hb : Denotes b.getCsr b.rows := csrLoop_denotes b.rows
        rw [rows_learned] at hb
        obtain ⟨j1, j2⟩ := halves_unique (rows_unique hq hb)
        simp only [List.flatten_cons, List.flatMap_cons, List.map_append, i1, i2, j1, j2, and_self]
  obtain ⟨k1, k2⟩ := hparts bs parts hc hd
  refine triples k1 k2 ?_
  rw [← hw]
  simp [sLearned, Function.comp_def]

/-- What a state holds: the clauses of the blocks. -/
theorem holds_load (m nClauses n : Nat) (bs : List SBlock) (hn : (bs.flatMap (·.clauses)).length = nClauses) :
    StateHolds (sLoad m nClauses n bs) ((bs.flatMap (·.clauses)).map sLearned) := by
  refine ⟨bs.map fun b => b.clauses.map sLearned, ?_, ?_, ?_, ?_⟩
  · rw [List.map_flatMap, List.flatMap_def]
  · rw [sLoad_eq m nClauses n bs hn]
    simp [sLearned, Function.comp_def]
  · rw [sLoad_eq m nClauses n bs hn]
    simp
  · rw [sLoad_eq m nClauses n bs hn]
    intro i a part h1 h2
    simp only [List.getElem?_map] at h1 h2
    cases hb : bs[i]? with
    | none => rw [hb] at h1; cases h1
    | some b =>
      rw [hb] at h1 h2
      simp only [Option.map_some, Option.some.injEq] at h1 h2
      subst h1 h2
      rw [← rows_learned]
      exact csrLoop_denotes b.rows

/-! ### The score of an epoch and what is delivered -/

section
variable (m nClauses n : Nat) (init : Option SparseSt → Exec SBlock) (smp : List Rat → Rat → Nat)
  (shuffle : Nat → List Nat → List Nat) (metric : List Nat → List Nat → Rat) (tr ev : List (List Nat × Nat))
  (tm : Option SparseSt)

theorem sparse_reproduces (hi : SSetUp n (init tm)) (hcount : ((init tm).blocks.flatMap (·.clauses)).length = nClauses)
    (hx : ∀ d ∈ ev, SortedEx d.1) (k : Nat) (st : SparseSt)
    (hst : (sparseEnv m nClauses n init smp shuffle metric tr ev).snap
      (afterTrain (sparseEnv m nClauses n init smp shuffle metric tr ev)
        ((sparseEnv m nClauses n init smp shuffle metric tr ev).start tm) k) = st)
    (rs : Rules) (p : Predictor) (hd : SDeliveredFrom m n st (ev.map (·.1)) rs p) :
    Reproduces n metric (ev.map fun d => (denseEx m d.1, d.2)) p (simpleC rs)
      (scoreOf (sparseEnv m nClauses n init smp shuffle metric tr ev)
        ((sparseEnv m nClauses n init smp shuffle metric tr ev).start tm) k) := by
  have hready := ready_afterTrain (snapOf := fun e => sLoad m nClauses n e.blocks) (init := init) (smp := smp)
    (shuffle := shuffle) (metric := metric) (tr := tr) (ev := ev) (sparse_keeps n) ⟨init tm, [], 0⟩ hi k
  have hcl := map_afterTrain (snapOf := fun e => sLoad m nClauses n e.blocks) (init := init) (smp := smp)
    (shuffle := shuffle) (metric := metric) (tr := tr) (ev := ev) (fun b : SBlock => b.clauses.length) eval_clauses
    train_clauses update_clauses ⟨init tm, [], 0⟩ k
  rw [show scoreOf (sparseEnv m nClauses n init smp shuffle metric tr ev)
    ((sparseEnv m nClauses n init smp shuffle metric tr ev).start tm) k = _ from
    scoreOf_backend (be := sparseBackend) ⟨init tm, [], 0⟩ k]
  have hst' : sLoad m nClauses n (afterTrain (backendEnv sparseBackend (fun e => sLoad m nClauses n e.blocks) init smp
      shuffle metric tr ev) ⟨init tm, [], 0⟩ k).e.blocks = st := hst
  clear hst
  show Reproduces n metric _ p (simpleC rs) (metric _ ((Exec.evalPredict sparseBackend _ _ (afterTrain (backendEnv
    sparseBackend (fun e => sLoad m nClauses n e.blocks) init smp shuffle metric tr ev) ⟨init tm, [], 0⟩ k).e).2.getD []))
  generalize (afterTrain (backendEnv sparseBackend (fun e => sLoad m nClauses n e.blocks) init smp
      shuffle metric tr ev) ⟨init tm, [], 0⟩ k).e = e at *
  have hn : (e.blocks.flatMap (·.clauses)).length = nClauses := by
    rw [count_sum, hcl, ← count_sum]; exact hcount
  subst hst'
  obtain ⟨⟨ml, s, excl, p0, calls, c1, c2, rfl⟩, hnames, cls, hh, hag, hf, hv⟩ := hd
  obtain rfl := holds_unique m nClauses n e.blocks hn cls hh
  have hc : ∀ c ∈ e.blocks.flatMap (·.clauses), Agreeable m n (ev.map (·.1)) (sLearned c) := fun c hc =>
    hag _ (List.mem_map.mpr ⟨c, hc, rfl⟩)
  have h' : ∀ c ∈ e.blocks.flatMap (·.clauses), SClauseOK m n c := fun c hcm =>
    ⟨(hc c hcm).sorted.1, (hc c hcm).sorted.2, (hc c hcm).below, (hc c hcm).weights⟩
  rw [sLoad_eq m nClauses n e.blocks hn] at c1
  obtain ⟨rs', h1, h2⟩ := compileSparse_eq ml m n e.blocks h' ⟨some m, (e.blocks.flatMap (·.clauses)).map (·.w),
    e.blocks.map (·.getCsr), e.blocks.map (·.getAL)⟩ rfl rfl rfl
  rw [h1] at c1
  obtain rfl := Except.ok.inj c1
  have hsum : ∀ x ∈ ev.map (·.1), ∀ j, firingSum (stateClauses (aboveState m n (e.blocks.flatMap (·.clauses))))
      (denseEx m x) j = sFiringSum ((e.blocks.flatMap (·.clauses)).map sLearned) x j := fun x hxm =>
    firingSum_above_sparse m n _ x (fun c hcm => by
      have q := hc c hcm
      exact ⟨h' c hcm, q.twoSided.1, q.twoSided.2, q.some, q.nonZero.1, q.nonZero.2, q.last x hxm⟩)
  obtain ⟨ks, a1, a2, a3⟩ := C17_sparse_batch_predictions n e (ev.map (·.1)) hready (by
    intro x hx'
    obtain ⟨d, hd', rfl⟩ := List.mem_map.mp hx'
    exact hx d hd')
  rw [a1]
  refine reproduces_of_predictions (denseEx m) m n hi.classes metric ev
    (stateClauses (aboveState m n (e.blocks.flatMap (·.clauses))))
    (fun d _ => ⟨denseEx_binary m d.1, denseEx_length m d.1⟩) ks (by simpa using a2) ?_ _ _ ?_
  · intro i x k' b1 b2
    have := a3 i x k' b1 b2
    have hxm : x ∈ ev.map (·.1) := List.mem_of_getElem? b1
    have hvotes : modelVotes n (stateClauses (aboveState m n (e.blocks.flatMap (·.clauses)))) (denseEx m x) =
        sModelVotes n (sModel e) x := by
      unfold modelVotes sModelVotes
      exact List.map_congr_left (fun j _ => by rw [hsum x hxm j]; rfl)
    rw [hvotes]
    exact this
  · refine ⟨⟨aboveState m n (e.blocks.flatMap (·.clauses)), ml, s, excl, p0, calls, aboveState_shaped m n _ h', rfl, rfl,
      rfl, ?_, h2, c2, rfl⟩, hnames, ?_⟩
    · intro r j hj
      show -32768 ≤ sameClauseSum m _ r j ∧ sameClauseSum m _ r j ≤ 32767
      rw [sameClauseSum_above m n _ h']
      exact hf r j hj
    · intro x hx' j hj
      obtain ⟨d, hd', rfl⟩ := List.mem_map.mp hx'
      rw [hsum d.1 (List.mem_map.mpr ⟨d, hd', rfl⟩) j]
      exact hv d.1 (List.mem_map.mpr ⟨d, hd', rfl⟩) j hj

end

/-! ### The executors a training starts with -/

theorem fresh_ok (m k n : Nat) (cfg : SCfg) (fastOf : Nat → Rng) (junk : Nat → Nat) (seed : Nat) (b : SBlock)
    (h : initSparse m k n cfg fastOf junk seed = some b) : SparseBlockOK n b := by
  unfold initSparse at h
  split at h
  · cases h
  · split at h
    · cases h
    · simp only [Option.some.injEq] at h
      subst h
      refine ⟨rfl, ?_⟩
      intro c hc
      obtain ⟨i, hi, rfl⟩ := List.mem_iff_getElem.mp hc
      simp only [List.getElem_mapIdx]
      exact ((initAllWeights_spec n k (fastOf seed)).2 _ (List.getElem_mem _)).1

theorem setCsr_kept (b b1 : SBlock) (a : CsrArr) (h : b.setCsr a = some b1) :
    b1.nClasses = b.nClasses ∧ b1.clauses.length = b.clauses.length := by
  refine ⟨?_, setCsr_length b b1 a h⟩
  unfold SBlock.setCsr at h
  split at h
  · cases h
  · split at h
    · unfold SBlock.setRows at h
      split at h
      · cases h
      · simp only [Option.some.injEq] at h
        subst h; rfl
    · cases h

theorem save_ok (n : Nat) (st : SparseSt) (hw : ∀ w ∈ st.w, w.length = n) (bs : List SBlock) (k off : Nat)
    (bs' : List SBlock) (hb : ∀ b ∈ bs, SparseBlockOK n b) (h : sSaveLoop st bs k off = (bs', .ok ())) :
    (∀ b ∈ bs', SparseBlockOK n b) ∧ bs'.map (·.clauses.length) = bs.map (·.clauses.length) := by
  induction bs generalizing k off bs' with
  | nil =>
    simp only [sSaveLoop, Prod.mk.injEq] at h
    obtain ⟨rfl, -⟩ := h
    simp
  | cons b bs ih =>
    rw [sSaveLoop] at h
    split at h
    · split at h
      · simp at h
      · rename_i b1 h1
        split at h
        · simp at h
        · rename_i b2 h2
          split at h
          · simp at h
          · rename_i b3 h3
            simp only [Prod.mk.injEq] at h
            obtain ⟨rfl, hr⟩ := h
            obtain ⟨i1, i2⟩ := ih (k + 1) (off + b.clauses.length) _ (fun b hb' => hb b (by simp [hb']))
              (Prod.ext rfl hr)
            have c1 := setCsr_kept b b1 _ h1
            unfold SBlock.setWeights at h2
            split at h2
            · cases h2
            · rename_i hlen
              simp only [Option.some.injEq] at h2
              have c3 : b3.nClasses = b2.nClasses ∧ b3.clauses = b2.clauses := by
                unfold SBlock.setAL at h3
                split at h3
                · cases h3
                · split at h3
                  · cases h3
                  · simp only [Except.ok.injEq] at h3
                    subst h3; exact ⟨rfl, rfl⟩
              subst h2
              have hl3 : b3.clauses.length = b.clauses.length := by rw [c3.2]; simp [c1.2]
              refine ⟨?_, by simp [hl3, i2]⟩
              intro d hd
              rcases List.mem_cons.mp hd with rfl | hd
              · refine ⟨by rw [c3.1]; exact c1.1.trans (hb b (by simp)).1, ?_⟩
                intro c hc
                rw [c3.2] at hc
                obtain ⟨i, hi, rfl⟩ := List.mem_iff_getElem.mp hc
                simp only [List.getElem_mapIdx]
                simp only [List.length_mapIdx] at hi
                rw [List.getD_eq_getElem?_getD, List.getElem?_eq_getElem (by omega)]
                exact hw _ (List.getElem_mem _)
              · exact i1 d hd
    · simp at h

/-! ### Bounds for the examples -/

theorem filter_sum_natAbs {α : Type} (q : α → Bool) (f : α → Int) (l : List α) :
    ((l.filter q).map f).sum.natAbs ≤ (l.map fun a => (f a).natAbs).sum := by
  induction l with
  | nil => simp
  | cons a l ih =>
    rw [List.filter_cons]
    split <;> simp only [List.map_cons, List.sum_cons] at ih ⊢ <;> omega

end GT.STrain

import Verif.Lemmas.Executor

/-! # Helper lemmas: executors over the portable and the AVX2 blocks -/

namespace GT
open Spec

/-! ### Blocks stay well formed -/

theorem bump_length (j : Nat) (t : Int) (w : List Int) : (bump j t w).length = w.length := by
  simp [bump]

theorem trainClause_w_length (cfg : Cfg) (x : List Nat) (fb : Feedback) (c : Clause) (f g : Rng) :
    (trainClause cfg x fb c f g).1.w.length = c.w.length := by
  rw [trainClause_w]
  dsimp only
  split <;> split <;> simp [bump_length]

theorem avxTrainClause_w_length (cfg : VCfg) (lits : Mem) (fb : Feedback) (c : VClause) (f : Rng)
    (g : VRng) : (avxTrainClause cfg lits fb c f g).1.w.length = c.w.length := by
  rw [avxTrainClause_w]
  dsimp only
  split <;> split <;> simp [bump_length]

theorem dense_keeps (n : Nat) : Keeps denseBackend n (DenseBlockOK n) := by
  constructor
  · intro b x ⟨h1, h2⟩
    have hw : ∀ c ∈ b.clauses.map (setOutClause b.cfg x), c.w.length = n := by
      intro c hc
      obtain ⟨d, hd, rfl⟩ := List.mem_map.mp hc
      exact h2 d hd
    refine ⟨⟨h1, hw⟩, ?_⟩
    have := C13_votes_length n _ hw
    simp only [denseBackend, DBlock.apply, DBlock.countVotes, DBlock.trainSetOutput, h1]
    omega
  · intro b x ⟨h1, h2⟩
    have hw : ∀ c ∈ b.clauses.map (evalOutClause x), c.w.length = n := by
      intro c hc
      obtain ⟨d, hd, rfl⟩ := List.mem_map.mp hc
      exact h2 d hd
    refine ⟨⟨h1, hw⟩, ?_⟩
    have := C13_votes_length n _ hw
    simp only [denseBackend, DBlock.apply, DBlock.countVotes, DBlock.evalSetOutput, h1]
    omega
  · intro b x fb ⟨h1, h2⟩
    refine ⟨h1, ?_⟩
    intro c hc
    obtain ⟨d, hd, f, g, rfl⟩ := trainClauses_mem _ _ _ _ _ _ _ hc
    rw [trainClause_w_length]
    exact h2 d hd

theorem avxCountVotes_length (n : Nat) (cs : List VClause) (hw : ∀ c ∈ cs, c.w.length = n) :
    (avxCountVotes n cs).length = n := by
  unfold avxCountVotes
  suffices h : ∀ v : List Int, v.length = n →
      (cs.foldl (fun v c => if c.out = 1 then addVotes v c.w else v) v).length = n from
    h _ (by simp)
  induction cs with
  | nil => intro v hv; simpa using hv
  | cons c cs ih =>
    intro v hv
    simp only [List.foldl_cons]
    apply ih (fun c hc => hw c (by simp [hc]))
    split
    · rw [addVotes_length _ _ (by rw [hv, hw c (by simp)]), hv]
    · exact hv

theorem avx_keeps (n : Nat) : Keeps avxBackend n (AvxBlockOK n) := by
  constructor
  · intro b x ⟨h1, h0, h2⟩
    have hw : ∀ c ∈ b.clauses.map (avxSetClause b.cfg x), c.w.length = n := by
      intro c hc
      obtain ⟨d, hd, rfl⟩ := List.mem_map.mp hc
      rw [(avxSetClause_spec b.cfg x d h0).2.2.2.2]
      exact h2 d hd
    refine ⟨⟨h1, h0, hw⟩, ?_⟩
    have := avxCountVotes_length n _ hw
    simp only [avxBackend, VBlock.apply, h1]
    omega
  · intro b x ⟨h1, h0, h2⟩
    have hw : ∀ c ∈ b.clauses.map (avxEvalClause b.cfg x), c.w.length = n := by
      intro c hc
      obtain ⟨d, hd, rfl⟩ := List.mem_map.mp hc
      rw [(avxEvalClause_spec b.cfg x d h0).2.2.2.1]
      exact h2 d hd
    refine ⟨⟨h1, h0, hw⟩, ?_⟩
    have := avxCountVotes_length n _ hw
    simp only [avxBackend, VBlock.apply, h1]
    omega
  · intro b x fb ⟨h1, h0, h2⟩
    refine ⟨h1, h0, ?_⟩
    intro c hc
    obtain ⟨i, hi, e⟩ := List.mem_iff_getElem.mp hc
    have hi' : i < b.clauses.length := by
      have := avxTrainClauses_length b.cfg x fb b.clauses b.fast b.vrng
      simp only [avxBackend, VBlock.apply] at hi
      omega
    obtain ⟨g', e'⟩ := avxTrainClauses_get b.cfg x fb b.clauses b.fast b.vrng i _
      (List.getElem?_eq_getElem hi')
    have : some c = (avxTrainClauses b.cfg x fb b.clauses b.fast b.vrng).1[i]? := by
      rw [← e]; exact (List.getElem?_eq_getElem hi).symm
    rw [e'] at this
    rw [Option.some.inj this, avxTrainClause_w_length]
    exact h2 _ (List.getElem_mem _)

/-! ### Whole sequences -/

theorem ready_train {B E : Type} {be : Backend B E} {n : Nat} {P : B → Prop} (hk : Keeps be n P)
    (smp : List Rat → Rat → Nat) (e : Exec B) (x : E) (label : Nat) (h : Ready n P e) :
    Ready n P (e.trainOne be smp x label) := by
  have hr := round_votes (be.trainExample · x) be.votes e.blocks e.fb
    (by rw [h.fbClasses, h.fbVotes]) (fun b hb => by
      rw [h.fbClasses]; exact (hk.train b x (h.blocks b hb)).2)
  have hfr := exampleLoop_frame (be.trainExample · x) be.votes e.blocks e.fb.reset
  refine ⟨h.classes, ?_, ?_, ?_⟩
  · show (exampleLoop (be.trainExample · x) be.votes e.blocks e.fb.reset).2.nClasses = n
    rw [hfr]; exact h.fbClasses
  · show (exampleLoop (be.trainExample · x) be.votes e.blocks e.fb.reset).2.votes.length = n
    rw [hr.1, h.fbVotes]
  · intro b hb
    simp only [Exec.trainOne, exampleLoop_blocks, List.mem_map] at hb
    obtain ⟨b1, ⟨b0, hb0, rfl⟩, rfl⟩ := hb
    have := (hk.train b0 x (h.blocks b0 hb0)).1
    split
    · exact hk.update _ _ _ this
    · exact this

theorem ready_eval {B E : Type} {be : Backend B E} {n : Nat} {P : B → Prop} (hk : Keeps be n P)
    (e : Exec B) (x : E) (h : Ready n P e) : Ready n P (e.evalOne be x).1 := by
  have hr := round_votes (be.evalExample · x) be.votes e.blocks e.fb
    (by rw [h.fbClasses, h.fbVotes]) (fun b hb => by
      rw [h.fbClasses]; exact (hk.eval b x (h.blocks b hb)).2)
  have hfr := exampleLoop_frame (be.evalExample · x) be.votes e.blocks e.fb.reset
  refine ⟨h.classes, ?_, ?_, ?_⟩
  · show (exampleLoop (be.evalExample · x) be.votes e.blocks e.fb.reset).2.nClasses = n
    rw [hfr]; exact h.fbClasses
  · show (exampleLoop (be.evalExample · x) be.votes e.blocks e.fb.reset).2.votes.length = n
    rw [hr.1, h.fbVotes]
  · intro b hb
    simp only [Exec.evalOne, exampleLoop_blocks, List.mem_map] at hb
    obtain ⟨b0, hb0, rfl⟩ := hb
    exact (hk.eval b0 x (h.blocks b0 hb0)).1

theorem trainMT_iff {B E : Type} {be : Backend B E} {n : Nat} {P : B → Prop} (hk : Keeps be n P)
    (smp : List Rat → Rat → Nat) (ds : List (E × Nat)) (e e' : Exec B) (h : Ready n P e) :
    TrainMT be smp ds e e' ↔ e' = trainAll be smp ds e := by
  induction ds generalizing e with
  | nil =>
    constructor
    · intro ht; cases ht; rfl
    · rintro rfl; exact .nil _
  | cons d ds ih =>
    have h1 : e.fb.nClasses ≤ e.fb.votes.length := by rw [h.fbClasses, h.fbVotes]
    have h2 : ∀ b ∈ e.blocks, e.fb.nClasses ≤ (be.votes (be.trainExample b d.1)).length :=
      fun b hb => by rw [h.fbClasses]; exact (hk.train b d.1 (h.blocks b hb)).2
    constructor
    · intro ht
      cases ht with
      | cons hone hrest =>
        rw [trainOneMT_iff be smp e _ _ _ h1 h2] at hone
        subst hone
        exact (ih _ (ready_train hk smp e _ _ h)).mp hrest
    · rintro rfl
      exact .cons ((trainOneMT_iff be smp e _ d.1 d.2 h1 h2).mpr rfl)
        ((ih _ (ready_train hk smp e _ _ h)).mpr rfl)

theorem evalMT_iff {B E : Type} {be : Backend B E} {n : Nat} {P : B → Prop} (hk : Keeps be n P)
    (xs : List E) (e e' : Exec B) (ks : List Nat) (h : Ready n P e) :
    EvalMT be xs e e' ks ↔ (e', ks) = Exec.evalLoop be xs e := by
  induction xs generalizing e ks with
  | nil =>
    constructor
    · intro ht; cases ht; rfl
    · intro h; simp [Exec.evalLoop] at h; obtain ⟨rfl, rfl⟩ := h; exact .nil _
  | cons x xs ih =>
    have h1 : e.fb.nClasses ≤ e.fb.votes.length := by rw [h.fbClasses, h.fbVotes]
    have h2 : ∀ b ∈ e.blocks, e.fb.nClasses ≤ (be.votes (be.evalExample b x)).length :=
      fun b hb => by rw [h.fbClasses]; exact (hk.eval b x (h.blocks b hb)).2
    constructor
    · intro ht
      cases ht with
      | cons hone hrest =>
        rw [evalOneMT_iff be e _ _ _ h1 h2] at hone
        have hr := ready_eval hk e x h
        rw [← hone] at hr
        have := (ih _ _ hr).mp hrest
        simp only [Exec.evalLoop]
        rw [← hone]
        simp only [← this]
    · intro hh
      simp only [Exec.evalLoop, Prod.mk.injEq] at hh
      obtain ⟨rfl, rfl⟩ := hh
      exact .cons ((evalOneMT_iff be e _ x _ h1 h2).mpr rfl)
        ((ih _ _ (ready_eval hk e x h)).mpr rfl)

/-! ### Votes of the portable and the AVX2 executor -/

theorem list_sum_flatMap (l : List DBlock) (g : Clause → Int) :
    (l.map fun b => (b.clauses.map g).sum).sum = ((l.flatMap (·.clauses)).map g).sum := by
  induction l with
  | nil => rfl
  | cons b l ih => simp [ih]

theorem wrap16_sum (l : List Int) : wrap16 (l.map wrap16).sum = wrap16 l.sum := by
  induction l with
  | nil => rfl
  | cons a l ih =>
    simp only [List.map_cons, List.sum_cons]
    rw [wrap16_add_wrap16, Int.add_comm, ← wrap16_add_wrap16, ih, wrap16_add_wrap16, Int.add_comm]

theorem firingSum_cons (c : List Int × List Int × List Int) (cs : List (List Int × List Int × List Int))
    (x : List Nat) (k : Nat) [Decidable (Fires x c)] :
    firingSum (c :: cs) x k = (if Fires x c then c.2.2.getD k 0 else 0) + firingSum cs x k := by
  unfold firingSum
  by_cases h : Fires x c
  · simp [h]
  · simp [h]

theorem firingSum_append (a b : List (List Int × List Int × List Int)) (x : List Nat) (k : Nat) :
    firingSum (a ++ b) x k = firingSum a x k + firingSum b x k := by
  unfold firingSum
  simp

theorem firingSum_perm {a b : List (List Int × List Int × List Int)} (h : a.Perm b) (x : List Nat)
    (k : Nat) : firingSum a x k = firingSum b x k := by
  unfold firingSum
  exact List.Perm.sum_eq ((h.filter _).map _)

theorem voteSum_eval (cs : List Clause) (x : List Nat) (k : Nat) (hx : Binary x)
    (hs : ∀ c ∈ cs, Shaped x.length c) :
    voteSum (cs.map (evalOutClause x)) k = firingSum (cs.map learned) x k := by
  induction cs with
  | nil => rfl
  | cons c cs ih =>
    have ih := ih (fun c hc => hs c (by simp [hc]))
    have h := (C05_eval_output x c hx (hs c (by simp))).1
    classical
    rw [List.map_cons, List.map_cons, firingSum_cons, ← ih]
    have hw : (evalOutClause x c).w = c.w := rfl
    unfold voteSum
    by_cases ho : (evalOutClause x c).out = 1
    · have hf : Fires x (learned c) := h.mp ho
      simp only [List.filter_cons, ho, hf]
      simp [learned, hw]
    · have hf : ¬ Fires x (learned c) := fun hf => ho (h.mpr hf)
      have hb : ((evalOutClause x c).out == 1) = false := by simpa using ho
      simp only [List.filter_cons, hb, hf]
      simp

theorem setUp_ready {m n : Nat} {e : Exec DBlock} (h : SetUp m n e) : Ready n (DenseBlockOK n) e :=
  ⟨h.classes, h.fbClasses, h.fbVotes, fun b hb =>
    ⟨(h.blocks b hb).1, fun c hc => ((h.blocks b hb).2 c hc).2⟩⟩

theorem dense_eval_votes {m n : Nat} (e : Exec DBlock) (x : List Nat) (h : SetUp m n e) (hx : Binary x)
    (hm : x.length = m) : (e.evalOne denseBackend x).1.fb.votes = modelVotes n (model e) x := by
  have hr := round_votes (denseBackend.evalExample · x) denseBackend.votes e.blocks e.fb
    (by rw [h.fbClasses, h.fbVotes]) (fun b hb => by
      rw [h.fbClasses]; exact ((dense_keeps n).eval b x ((setUp_ready h).blocks b hb)).2)
  apply List.ext_getElem?
  intro k
  show (exampleLoop (denseBackend.evalExample · x) denseBackend.votes e.blocks e.fb.reset).2.votes[k]? = _
  by_cases hk : k < n
  · rw [hr.2.1 k (by rw [h.fbClasses]; exact hk)]
    simp only [modelVotes, List.getElem?_map, List.getElem?_range hk, Option.map_some]
    congr 1
    have : (e.blocks.map fun b => (denseBackend.votes (denseBackend.evalExample b x)).getD k 0) =
        (e.blocks.map fun b => firingSum (b.clauses.map learned) x k).map wrap16 := by
      rw [List.map_map]
      apply List.map_congr_left
      intro b hb
      obtain ⟨hn, hc⟩ := h.blocks b hb
      have hv := C13_votes_mod n (b.clauses.map (evalOutClause x)) (by
        intro c hc'
        obtain ⟨d, hd, rfl⟩ := List.mem_map.mp hc'
        exact (hc d hd).2) k hk
      simp only [denseBackend, DBlock.apply, DBlock.countVotes, DBlock.evalSetOutput, hn,
        List.getD, hv, Option.getD_some, Function.comp]
      rw [voteSum_eval _ _ _ hx (fun c hc' => by rw [hm]; exact (hc c hc').1)]
    rw [this, wrap16_sum]
    congr 1
    unfold model
    clear this hr h
    induction e.blocks with
    | nil => rfl
    | cons b bs ih => simp [ih, firingSum_append]
  · rw [List.getElem?_eq_none (by rw [hr.1, h.fbVotes]; omega),
      List.getElem?_eq_none (by simp [modelVotes]; omega)]

theorem avxSetUp_ready {m n : Nat} {e : Exec VBlock} (h : AvxSetUp m n e) :
    Ready n (AvxBlockOK n) e :=
  ⟨h.classes, h.fbClasses, h.fbVotes, fun b hb =>
    ⟨(h.blocks b hb).1, by rw [(h.blocks b hb).2.1]; exact h.lits, (h.blocks b hb).2.2⟩⟩

theorem avx_eval_votes {m n : Nat} (e : Exec VBlock) (lits : Mem) (h : AvxSetUp m n e)
    (hx : Binary (unpadExample m lits)) :
    (e.evalOne avxBackend lits).1.fb.votes = modelVotes n (avxModel e) (unpadExample m lits) := by
  have hr := round_votes (avxBackend.evalExample · lits) avxBackend.votes e.blocks e.fb
    (by rw [h.fbClasses, h.fbVotes]) (fun b hb => by
      rw [h.fbClasses]; exact ((avx_keeps n).eval b lits ((avxSetUp_ready h).blocks b hb)).2)
  apply List.ext_getElem?
  intro k
  show (exampleLoop (avxBackend.evalExample · lits) avxBackend.votes e.blocks e.fb.reset).2.votes[k]? = _
  by_cases hk : k < n
  · rw [hr.2.1 k (by rw [h.fbClasses]; exact hk)]
    simp only [modelVotes, List.getElem?_map, List.getElem?_range hk, Option.map_some]
    congr 1
    have : (e.blocks.map fun b => (avxBackend.votes (avxBackend.evalExample b lits)).getD k 0) =
        (e.blocks.map fun b => firingSum (b.clauses.map fun c => learned (unpad b.cfg.nLits c))
          (unpadExample m lits) k).map wrap16 := by
      rw [List.map_map]
      apply List.map_congr_left
      intro b hb
      obtain ⟨hn, hl, hc⟩ := h.blocks b hb
      let d : DBlock := ⟨m, n, ⟨b.cfg.budget, false, 0, 0⟩, b.clauses.map (unpad b.cfg.nLits), [],
        ⟨fun _ => 0, 0⟩, ⟨fun _ => 0, 0⟩⟩
      have hd := (C07_block_outputs_and_votes b d lits (by rw [hl]; exact h.lits)
        (by rw [hl]; exact hx) hn.symm rfl rfl).2.1
      have hv := C13_votes_mod n ((b.clauses.map (unpad b.cfg.nLits)).map
        (evalOutClause (unpadExample m lits))) (by
        intro c hc'
        obtain ⟨d, hd, rfl⟩ := List.mem_map.mp hc'
        obtain ⟨d', hd', rfl⟩ := List.mem_map.mp hd
        exact hc d' hd') k hk
      simp only [avxBackend, hd]
      simp only [d, DBlock.apply, DBlock.countVotes, DBlock.evalSetOutput, List.getD, hl,
        Function.comp] at hv ⊢
      rw [hv]
      simp only [Option.getD_some]
      rw [voteSum_eval _ _ _ hx (fun c hc' => by
        obtain ⟨d, hd, rfl⟩ := List.mem_map.mp hc'
        simp [Shaped, unpad, unpadExample]), List.map_map]
      rfl
    rw [this, wrap16_sum]
    congr 1
    unfold avxModel
    clear this hr h
    induction e.blocks with
    | nil => rfl
    | cons b bs ih => simp [ih, firingSum_append]
  · rw [List.getElem?_eq_none (by rw [hr.1, h.fbVotes]; omega),
      List.getElem?_eq_none (by simp [modelVotes]; omega)]

/-! ### Votes in training -/

theorem holdingSum_cons (c : List Int × List Int × List Int) (cs : List (List Int × List Int × List Int))
    (x : List Nat) (k : Nat) [Decidable (Satisfied c.1 c.2.1 x)] :
    holdingSum (c :: cs) x k = (if Satisfied c.1 c.2.1 x then c.2.2.getD k 0 else 0) + holdingSum cs x k := by
  unfold holdingSum
  by_cases h : Satisfied c.1 c.2.1 x
  · simp [h]
  · simp [h]

theorem holdingSum_append (a b : List (List Int × List Int × List Int)) (x : List Nat) (k : Nat) :
    holdingSum (a ++ b) x k = holdingSum a x k + holdingSum b x k := by
  unfold holdingSum
  simp

theorem voteSum_train (cfg : Cfg) (cs : List Clause) (x : List Nat) (k : Nat) (hx : Binary x)
    (hs : ∀ c ∈ cs, Shaped x.length c) :
    voteSum (cs.map (setOutClause cfg x)) k = holdingSum (cs.map learned) x k := by
  induction cs with
  | nil => rfl
  | cons c cs ih =>
    have ih := ih (fun c hc => hs c (by simp [hc]))
    have h := (C06_train_output cfg x c hx (hs c (by simp))).1
    classical
    rw [List.map_cons, List.map_cons, holdingSum_cons, ← ih]
    have hw : (setOutClause cfg x c).w = c.w := rfl
    unfold voteSum
    by_cases ho : (setOutClause cfg x c).out = 1
    · have hf : Satisfied (learned c).1 (learned c).2.1 x := h.mp ho
      simp only [List.filter_cons, ho, hf]
      simp [learned, hw]
    · have hf : ¬ Satisfied (learned c).1 (learned c).2.1 x := fun hf => ho (h.mpr hf)
      have hb : ((setOutClause cfg x c).out == 1) = false := by simpa using ho
      simp only [List.filter_cons, hb, hf]
      simp

theorem dense_train_votes {m n : Nat} (e : Exec DBlock) (x : List Nat) (h : SetUp m n e) (hx : Binary x)
    (hm : x.length = m) : trainVotes denseBackend e x = trainingVotes n (model e) x := by
  have hr := round_votes (denseBackend.trainExample · x) denseBackend.votes e.blocks e.fb
    (by rw [h.fbClasses, h.fbVotes]) (fun b hb => by
      rw [h.fbClasses]; exact ((dense_keeps n).train b x ((setUp_ready h).blocks b hb)).2)
  apply List.ext_getElem?
  intro k
  show (exampleLoop (denseBackend.trainExample · x) denseBackend.votes e.blocks e.fb.reset).2.votes[k]? = _
  by_cases hk : k < n
  · rw [hr.2.1 k (by rw [h.fbClasses]; exact hk)]
    simp only [trainingVotes, List.getElem?_map, List.getElem?_range hk, Option.map_some]
    congr 1
    have : (e.blocks.map fun b => (denseBackend.votes (denseBackend.trainExample b x)).getD k 0) =
        (e.blocks.map fun b => holdingSum (b.clauses.map learned) x k).map wrap16 := by
      rw [List.map_map]
      apply List.map_congr_left
      intro b hb
      obtain ⟨hn, hc⟩ := h.blocks b hb
      have hv := C13_votes_mod n (b.clauses.map (setOutClause b.cfg x)) (by
        intro c hc'
        obtain ⟨d, hd, rfl⟩ := List.mem_map.mp hc'
        exact (hc d hd).2) k hk
      simp only [denseBackend, DBlock.apply, DBlock.countVotes, DBlock.trainSetOutput, hn,
        List.getD, hv, Option.getD_some, Function.comp]
      rw [voteSum_train b.cfg _ _ _ hx (fun c hc' => by rw [hm]; exact (hc c hc').1)]
    rw [this, wrap16_sum]
    congr 1
    unfold model
    clear this hr h
    induction e.blocks with
    | nil => rfl
    | cons b bs ih => simp [ih, holdingSum_append]
  · rw [List.getElem?_eq_none (by rw [hr.1, h.fbVotes]; omega),
      List.getElem?_eq_none (by simp [trainingVotes]; omega)]

theorem avx_train_votes {m n : Nat} (e : Exec VBlock) (lits : Mem) (h : AvxSetUp m n e)
    (hx : Binary (unpadExample m lits)) :
    trainVotes avxBackend e lits = trainingVotes n (avxModel e) (unpadExample m lits) := by
  have hr := round_votes (avxBackend.trainExample · lits) avxBackend.votes e.blocks e.fb
    (by rw [h.fbClasses, h.fbVotes]) (fun b hb => by
      rw [h.fbClasses]; exact ((avx_keeps n).train b lits ((avxSetUp_ready h).blocks b hb)).2)
  apply List.ext_getElem?
  intro k
  show (exampleLoop (avxBackend.trainExample · lits) avxBackend.votes e.blocks e.fb.reset).2.votes[k]? = _
  by_cases hk : k < n
  · rw [hr.2.1 k (by rw [h.fbClasses]; exact hk)]
    simp only [trainingVotes, List.getElem?_map, List.getElem?_range hk, Option.map_some]
    congr 1
    have : (e.blocks.map fun b => (avxBackend.votes (avxBackend.trainExample b lits)).getD k 0) =
        (e.blocks.map fun b => holdingSum (b.clauses.map fun c => learned (unpad b.cfg.nLits c))
          (unpadExample m lits) k).map wrap16 := by
      rw [List.map_map]
      apply List.map_congr_left
      intro b hb
      obtain ⟨hn, hl, hc⟩ := h.blocks b hb
      let d : DBlock := ⟨m, n, ⟨b.cfg.budget, false, 0, 0⟩, b.clauses.map (unpad b.cfg.nLits), [],
        ⟨fun _ => 0, 0⟩, ⟨fun _ => 0, 0⟩⟩
      have hd := (C07_block_outputs_and_votes b d lits (by rw [hl]; exact h.lits)
        (by rw [hl]; exact hx) hn.symm rfl rfl).1.1
      have hv := C13_votes_mod n ((b.clauses.map (unpad b.cfg.nLits)).map
        (setOutClause d.cfg (unpadExample m lits))) (by
        intro c hc'
        obtain ⟨d, hd, rfl⟩ := List.mem_map.mp hc'
        obtain ⟨d', hd', rfl⟩ := List.mem_map.mp hd
        exact hc d' hd') k hk
      simp only [avxBackend, hd]
      simp only [d, DBlock.apply, DBlock.countVotes, DBlock.trainSetOutput, List.getD, hl,
        Function.comp] at hv ⊢
      rw [hv]
      simp only [Option.getD_some]
      rw [voteSum_train d.cfg _ _ _ hx (fun c hc' => by
        obtain ⟨d, hd, rfl⟩ := List.mem_map.mp hc'
        simp [Shaped, unpad, unpadExample]), List.map_map]
      rfl
    rw [this, wrap16_sum]
    congr 1
    unfold avxModel
    clear this hr h
    induction e.blocks with
    | nil => rfl
    | cons b bs ih => simp [ih, holdingSum_append]
  · rw [List.getElem?_eq_none (by rw [hr.1, h.fbVotes]; omega),
      List.getElem?_eq_none (by simp [trainingVotes]; omega)]

/-! ### Evaluation changes only scratch data -/

theorem dense_eval_model (e : Exec DBlock) (x : List Nat) : model (e.evalOne denseBackend x).1 = model e := by
  simp only [model, Exec.evalOne, exampleLoop_blocks]
  induction e.blocks with
  | nil => rfl
  | cons b bs ih =>
    simp only [List.map_cons, List.flatMap_cons, List.map_append, ih]
    congr 1
    simp only [denseBackend, DBlock.apply, DBlock.countVotes, DBlock.evalSetOutput, List.map_map]
    rfl

theorem dense_eval_setUp {m n : Nat} (e : Exec DBlock) (x : List Nat) (h : SetUp m n e) :
    SetUp m n (e.evalOne denseBackend x).1 := by
  have hr := ready_eval (dense_keeps n) e x (setUp_ready h)
  refine ⟨h.classes, hr.fbClasses, hr.fbVotes, ?_⟩
  intro b hb
  simp only [Exec.evalOne, exampleLoop_blocks, List.mem_map] at hb
  obtain ⟨b0, hb0, rfl⟩ := hb
  obtain ⟨h1, h2⟩ := h.blocks b0 hb0
  refine ⟨h1, ?_⟩
  intro c hc
  simp only [denseBackend, DBlock.apply, DBlock.countVotes, DBlock.evalSetOutput, List.mem_map] at hc
  obtain ⟨d, hd, rfl⟩ := hc
  exact h2 d hd

theorem avx_eval_model {m n : Nat} (e : Exec VBlock) (x : Mem) (h : AvxSetUp m n e) :
    avxModel (e.evalOne avxBackend x).1 = avxModel e := by
  simp only [avxModel, Exec.evalOne, exampleLoop_blocks]
  have hb := h.blocks
  have hl := h.lits
  clear h
  generalize e.blocks = bs0 at hb ⊢
  induction bs0 with
  | nil => rfl
  | cons b bs ih =>
    simp only [List.map_cons, List.flatMap_cons]
    rw [ih (fun b hb' => hb b (by simp [hb']))]
    congr 1
    simp only [avxBackend, VBlock.apply, List.map_map]
    apply List.map_congr_left
    intro c _
    have := avxEvalClause_spec b.cfg x c (by rw [(hb b (by simp)).2.1]; exact hl)
    simp [Function.comp, learned, unpad, this.2.2.1, this.2.2.2.1]

theorem avx_eval_setUp {m n : Nat} (e : Exec VBlock) (x : Mem) (h : AvxSetUp m n e) :
    AvxSetUp m n (e.evalOne avxBackend x).1 := by
  have hr := ready_eval (avx_keeps n) e x (avxSetUp_ready h)
  refine ⟨h.classes, h.lits, hr.fbClasses, hr.fbVotes, ?_⟩
  intro b hb
  have := hr.blocks b hb
  refine ⟨this.1, ?_, this.2.2⟩
  simp only [Exec.evalOne, exampleLoop_blocks, List.mem_map] at hb
  obtain ⟨b0, hb0, rfl⟩ := hb
  exact (h.blocks b0 hb0).2.1

/-- A backend whose `train_example` and `eval_example` overwrite everything an earlier `eval_example`
left. -/
def EvalIsScratch {B E : Type} (be : Backend B E) (P : B → Prop) : Prop :=
  ∀ b y, P b → P (be.evalExample b y) ∧
    (∀ x, be.trainExample (be.evalExample b y) x = be.trainExample b x) ∧
    (∀ x, be.evalExample (be.evalExample b y) x = be.evalExample b x)

theorem exampleLoop_congr {B : Type} (f : B → B) (bv : B → List Int) (g : B → B) (bs : List B) (fb : FB)
    (h : ∀ b ∈ bs, f (g b) = f b) : exampleLoop f bv (bs.map g) fb = exampleLoop f bv bs fb := by
  induction bs generalizing fb with
  | nil => rfl
  | cons b bs ih =>
    simp only [List.map_cons, exampleLoop]
    rw [h b (by simp), ih _ (fun b hb => h b (by simp [hb]))]

theorem reset_frame (fb : FB) (v : List Int) (h : v.length = fb.votes.length) :
    ({ fb with votes := v } : FB).reset = fb.reset := by
  simp [FB.reset, h]

theorem train_after_eval {B E : Type} {be : Backend B E} {P Q : B → Prop} {n : Nat}
    (hs : EvalIsScratch be P) (hk : Keeps be n Q) (smp : List Rat → Rat → Nat) (e : Exec B) (y x : E)
    (label : Nat) (hP : ∀ b ∈ e.blocks, P b) (h : Ready n Q e) :
    (e.evalOne be y).1.trainOne be smp x label = e.trainOne be smp x label := by
  have hr := round_votes (be.evalExample · y) be.votes e.blocks e.fb
    (by rw [h.fbClasses, h.fbVotes]) (fun b hb => by
      rw [h.fbClasses]; exact (hk.eval b y (h.blocks b hb)).2)
  have hfr := exampleLoop_frame (be.evalExample · y) be.votes e.blocks e.fb.reset
  have hfb : (e.evalOne be y).1.fb.reset = e.fb.reset := by
    show (exampleLoop (be.evalExample · y) be.votes e.blocks e.fb.reset).2.reset = _
    rw [hfr]
    rw [show e.fb.reset = { e.fb with votes := List.replicate e.fb.votes.length 0 } from rfl]
    simp only
    exact reset_frame e.fb _ hr.1
  unfold Exec.trainOne
  dsimp only
  rw [hfb]
  simp only [Exec.evalOne, exampleLoop_blocks]
  rw [exampleLoop_congr _ _ _ _ _ (fun b hb => (hs b y (hP b hb)).2.1 x)]
  congr 1
  rw [List.map_map, List.map_map, List.map_map]
  apply List.map_congr_left
  intro b hb
  simp only [Function.comp]
  rw [(hs b y (hP b hb)).2.1 x]

theorem dense_scratch : EvalIsScratch denseBackend (fun _ => True) := by
  intro b y _
  refine ⟨trivial, fun x => ?_, fun x => ?_⟩
  · simp only [denseBackend, DBlock.apply, DBlock.countVotes, DBlock.evalSetOutput,
      DBlock.trainSetOutput, List.map_map]
    rfl
  · simp only [denseBackend, DBlock.apply, DBlock.countVotes, DBlock.evalSetOutput, List.map_map]
    rfl

theorem avxSetClause_ext (cfg : VCfg) (x : Mem) (c d : VClause) (h1 : c.row = d.row) (h2 : c.w = d.w)
    (h3 : c.cnt = d.cnt) : avxSetClause cfg x c = avxSetClause cfg x d := by
  obtain ⟨r, w, o, k⟩ := c
  obtain ⟨r', w', o', k'⟩ := d
  simp only at h1 h2 h3
  subst h1 h2 h3
  rfl

theorem avxEvalClause_ext (cfg : VCfg) (x : Mem) (c d : VClause) (h1 : c.row = d.row) (h2 : c.w = d.w)
    (h3 : c.cnt = d.cnt) : avxEvalClause cfg x c = avxEvalClause cfg x d := by
  obtain ⟨r, w, o, k⟩ := c
  obtain ⟨r', w', o', k'⟩ := d
  simp only at h1 h2 h3
  subst h1 h2 h3
  rfl

theorem avx_scratch : EvalIsScratch avxBackend (fun b => 0 < b.cfg.nLits) := by
  intro b y hb
  have hs := fun c => avxEvalClause_spec b.cfg y c hb
  have e1 : ∀ x, (b.clauses.map (avxEvalClause b.cfg y)).map (avxSetClause b.cfg x) =
      b.clauses.map (avxSetClause b.cfg x) := by
    intro x
    rw [List.map_map]
    apply List.map_congr_left
    intro c _
    exact avxSetClause_ext _ _ _ _ (hs c).2.2.1 (hs c).2.2.2.1 (hs c).2.2.2.2
  have e2 : ∀ x, (b.clauses.map (avxEvalClause b.cfg y)).map (avxEvalClause b.cfg x) =
      b.clauses.map (avxEvalClause b.cfg x) := by
    intro x
    rw [List.map_map]
    apply List.map_congr_left
    intro c _
    exact avxEvalClause_ext _ _ _ _ (hs c).2.2.1 (hs c).2.2.2.1 (hs c).2.2.2.2
  refine ⟨hb, fun x => ?_, fun x => ?_⟩
  · simp only [avxBackend, VBlock.apply, e1]
  · simp only [avxBackend, VBlock.apply, e2]

/-! ### Epochs -/

theorem trainIndices_eq {B E : Type} (be : Backend B E) (smp : List Rat → Rat → Nat) (data : List (E × Nat))
    (is : List Nat) (e : Exec B) :
    Exec.trainIndices be smp data is e = trainAll be smp (is.filterMap fun i => data[i]?) e := by
  induction is generalizing e with
  | nil => rfl
  | cons i is ih =>
    rw [Exec.trainIndices]
    cases h : data[i]? with
    | none => simp [h, ih]
    | some d => simp [h, ih, trainAll]

theorem filterMap_range {α : Type} (l : List α) : (List.range l.length).filterMap (fun i => l[i]?) = l := by
  induction l with
  | nil => rfl
  | cons a l ih =>
    rw [List.length_cons, List.range_succ_eq_map, List.filterMap_cons]
    simp only [List.getElem?_cons_zero, List.filterMap_map]
    congr 1

theorem trainAll_index {B E : Type} (be : Backend B E) (smp : List Rat → Rat → Nat) (ds : List (E × Nat))
    (e : Exec B) : (trainAll be smp ds e).index = e.index := by
  induction ds generalizing e with
  | nil => rfl
  | cons d ds ih => exact (ih _).trans rfl

theorem trainAll_append {B E : Type} (be : Backend B E) (smp : List Rat → Rat → Nat)
    (a b : List (E × Nat)) (e : Exec B) :
    trainAll be smp (a ++ b) e = trainAll be smp b (trainAll be smp a e) := by
  simp [trainAll]

theorem trainAll_counts {B E : Type} {be : Backend B E} {n : Nat} {P : B → Prop} (hk : Keeps be n P)
    (smp : List Rat → Rat → Nat) (ds : List (E × Nat)) (e : Exec B) (h : Ready n P e) :
    (trainAll be smp ds e).fb.total = e.fb.total + ds.length ∧
    (trainAll be smp ds e).fb.correct = e.fb.correct + hits be smp ds e := by
  induction ds generalizing e with
  | nil => exact ⟨rfl, rfl⟩
  | cons d ds ih =>
    have hr := round_votes (be.trainExample · d.1) be.votes e.blocks e.fb
      (by rw [h.fbClasses, h.fbVotes]) (fun b hb => by
        rw [h.fbClasses]; exact (hk.train b d.1 (h.blocks b hb)).2)
    have hfr := exampleLoop_frame (be.trainExample · d.1) be.votes e.blocks e.fb.reset
    obtain ⟨a, b⟩ := ih _ (ready_train hk smp e d.1 d.2 h)
    have hne : (exampleLoop (be.trainExample · d.1) be.votes e.blocks e.fb.reset).2.votes ≠ [] := by
      intro h0
      have := hr.1
      rw [h0, h.fbVotes] at this
      have := h.classes
      simp at *
      omega
    have hproc : ((e.trainOne be smp d.1 d.2).fb.correct = e.fb.correct +
        (if (exampleLoop (be.trainExample · d.1) be.votes e.blocks e.fb.reset).2.predict = d.2
          then 1 else 0)) ∧ (e.trainOne be smp d.1 d.2).fb.total = e.fb.total + 1 := by
      have hp : argmaxLoop (exampleLoop (be.trainExample · d.1) be.votes e.blocks e.fb.reset).2.votes 0 0
          ((exampleLoop (be.trainExample · d.1) be.votes e.blocks e.fb.reset).2.votes.headD 0) =
          (exampleLoop (be.trainExample · d.1) be.votes e.blocks e.fb.reset).2.predict := by
        cases hv : (exampleLoop (be.trainExample · d.1) be.votes e.blocks e.fb.reset).2.votes with
        | nil => exact absurd hv hne
        | cons v vs => simp [FB.predict, hv, argmaxLoop]
      have hc : (exampleLoop (be.trainExample · d.1) be.votes e.blocks e.fb.reset).2.correct =
          e.fb.correct := by rw [hfr]; rfl
      have ht : (exampleLoop (be.trainExample · d.1) be.votes e.blocks e.fb.reset).2.total =
          e.fb.total := by rw [hfr]; rfl
      constructor
      · simp only [Exec.trainOne, FB.process, hp, hc]
        split <;> rfl
      · simp only [Exec.trainOne, FB.process, ht]
    have hl := predict_lowestMax _ hne
    have hiff : ((exampleLoop (be.trainExample · d.1) be.votes e.blocks e.fb.reset).2.predict = d.2) ↔
        LowestMax (trainVotes be e d.1) d.2 := by
      constructor
      · intro h'; rw [← h']; exact hl
      · intro h'; exact lowestMax_unique hl h'
    have t0 : trainAll be smp (d :: ds) e = trainAll be smp ds (e.trainOne be smp d.1 d.2) := rfl
    rw [t0, a, b, hproc.1, hproc.2, hits]
    refine ⟨by simp only [List.length_cons]; omega, ?_⟩
    by_cases hh : LowestMax (trainVotes be e d.1) d.2
    · rw [if_pos (hiff.mpr hh), if_pos hh]; omega
    · rw [if_neg (fun h => hh (hiff.mp h)), if_neg hh]; omega

end GT

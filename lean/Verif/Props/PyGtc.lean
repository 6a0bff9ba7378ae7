import Verif.Model.PyGtc
import Verif.Props.Dense
import Verif.Props.Feedback

/-!
# The pure-Python implementation: C47
-/

namespace GT
open Spec

/-! ### Clause outputs -/

theorem pySetLoop_eq (bud : Bool) (ps qs : List Int) (xs : List Nat) (pc nc : Nat) :
    pySetLoop bud ps qs xs (pc + nc) =
      ((setOutLoop bud ps qs xs pc nc).1, (setOutLoop bud ps qs xs pc nc).2.1 + (setOutLoop bud ps qs xs pc nc).2.2) := by
  induction ps generalizing qs xs pc nc with
  | nil => simp [pySetLoop, setOutLoop]
  | cons p ps ih =>
    match qs, xs with
    | [], _ => simp [pySetLoop, setOutLoop]
    | _ :: _, [] => simp [pySetLoop, setOutLoop]
    | q :: qs, x :: xs =>
      have i1 := ih qs xs pc nc
      have i2 := ih qs xs (pc + 1) nc
      have i3 := ih qs xs pc (nc + 1)
      have i4 := ih qs xs (pc + 1) (nc + 1)
      simp only [pySetLoop, setOutLoop]
      by_cases h1 : p ≥ 0 ∧ x = 0
      · simp [h1]
      · simp only [h1, if_false]
        have ea : pc + nc + 1 = pc + 1 + nc := by omega
        have eb : pc + 1 + nc + 1 = pc + 1 + (nc + 1) := by omega
        have ec : pc + nc + 1 = pc + (nc + 1) := by omega
        split_ifs <;> grind

/-- **C47**, training output: for the same states, example and budget, the pure-Python code and the portable C++ code give
a clause the same output and the same literal count. -/
theorem C47_train_output (cfg : Cfg) (x : List Nat) (c : Clause) :
    pySetClause cfg.budget x c = setOutClause cfg x c := by
  have h := pySetLoop_eq cfg.budget.isSome c.pos c.neg x 0 0
  rw [Nat.zero_add] at h
  unfold pySetClause setOutClause
  rw [h]

theorem pyEvalLoop_eq (ps qs : List Int) (xs : List Nat) (e : Bool) (hp : ∀ v ∈ ps, v ≠ 0) (hq : ∀ v ∈ qs, v ≠ 0) :
    pyEvalLoop ps qs xs e = evalOutLoop ps qs xs e := by
  induction ps generalizing qs xs e with
  | nil => simp [pyEvalLoop, evalOutLoop]
  | cons p ps ih =>
    match qs, xs, hq with
    | [], _, _ => simp [pyEvalLoop, evalOutLoop]
    | _ :: _, [], _ => simp [pyEvalLoop, evalOutLoop]
    | q :: qs, x :: xs, hq =>
      have h1 : p > 0 ↔ p ≥ 0 := by have := hp p (by simp); omega
      have h2 : q > 0 ↔ q ≥ 0 := by have := hq q (by simp); omega
      simp only [pyEvalLoop, evalOutLoop, h1, h2]
      rw [ih qs xs _ (fun v hv => hp v (by simp [hv])) (fun v hv => hq v (by simp [hv]))]

/-- **C47**, evaluation output: equal to the C++ output for clauses without a state equal to zero. In general it is not:
see `C47_zero_state_differs`. -/
theorem C47_eval_output_partial (x : List Nat) (c : Clause) (hp : ∀ v ∈ c.pos, v ≠ 0) (hq : ∀ v ∈ c.neg, v ≠ 0) :
    pyEvalClause x c = evalOutClause x c := by
  unfold pyEvalClause evalOutClause
  rw [pyEvalLoop_eq _ _ _ _ hp hq]

theorem pyEvalLoop_shift (ps qs : List Int) (xs : List Nat) (e : Bool) :
    pyEvalLoop ps qs xs e = evalOutLoop (ps.map (· - 1)) (qs.map (· - 1)) xs e := by
  induction ps generalizing qs xs e with
  | nil => simp [pyEvalLoop, evalOutLoop]
  | cons p ps ih =>
    match qs, xs with
    | [], _ => simp [pyEvalLoop, evalOutLoop]
    | _ :: _, [] => simp [pyEvalLoop, evalOutLoop]
    | q :: qs, x :: xs =>
      have h1 : p > 0 ↔ p - 1 ≥ 0 := by omega
      have h2 : q > 0 ↔ q - 1 ≥ 0 := by omega
      simp only [pyEvalLoop, evalOutLoop, List.map_cons, h1, h2, ih]

/-- **C47**, what the Python evaluation computes: it is the C++ evaluation of the clause with all states lowered by one, so
that a literal takes part when its state is positive, and a clause without such a literal does not fire. -/
theorem C47_eval_is_strict (x : List Nat) (c : Clause) :
    (pyEvalClause x c).out = (evalOutClause x { c with pos := c.pos.map (· - 1), neg := c.neg.map (· - 1) }).out := by
  unfold pyEvalClause evalOutClause
  rw [pyEvalLoop_shift]

/-- **C47 fails**: with a state of zero, which is included in C++ and in the Python code's own training, the Python
evaluation leaves the literal out. Here the clause `x0 ∧ x1` fires on `x = (1, 0)`, and the clause `x0` never fires. -/
theorem C47_zero_state_differs :
    (∃ (x : List Nat) (c : Clause), Binary x ∧ Shaped x.length c ∧ InRange c.pos ∧ InRange c.neg ∧
      (pyEvalClause x c).out = 1 ∧ (evalOutClause x c).out = 0 ∧ ¬ Satisfied c.pos c.neg x) ∧
    (∃ c : Clause, ∀ x : List Nat, Binary x → Shaped x.length c → x.head? = some 1 →
      (pyEvalClause x c).out = 0 ∧ (evalOutClause x c).out = 1) := by
  refine ⟨⟨[1, 0], ⟨[5, 0], [-1, -1], [], 0, 0⟩, by decide, by simp [Shaped], ?_, ?_, by decide, by decide, ?_⟩,
    ⟨[0], [-1], [], 0, 0⟩, ?_⟩
  · unfold InRange; decide
  · unfold InRange; decide
  · intro h
    have := h.1 1 ⟨0, rfl, le_refl _⟩
    simp at this
  · intro x hx hs h1
    match x, hs, h1 with
    | [], hs, _ => simp [Shaped] at hs
    | [a], _, h1 =>
      simp at h1
      subst h1
      exact ⟨by decide, by decide⟩
    | _ :: _ :: _, hs, _ => simp [Shaped] at hs

/-! ### Feedback -/

/-- **C47**: the three kinds of feedback change a clause's states as in C++ (without boosting) given the same draws. -/
theorem C47_feedback (s : Rat) (cfg : Cfg) (hb : cfg.boost = false) (h1 : cfg.sInv = 1 / s) (h2 : cfg.sMin1Inv = (s - 1) / s)
    (ps qs : List Int) (x : List Nat) (g : Rng) :
    pyT1a s ps qs x g = t1a cfg ps qs x g ∧ pyT1b s ps qs g = t1b cfg ps qs g ∧ pyT2 ps qs x = t2 ps qs x := by
  have hi : ∀ (b : Prop) [Decidable b] (v : Int), (if b ∧ v < 127 then wrap8 (v + 1) else v) = if b then incState v else v := by
    intro b _ v; unfold incState; by_cases hb : b <;> simp [hb]
  have hd : ∀ (b : Prop) [Decidable b] (v : Int), (if b ∧ v > -127 then wrap8 (v - 1) else v) = if b then decState v else v := by
    intro b _ v; unfold decState; by_cases hb : b <;> simp [hb]
  refine ⟨?_, ?_, ?_⟩
  · induction ps generalizing qs x g with
    | nil => simp [pyT1a, t1a]
    | cons p ps ih =>
      match qs, x with
      | [], _ => simp [pyT1a, t1a]
      | _ :: _, [] => simp [pyT1a, t1a]
      | q :: qs, a :: x =>
        simp only [pyT1a, t1a, hi, hd, hb, h1, h2, ih, Bool.false_eq_true, if_false]
  · induction ps generalizing qs g with
    | nil => simp [pyT1b, t1b]
    | cons p ps ih =>
      match qs with
      | [] => simp [pyT1b, t1b]
      | q :: qs => simp only [pyT1b, t1b, hd, h1, ih]
  · induction ps generalizing qs x with
    | nil => simp [pyT2, t2]
    | cons p ps ih =>
      match qs, x with
      | [], _ => simp [pyT2, t2]
      | _ :: _, [] => simp [pyT2, t2]
      | q :: qs, a :: x => simp only [pyT2, t2, ih]

/-- **C47**: one update of a clause is the C++ update while the weight concerned is strictly inside the 8-bit range. -/
theorem C47_update_partial (s : Rat) (cfg : Cfg) (hb : cfg.boost = false) (h1 : cfg.sInv = 1 / s) (h2 : cfg.sMin1Inv = (s - 1) / s)
    (x : List Nat) (j : Nat) (target : Int) (c : Clause) (g : Rng) (hw : -128 < c.w.getD j 0) (hw' : c.w.getD j 0 < 127) :
    pyUpdateClause s x j target c g = clauseUpdate cfg x j target c g := by
  obtain ⟨-, -, e3⟩ := C47_feedback s cfg hb h1 h2 c.pos c.neg x g
  have e1 := (C47_feedback s cfg hb h1 h2 c.pos c.neg x g).1
  have e2 := (C47_feedback s cfg hb h1 h2 c.pos c.neg x g).2.1
  unfold pyUpdateClause clauseUpdate
  rw [e1, e2, e3]
  generalize c.w.getD j 0 = w at *
  have hs : ∀ sign : Int, sign = 1 ∨ sign = -1 → wrap8 (w + sign) = wrap16 (w + sign) ∧ wrap8 (w - sign) = wrap16 (w - sign) := by
    intro sign hsg
    unfold wrap8 wrap16
    rcases hsg with rfl | rfl <;> constructor <;> omega
  have hsg : (if w ≥ 0 then (1 : Int) else -1) = 1 ∨ (if w ≥ 0 then (1 : Int) else -1) = -1 := by split <;> simp
  dsimp only
  rw [(hs _ hsg).1, (hs _ hsg).2]

/-- **C47 fails**: a weight of 127 that is reinforced becomes -128: the clause from then on votes against the class.
In C++ it becomes 128. -/
theorem C47_weight_wraps (s : Rat) (x : List Nat) (c : Clause) (g : Rng) (j : Nat) (ho : c.out = 1)
    (hj : c.w[j]? = some 127) :
    (pyUpdateClause s x j 1 c g).1.w[j]? = some (-128) ∧ ∀ cfg, (clauseUpdate cfg x j 1 c g).1.w[j]? = some 128 := by
  have hjl : j < c.w.length := (List.getElem?_eq_some_iff.mp hj).1
  have hd : c.w.getD j 0 = 127 := by rw [List.getD_eq_getElem?_getD, hj]; rfl
  constructor
  · unfold pyUpdateClause
    rw [hd]
    simp [ho, hjl, wrap8]
  · intro cfg
    unfold clauseUpdate
    rw [hd]
    simp [ho, hjl, wrap16]

/-- **C47**: states stay between -127 and 127 through any update. -/
theorem C47_states_in_range (budget : Option Nat) (s : Rat) (x : List Nat) (fb : Feedback) (cs : List Clause) (g : Rng)
    (h : ∀ c ∈ cs, InRange c.pos ∧ InRange c.neg) :
    ∀ c ∈ (pyTrainClauses budget s x fb cs g).1, InRange c.pos ∧ InRange c.neg := by
  have hup : ∀ (j : Nat) (t : Int) (c : Clause) (g : Rng), InRange c.pos ∧ InRange c.neg →
      InRange (pyUpdateClause s x j t c g).1.pos ∧ InRange (pyUpdateClause s x j t c g).1.neg := by
    intro j t c g hc
    -- the states do not depend on the weights' width
    let cfg : Cfg := ⟨none, false, 1 / s, (s - 1) / s⟩
    obtain ⟨e1, e2, e3⟩ := C47_feedback s cfg rfl rfl rfl c.pos c.neg x g
    have hcpp := clauseUpdate_inRange cfg x j t c g hc.1 hc.2
    have hp : (pyUpdateClause s x j t c g).1.pos = (clauseUpdate cfg x j t c g).1.pos ∧
        (pyUpdateClause s x j t c g).1.neg = (clauseUpdate cfg x j t c g).1.neg := by
      unfold pyUpdateClause clauseUpdate
      rw [e1, e2, e3]
      dsimp only
      constructor <;> split_ifs <;> rfl
    rw [hp.1, hp.2]
    exact hcpp
  have hite : ∀ (p : Prop) [Decidable p] (a b : Clause × Rng), (InRange a.1.pos ∧ InRange a.1.neg) →
      (InRange b.1.pos ∧ InRange b.1.neg) → InRange (if p then a else b).1.pos ∧ InRange (if p then a else b).1.neg := by
    intro p _ a b ha hb
    split
    · exact ha
    · exact hb
  have hstep : ∀ (c : Clause) (g : Rng), InRange c.pos ∧ InRange c.neg →
      InRange (pyTrainClause budget s x fb c g).1.pos ∧ InRange (pyTrainClause budget s x fb c g).1.neg := by
    intro c g hc
    unfold pyTrainClause
    have h0 : ∀ c0 : Clause, InRange c0.pos ∧ InRange c0.neg →
        InRange (if g.next.1 < fb.posProb then pyUpdateClause s x fb.posClass 1 c0 g.next.2 else (c0, g.next.2)).1.pos ∧
        InRange (if g.next.1 < fb.posProb then pyUpdateClause s x fb.posClass 1 c0 g.next.2 else (c0, g.next.2)).1.neg :=
      fun c0 h0 => hite _ _ _ (hup _ _ _ _ h0) h0
    cases budget with
    | none => exact hite _ _ _ (hup _ _ _ _ (h0 _ hc)) (h0 _ hc)
    | some b =>
      by_cases hb : c.cnt > b
      · simp only [hb, if_true]
        exact hite _ _ _ (hup _ _ _ _ (h0 _ hc)) (h0 _ hc)
      · simp only [hb, if_false]
        exact hite _ _ _ (hup _ _ _ _ (h0 _ hc)) (h0 _ hc)
  induction cs generalizing g with
  | nil => intro c hc; simp [pyTrainClauses] at hc
  | cons c cs ih =>
    intro c' hc'
    simp only [pyTrainClauses, List.mem_cons] at hc'
    rcases hc' with rfl | hc'
    · exact hstep _ _ (h c (by simp))
    · exact ih _ (fun c hc => h c (by simp [hc])) c' hc'

/-! ### Votes and predictions -/

theorem pyVotes_eq (n : Nat) (cs : List Clause) (hw : ∀ c ∈ cs, c.w.length = n) (ho : ∀ c ∈ cs, c.out = 0 ∨ c.out = 1) :
    pyVotes n cs = countVotes n cs := by
  apply List.ext_getElem?
  intro k
  have hs : (cs.map fun c => (c.out : Int) * c.w.getD k 0).sum = voteSum cs k := by
    clear hw
    induction cs with
    | nil => rfl
    | cons c cs ih =>
      have := ih (fun c hc => ho c (by simp [hc]))
      unfold voteSum at this ⊢
      rcases ho c (by simp) with h | h
      · simp only [List.map_cons, List.sum_cons, h, this]; simp [h]
      · simp only [List.map_cons, List.sum_cons, h, this]; simp [h]
  by_cases hk : k < n
  · rw [C13_votes_mod n cs hw k hk]
    simp only [pyVotes, List.getElem?_map, List.getElem?_range hk, Option.map_some, hs]
  · have h1 := C13_votes_length n cs hw
    have h2 : (pyVotes n cs).length = n := by simp [pyVotes]
    rw [List.getElem?_eq_none (by omega), List.getElem?_eq_none (by omega)]

/-- **C47**: for the same outputs and weights the votes are the same. -/
theorem C47_votes (n : Nat) (cs : List Clause) (hw : ∀ c ∈ cs, c.w.length = n) (ho : ∀ c ∈ cs, c.out = 0 ∨ c.out = 1) :
    pyVotes n cs = countVotes n cs := pyVotes_eq n cs hw ho

theorem argmaxLoop_head (v : Int) (vs : List Int) : argmaxLoop (v :: vs) 0 0 v = argmaxLoop vs 1 0 v := by
  simp [argmaxLoop]

/-- **C47**: for the same votes the predicted class is the same. -/
theorem C47_predict (fb : FB) (hv : fb.votes.length = fb.nClasses) (hn : fb.votes ≠ []) : pyPredict fb = fb.predict := by
  unfold pyPredict FB.predict
  rw [List.take_of_length_le (by omega)]
  cases h : fb.votes with
  | nil => exact absurd h hn
  | cons v vs => exact argmaxLoop_head v vs

/-- **C47**, one block: if no state is zero, the class predicted for an example is the one the C++ executor predicts from
the same states and weights. -/
theorem C47_one_block_prediction_partial (pe : PyExec) (e : Exec DBlock) (pb : PyBlock) (b : DBlock) (x : List Nat)
    (h1 : pe.blocks = [pb]) (h2 : e.blocks = [b]) (hc : pb.clauses = b.clauses) (hn : pb.nClasses = b.nClasses)
    (hpf : pe.fb.nClasses = b.nClasses) (hf : e.fb.nClasses = b.nClasses) (hfv : e.fb.votes.length = b.nClasses)
    (hpos : 0 < b.nClasses) (hx : Binary x) (hsh : ∀ c ∈ b.clauses, Shaped x.length c ∧ c.w.length = b.nClasses)
    (hz : ∀ c ∈ b.clauses, (∀ v ∈ c.pos, v ≠ 0) ∧ ∀ v ∈ c.neg, v ≠ 0) :
    (pe.evalOne x).2 = (e.evalOne denseBackend x).2 := by
  have hcl : b.clauses.map (pyEvalClause x) = b.clauses.map (evalOutClause x) :=
    List.map_congr_left fun c hcm => C47_eval_output_partial x c (hz c hcm).1 (hz c hcm).2
  have hvot : pyVotes b.nClasses (b.clauses.map (evalOutClause x)) = countVotes b.nClasses (b.clauses.map (evalOutClause x)) := by
    apply pyVotes_eq
    · intro c hcm
      simp only [List.mem_map] at hcm
      obtain ⟨c0, hc0, rfl⟩ := hcm
      exact (hsh c0 hc0).2
    · intro c hcm
      simp only [List.mem_map] at hcm
      obtain ⟨c0, hc0, rfl⟩ := hcm
      exact (C05_eval_output x c0 hx (hsh c0 hc0).1).2
  have hlen : (countVotes b.nClasses (b.clauses.map (evalOutClause x))).length = b.nClasses := by
    apply C13_votes_length
    intro c hcm
    simp only [List.mem_map] at hcm
    obtain ⟨c0, hc0, rfl⟩ := hcm
    exact (hsh c0 hc0).2
  have hid : (List.replicate b.nClasses (0 : Int)).zipWith (fun a b => wrap16 (a + b))
      (countVotes b.nClasses (b.clauses.map (evalOutClause x))) = countVotes b.nClasses (b.clauses.map (evalOutClause x)) := by
    apply List.ext_getElem?
    intro k
    by_cases hk : k < b.nClasses
    · have hm := C13_votes_mod b.nClasses (b.clauses.map (evalOutClause x)) (by
        intro c hcm
        simp only [List.mem_map] at hcm
        obtain ⟨c0, hc0, rfl⟩ := hcm
        exact (hsh c0 hc0).2) k hk
      rw [List.getElem?_zipWith, hm]
      simp [hk, wrap16]
    · rw [List.getElem?_eq_none (by simp; omega), List.getElem?_eq_none (by omega)]
  simp only [PyExec.evalOne, Exec.evalOne, h1, h2, pyExampleLoop, exampleLoop, PyBlock.apply, denseBackend, DBlock.apply,
    DBlock.countVotes, DBlock.evalSetOutput, hc, hn, hcl, hvot]
  rw [C47_predict]
  · simp only [FB.predict, pyRegister, FB.register, FB.reset, hf, hfv]
    rw [List.take_of_length_le (by simp), List.drop_of_length_le (by simp), hid, List.append_nil]
  · simp only [pyRegister, pyReset, hlen, hpf]
  · simp only [pyRegister]
    intro hc
    rw [hc] at hlen
    simp at hlen
    omega

/-- **C47 fails** with several blocks: only the votes of the last block count. -/
theorem C47_last_block_only (pe : PyExec) (bs : List PyBlock) (b : PyBlock) (x : List Nat) (h : pe.blocks = bs ++ [b]) :
    (pe.evalOne x).1.fb.votes = (b.apply (.evalExample x)).votes := by
  simp only [PyExec.evalOne, h]
  generalize pyReset pe.fb = fb
  clear h
  induction bs generalizing fb with
  | nil => rfl
  | cons a bs ih => exact ih _

def exPyBlock (w : Int) : PyBlock := ⟨2, none, 3, [⟨[5], [-1], [-w, w], 0, 0⟩], [0, 0], ⟨fun _ => 1 / 2, 0⟩⟩
def exCppBlock (w : Int) : DBlock := ⟨1, 2, ⟨none, false, 1 / 3, 2 / 3⟩, [⟨[5], [-1], [-w, w], 0, 0⟩], [0, 0],
  ⟨fun _ => 1 / 2, 0⟩, ⟨fun _ => 1 / 2, 0⟩⟩
def exPyFB : FB := FB.new 2 5 ⟨fun _ => 1 / 2, 0⟩

theorem pyArgmax_eq (vs : List Int) (k bk : Nat) (bv : Int) : pyArgmax vs k bk bv = argmaxLoop vs k bk bv := by
  induction vs generalizing k bk bv with
  | nil => rfl
  | cons v vs ih =>
    have hc : ((v : Rat) > bv) ↔ v > bv := by exact_mod_cast Iff.rfl
    simp only [pyArgmax, argmaxLoop, hc, ih]

theorem pyArgmax_above (vs : List Int) (k bk : Nat) (bv : Rat) (b0 : Nat) (v0 : Int) (h : ∃ v ∈ vs, (v : Rat) > bv)
    (h0 : (v0 : Rat) ≤ bv) : pyArgmax vs k bk bv = argmaxLoop vs k b0 v0 := by
  induction vs generalizing k bk bv b0 v0 with
  | nil => simp at h
  | cons v vs ih =>
    unfold pyArgmax argmaxLoop
    by_cases hv : (v : Rat) > bv
    · have : v > v0 := by
        have : (v0 : Rat) < v := lt_of_le_of_lt h0 hv
        exact_mod_cast this
      rw [if_pos hv, if_pos this]
      exact pyArgmax_eq _ _ _ _
    · have h' : ∃ v ∈ vs, (v : Rat) > bv := by
        obtain ⟨u, hu, hub⟩ := h
        rcases List.mem_cons.mp hu with rfl | hu
        · exact absurd hub hv
        · exact ⟨u, hu, hub⟩
      rw [if_neg hv]
      by_cases hv0 : v > v0
      · rw [if_pos hv0]
        exact ih _ _ _ _ _ h' (not_lt.mp hv)
      · rw [if_neg hv0]
        exact ih _ _ _ _ _ h' h0

theorem pyArgmax_head (vs : List Int) (bv : Rat) (h : ∃ v ∈ vs, (v : Rat) > bv) :
    pyArgmax vs 0 0 bv = argmaxLoop vs 0 0 (vs.headD 0) := by
  cases vs with
  | nil => simp at h
  | cons v vs =>
    simp only [List.headD_cons]
    rw [argmaxLoop_head]
    unfold pyArgmax
    by_cases hv : (v : Rat) > bv
    · rw [if_pos hv]; exact pyArgmax_eq _ _ _ _
    · rw [if_neg hv]
      obtain ⟨u, hu, hub⟩ := h
      rcases List.mem_cons.mp hu with rfl | hu
      · exact absurd hub hv
      · exact pyArgmax_above _ _ _ _ _ _ ⟨u, hu, hub⟩ (not_lt.mp hv)

/-- **C47**: if some class has more than minus the threshold votes, one training example is scored as in C++, the classes
and the probability for the negative class are those of C++ for the same draw, and the probability for the positive class
is larger by `1e-16`. Without such a class the score differs: `C47_accuracy_differs`. -/
theorem C47_process_partial (smp : List Rat → Rat → Nat) (fb : FB) (label : Nat) (hn : fb.votes.length = fb.nClasses)
    (h : ∃ v ∈ fb.votes, (v : Rat) > -fb.threshold) :
    (pyProcess smp fb label) =
      { fb.process smp label with posProb := (fb.process smp label).posProb + 1 / 10 ^ 16 } := by
  simp only [pyProcess, FB.process]
  rw [List.take_of_length_le (by omega), pyArgmax_head _ _ h]

example : ∃ v ∈ ([-5, 1] : List Int), (v : Rat) > -2 := ⟨1, by simp, by norm_num⟩

/-- **C47**: no budget and the budget 32700 mean none; other budgets are kept. -/
theorem C47_budget (b : Option Nat) : pyBudget b = if b = some 32700 then none else b := by
  cases b with
  | none => rfl
  | some v => by_cases h : v = 32700 <;> simp [pyBudget, h]

/-- **C47 fails** with several blocks: predictions differ from C++. -/
theorem C47_two_blocks_differ :
    ((⟨exPyFB, [exPyBlock 4, exPyBlock (-1)]⟩ : PyExec).evalOne [1]).2 = 0 ∧
    ((⟨exPyFB, [exCppBlock 4, exCppBlock (-1)], []⟩ : Exec DBlock).evalOne denseBackend [1]).2 = 1 := by
  decide +kernel

/-- Both agree on one block, as `C47_one_block_prediction_partial` says. -/
example : ((⟨exPyFB, [exPyBlock 4]⟩ : PyExec).evalOne [1]).2 = ((⟨exPyFB, [exCppBlock 4], []⟩ : Exec DBlock).evalOne denseBackend [1]).2 :=
  C47_one_block_prediction_partial ⟨exPyFB, [exPyBlock 4]⟩ ⟨exPyFB, [exCppBlock 4], []⟩ (exPyBlock 4) (exCppBlock 4) [1] rfl rfl rfl rfl
    rfl rfl rfl (by decide) (by decide) (by simp [exCppBlock, Shaped]) (by simp [exCppBlock])

/-- A weight the update reinforces, within the 8-bit range and at its end. -/
example : (pyUpdateClause 3 [1] 0 1 ⟨[5], [-1], [126], 1, 0⟩ ⟨fun _ => 1 / 2, 0⟩).1.w = [127] ∧
    (pyUpdateClause 3 [1] 0 1 ⟨[5], [-1], [127], 1, 0⟩ ⟨fun _ => 1 / 2, 0⟩).1.w = [-128] := by decide +kernel

/-- States at the bounds stay there. -/
example : (pyUpdateClause 3 [1, 0] 0 1 ⟨[127, -127], [-127, 127], [1], 1, 0⟩ ⟨fun _ => 0, 0⟩).1.pos = [127, -127] := by
  decide +kernel

/-! ### Training accuracy, threads and labels -/

/-- **C47 fails**: when no class has more than minus the threshold votes, the Python code counts class 0 as its prediction
for the training accuracy, although it would predict another class. -/
theorem C47_accuracy_differs (smp : List Rat → Rat → Nat) (fb : FB) (hT : fb.threshold = 2) (hv : fb.votes = [-5, -3])
    (hn : fb.nClasses = 2) :
    (pyProcess smp fb 1).correct = fb.correct ∧ (fb.process smp 1).correct = fb.correct + 1 ∧ pyPredict fb = 1 := by
  refine ⟨?_, ?_, ?_⟩
  · have : pyArgmax [-5, -3] 0 0 (-2) = 0 := by decide +kernel
    simp [pyProcess, hT, hv, hn, this]
  · have : argmaxLoop [-5, -3] 0 0 (-5) = 1 := by decide +kernel
    simp [FB.process, hv, this]
  · rw [C47_predict fb (by simp [hv, hn]) (by simp [hv])]
    unfold FB.predict
    rw [hv]
    decide +kernel

/-- **C47 fails**: the multi-threaded Python executor does not train at all. -/
theorem C47_threads_do_not_train (e : PyExec) (data : List (List Nat × Nat)) :
    (e.trainEpochMulti data).1.blocks = e.blocks ∧ (e.trainEpochMulti data).2 = 0 := ⟨rfl, by
  simp [PyExec.trainEpochMulti, FB.resetCounter, FB.accuracy]⟩

/-- **C47**, one label per example: the example prepared is the one asked for. -/
theorem C47_prepare_partial {E L : Type} (data : List E) (labels : List L) (i : Nat) (x : E) (l : L)
    (h1 : data[i]? = some x) (h2 : labels[i]? = some l) : pyPrepare data labels 1 i = .ok (x, l) := by
  simp [pyPrepare, h1, h2]

/-- **C47 fails** for several labels per example: example `m * i` is used for example `i`, or none. -/
theorem C47_prepare_multi {E L : Type} (data : List E) (labels : List L) (m i : Nat) (hl : labels.length = data.length) :
    (∀ x l, data[i * m]? = some x → labels[i * m]? = some l → pyPrepare data labels m i = .ok (x, l)) ∧
    (data.length ≤ i * m → pyPrepare data labels m i = .error .indexError) := by
  constructor
  · intro x l h1 h2; simp [pyPrepare, h1, h2]
  · intro h
    have : labels[i * m]? = none := List.getElem?_eq_none (by omega)
    simp [pyPrepare, this]

example : pyPrepare [10, 20, 30] [1, 2, 3] 2 1 = .ok (30, 3) ∧ pyPrepare [10, 20, 30] [1, 2, 3] 2 2 = .error .indexError :=
  ⟨rfl, rfl⟩

end GT

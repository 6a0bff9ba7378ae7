import Verif.Spec.SparseExec
import Verif.Lemmas.SparseTrain
import Verif.Lemmas.ExecutorDense

/-! # Helper lemmas: executors over sparse blocks -/

namespace GT
open Spec

theorem sTrainClauses_length (cfg : SCfg) (x : List Nat) (fb : Feedback) (cs : List SClause) (al : AL) (g : Rng) :
    (sTrainClauses cfg x fb cs al g).1.length = cs.length := by
  induction cs generalizing al g with
  | nil => rfl
  | cons c cs ih =>
    unfold sTrainClauses
    simp [ih]

theorem sTrainClause_w_length (cfg : SCfg) (x : List Nat) (fb : Feedback) (c : SClause) (al : AL) (g : Rng) :
    (sTrainClause cfg x fb c al g).1.w.length = c.w.length := by
  obtain ⟨i, _, h⟩ := sTrainClause_w cfg x fb c al g
  rw [h]
  dsimp only
  split <;> split <;> simp [bump_length]

theorem sCountVotes_length (n : Nat) (cs : List SClause) (hw : ∀ c ∈ cs, c.w.length = n) :
    (sCountVotes n cs).length = n := by
  rw [sCountVotes_dense n 0]
  apply C13_votes_length
  intro c hc
  obtain ⟨d, hd, rfl⟩ := List.mem_map.mp hc
  exact hw d hd

theorem sparse_keeps (n : Nat) : Keeps sparseBackend n (SparseBlockOK n) := by
  constructor
  · intro b x ⟨h1, h2⟩
    have hw : ∀ c ∈ b.clauses.map (sSetClause b.cfg x), c.w.length = n := by
      intro c hc
      obtain ⟨d, hd, rfl⟩ := List.mem_map.mp hc
      rw [(sSetClause_rows b.cfg x d).2.2]
      exact h2 d hd
    refine ⟨⟨h1, hw⟩, ?_⟩
    have := sCountVotes_length n _ hw
    simp only [sparseBackend, SBlock.apply, h1]
    omega
  · intro b x ⟨h1, h2⟩
    have hw : ∀ c ∈ b.clauses.map (sEvalClause x), c.w.length = n := by
      intro c hc
      obtain ⟨d, hd, rfl⟩ := List.mem_map.mp hc
      rw [(sEvalClause_rows x d).2.2.1]
      exact h2 d hd
    refine ⟨⟨h1, hw⟩, ?_⟩
    have := sCountVotes_length n _ hw
    simp only [sparseBackend, SBlock.apply, h1]
    omega
  · intro b x fb ⟨h1, h2⟩
    refine ⟨h1, ?_⟩
    intro c hc
    obtain ⟨i, hi, e⟩ := List.mem_iff_getElem.mp hc
    have hi' : i < b.clauses.length := by
      have := sTrainClauses_length b.cfg x fb b.clauses b.al b.fast
      simp only [sparseBackend, SBlock.apply] at hi
      omega
    obtain ⟨al', g', _, e'⟩ := sTrainClauses_get b.cfg x fb b.clauses b.al b.fast i _
      (List.getElem?_eq_getElem hi')
    have : some c = (sTrainClauses b.cfg x fb b.clauses b.al b.fast).1[i]? := by
      rw [← e]; exact (List.getElem?_eq_getElem hi).symm
    rw [e'] at this
    rw [Option.some.inj this, sTrainClause_w_length]
    exact h2 _ (List.getElem_mem _)

theorem sEvalClause_only_out (y : List Nat) (c : SClause) : ∃ o, sEvalClause y c = { c with out := o } := by
  unfold sEvalClause
  split
  · exact ⟨_, rfl⟩
  · exact ⟨_, rfl⟩

theorem sEvalClause_again (x y : List Nat) (c : SClause) : sEvalClause x (sEvalClause y c) = sEvalClause x c := by
  obtain ⟨o, h⟩ := sEvalClause_only_out y c
  rw [h]
  rfl

theorem sSetClause_after_eval (cfg : SCfg) (x y : List Nat) (c : SClause) :
    sSetClause cfg x (sEvalClause y c) = sSetClause cfg x c := by
  obtain ⟨o, h⟩ := sEvalClause_only_out y c
  rw [h]
  rfl

theorem sparse_scratch : EvalIsScratch sparseBackend (fun _ => True) := by
  intro b y _
  refine ⟨trivial, fun x => ?_, fun x => ?_⟩
  · have : sSetClause b.cfg x ∘ sEvalClause y = sSetClause b.cfg x :=
      funext fun c => sSetClause_after_eval b.cfg x y c
    simp only [sparseBackend, SBlock.apply, List.map_map, this]
  · have : sEvalClause x ∘ sEvalClause y = sEvalClause x := funext fun c => sEvalClause_again x y c
    simp only [sparseBackend, SBlock.apply, List.map_map, this]

theorem sFiringSum_cons (c : Half × Half × List Int) (cs : List (Half × Half × List Int))
    (x : List Nat) (k : Nat) [Decidable (SFires x c)] :
    sFiringSum (c :: cs) x k = (if SFires x c then c.2.2.getD k 0 else 0) + sFiringSum cs x k := by
  unfold sFiringSum
  by_cases h : SFires x c
  · simp [h]
  · simp [h]

theorem sFiringSum_append (a b : List (Half × Half × List Int)) (x : List Nat) (k : Nat) :
    sFiringSum (a ++ b) x k = sFiringSum a x k + sFiringSum b x k := by
  unfold sFiringSum
  simp

theorem sFiringSum_perm {a b : List (Half × Half × List Int)} (h : a.Perm b) (x : List Nat)
    (k : Nat) : sFiringSum a x k = sFiringSum b x k := by
  unfold sFiringSum
  exact List.Perm.sum_eq ((h.filter _).map _)

theorem sVoteSum_eval (cs : List SClause) (x : List Nat) (k : Nat) (hx : SortedEx x) :
    sVoteSum (cs.map (sEvalClause x)) k = sFiringSum (cs.map sLearned) x k := by
  induction cs with
  | nil => rfl
  | cons c cs ih =>
    have h := (sEvalClause_out x c hx).1
    classical
    rw [List.map_cons, List.map_cons, sFiringSum_cons, ← ih]
    have hw : (sEvalClause x c).w = c.w := (sEvalClause_rows x c).2.2.1
    unfold sVoteSum
    by_cases ho : (sEvalClause x c).out = 1
    · have hf : SFires x (sLearned c) := h.mp ho
      simp only [List.filter_cons, ho, hf]
      simp [sLearned, hw]
    · have hf : ¬ SFires x (sLearned c) := fun hf => ho (h.mpr hf)
      have hb : ((sEvalClause x c).out == 1) = false := by simpa using ho
      simp only [List.filter_cons, hb, hf]
      simp

theorem sparse_votes (n : Nat) (cs : List SClause) (hw : ∀ c ∈ cs, c.w.length = n) (k : Nat) (hk : k < n) :
    (sCountVotes n cs)[k]? = some (wrap16 (sVoteSum cs k)) := by
  rw [sCountVotes_dense n 0, C13_votes_mod n _ _ k hk, sVoteSum_dense]
  intro c hc
  obtain ⟨c', hc', rfl⟩ := List.mem_map.mp hc
  exact hw c' hc'

theorem sparse_eval_votes {n : Nat} (e : Exec SBlock) (x : List Nat) (h : SSetUp n e) (hx : SortedEx x) :
    (e.evalOne sparseBackend x).1.fb.votes = sModelVotes n (sModel e) x := by
  have hr := round_votes (sparseBackend.evalExample · x) sparseBackend.votes e.blocks e.fb
    (by rw [h.fbClasses, h.fbVotes]) (fun b hb => by
      rw [h.fbClasses]; exact ((sparse_keeps n).eval b x (h.blocks b hb)).2)
  apply List.ext_getElem?
  intro k
  show (exampleLoop (sparseBackend.evalExample · x) sparseBackend.votes e.blocks e.fb.reset).2.votes[k]? = _
  by_cases hk : k < n
  · rw [hr.2.1 k (by rw [h.fbClasses]; exact hk)]
    simp only [sModelVotes, List.getElem?_map, List.getElem?_range hk, Option.map_some]
    congr 1
    have : (e.blocks.map fun b => (sparseBackend.votes (sparseBackend.evalExample b x)).getD k 0) =
        (e.blocks.map fun b => sFiringSum (b.clauses.map sLearned) x k).map wrap16 := by
      rw [List.map_map]
      apply List.map_congr_left
      intro b hb
      obtain ⟨hn, hc⟩ := h.blocks b hb
      have hv := sparse_votes n (b.clauses.map (sEvalClause x)) (by
        intro c hc'
        obtain ⟨d, hd, rfl⟩ := List.mem_map.mp hc'
        rw [(sEvalClause_rows x d).2.2.1]
        exact hc d hd) k hk
      simp only [sparseBackend, SBlock.apply, hn, List.getD, hv, Option.getD_some, Function.comp]
      rw [sVoteSum_eval _ _ _ hx]
    rw [this, wrap16_sum]
    congr 1
    unfold sModel
    clear this hr h
    induction e.blocks with
    | nil => rfl
    | cons b bs ih => simp [ih, sFiringSum_append]
  · rw [List.getElem?_eq_none (by rw [hr.1, h.fbVotes]; omega),
      List.getElem?_eq_none (by simp [sModelVotes]; omega)]

theorem sparse_eval_model (e : Exec SBlock) (x : List Nat) : sModel (e.evalOne sparseBackend x).1 = sModel e := by
  simp only [sModel, Exec.evalOne, exampleLoop_blocks]
  induction e.blocks with
  | nil => rfl
  | cons b bs ih =>
    simp only [List.map_cons, List.flatMap_cons, List.map_append, ih]
    congr 1
    simp only [sparseBackend, SBlock.apply, List.map_map]
    apply List.map_congr_left
    intro c _
    have := sEvalClause_rows x c
    simp [sLearned, this]

end GT

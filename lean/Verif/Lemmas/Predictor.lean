import Verif.Spec.Predictor
import Verif.Lemmas.Ruleset

/-! # Helper lemmas about inference and the predictor -/

namespace GT
open Spec

theorem wrap32_add (a b : Int) : wrap32 (wrap32 a + b) = wrap32 (a + b) := by unfold wrap32; omega

theorem wrap32_id {a : Int} (h1 : -2147483648 ≤ a) (h2 : a ≤ 2147483647) : wrap32 a = a := by
  unfold wrap32; omega

theorem wrap32_zero : wrap32 0 = 0 := by decide

theorem wrap32_range (a : Int) : -2147483648 ≤ wrap32 a ∧ wrap32 a ≤ 2147483647 := by
  unfold wrap32; omega

/-! ### Rules -/

theorem lit_holds (x : List Nat) (hb : Binary x) (i : Nat) (hi : i < 2 * x.length) :
    (inferExample x).getD i 0 ≠ 0 ↔
      (i < x.length ∧ x[i]? = some 1) ∨ (x.length ≤ i ∧ x[i - x.length]? = some 0) := by
  unfold inferExample
  by_cases h : i < x.length
  · have := hb x[i] (List.getElem_mem h)
    simp only [List.getD, List.getElem?_append_left h, List.getElem?_eq_getElem h, Option.getD_some,
      Option.some.injEq]
    omega
  · have h' : i - x.length < x.length := by omega
    have := hb x[i - x.length] (List.getElem_mem h')
    simp only [List.getD, List.getElem?_append_right (show x.length ≤ i by omega), List.getElem?_map,
      List.getElem?_eq_getElem h', Option.map_some, Option.getD_some, Option.some.injEq]
    split <;> omega

theorem ruleHolds_iff (x : List Nat) (hb : Binary x) (r : List Nat) (hr : ∀ i ∈ r, i < 2 * x.length) :
    ruleHolds (inferExample x) r = true ↔ Matches x.length x r := by
  induction r with
  | nil => simp [ruleHolds, Matches]
  | cons l ls ih =>
    rw [ruleHolds]
    have hl := lit_holds x hb l (hr l (by simp))
    have ih' := ih (fun i hi => hr i (by simp [hi]))
    by_cases h : (inferExample x).getD l 0 = 0
    · simp only [h, if_true, Bool.false_eq_true, false_iff]
      intro hm
      exact hl.mpr (hm l (by simp)) h
    · simp only [h, if_false, ih']
      constructor
      · intro hm i hi
        rcases List.mem_cons.mp hi with rfl | hi
        · exact hl.mp h
        · exact hm i hi
      · intro hm i hi
        exact hm i (by simp [hi])

/-! ### Votes and active clauses -/

theorem inferLoop_votes (n : Nat) (x : List Nat) (hb : Binary x) (rs : List (List Nat)) (ws : List (List Int))
    (hr : ∀ r ∈ rs, ∀ i ∈ r, i < 2 * x.length) (k : Nat) (act : List Nat) (votes : List Int) (f : Nat → Int)
    (hv : votes = (List.range n).map fun i => wrap32 (f i)) :
    (inferLoop n (inferExample x) rs ws k act votes).2 =
      (List.range n).map fun i => wrap32 (f i + ruleSum x.length rs ws x i) := by
  classical
  induction rs generalizing ws k act votes f with
  | nil => rw [inferLoop]; simp [hv, ruleSum]; intro r rs w ws h; simp at h
  | cons r rs ih =>
    cases ws with
    | nil => rw [inferLoop]; simp [hv, ruleSum]; intro r rs w ws h; simp
    | cons w ws =>
      rw [inferLoop]
      have hm := ruleHolds_iff x hb r (hr r (by simp))
      by_cases h : ruleHolds (inferExample x) r = true
      · simp only [h, if_true]
        rw [ih ws (fun r' h' => hr r' (by simp [h'])) _ _ _ (fun i => f i + w.getD i 0)]
        · apply List.map_congr_left
          intro i _
          rw [ruleSum_cons, if_pos (hm.mp h)]
          congr 1; omega
        · apply List.map_congr_left
          intro i hi
          have hi' : i < n := List.mem_range.mp hi
          subst hv
          simp only [List.getD, List.getElem?_map, List.getElem?_range hi', Option.map_some, Option.getD_some]
          exact wrap32_add _ _
      · simp only [h, if_false, Bool.false_eq_true]
        rw [ih ws (fun r' h' => hr r' (by simp [h'])) _ _ _ f hv]
        apply List.map_congr_left
        intro i _
        rw [ruleSum_cons, if_neg (fun h' => h (hm.mpr h'))]
        congr 1; omega

/-- The rules and weights of the active clauses. -/
def pairs (rules : List (List Nat)) (weights : List (List Int)) (act : List Nat) : List (List Nat × List Int) :=
  act.map fun k => (rules.getD k [], weights.getD k [])

theorem inferLoop_active (n : Nat) (x : List Nat) (hb : Binary x) (rs : List (List Nat)) (ws : List (List Int))
    (hr : ∀ r ∈ rs, ∀ i ∈ r, i < 2 * x.length) (act : List Nat) (votes : List Int)
    (pr : List (List Nat)) (pw : List (List Int)) (hl : pr.length = pw.length) :
    pairs (pr ++ rs) (pw ++ ws) (inferLoop n (inferExample x) rs ws pr.length act votes).1 =
      pairs (pr ++ rs) (pw ++ ws) act ++
        (rs.zip ws).filter (fun r => decide (Matches x.length x r.1)) := by
  induction rs generalizing ws act votes pr pw with
  | nil => rw [inferLoop]; simp; intro r rs w ws h; simp at h
  | cons r rs ih =>
    cases ws with
    | nil => rw [inferLoop]; simp; intro r rs w ws h; simp
    | cons w ws =>
      rw [inferLoop]
      have hm := ruleHolds_iff x hb r (hr r (by simp))
      have e1 : pr ++ r :: rs = (pr ++ [r]) ++ rs := by simp
      have e2 : pw ++ w :: ws = (pw ++ [w]) ++ ws := by simp
      have e3 : pr.length + 1 = (pr ++ [r]).length := by simp
      rw [e1, e2, e3, List.zip_cons_cons, List.filter_cons]
      by_cases h : ruleHolds (inferExample x) r = true
      · simp only [h, if_true, hm.mp h, decide_true]
        rw [ih ws (fun r' h' => hr r' (by simp [h'])) _ _ (pr ++ [r]) (pw ++ [w]) (by simp [hl])]
        have : pairs (pr ++ [r] ++ rs) (pw ++ [w] ++ ws) (act ++ [pr.length]) =
            pairs (pr ++ [r] ++ rs) (pw ++ [w] ++ ws) act ++ [(r, w)] := by
          simp [pairs]
          rw [hl]; simp
        rw [this]; simp
      · have hnm : ¬ Matches x.length x r := fun h' => h (hm.mpr h')
        simp only [h, if_false, Bool.false_eq_true, hnm, decide_false]
        rw [ih ws (fun r' h' => hr r' (by simp [h'])) _ _ (pr ++ [r]) (pw ++ [w]) (by simp [hl])]

theorem inferBest_eq (vs : List Int) (k bk : Nat) (bv : Int) : inferBest vs k bk bv = argmaxLoop vs k bk bv := by
  induction vs generalizing k bk bv with
  | nil => rfl
  | cons v vs ih => rw [inferBest, argmaxLoop, ih, ih]

theorem inferBest_lowestMax (vs : List Int) (h : vs ≠ []) :
    LowestMax vs (inferBest vs.tail 1 0 (vs.headD 0)) := by
  rw [inferBest_eq]
  cases vs with
  | nil => exact absurd rfl h
  | cons v vs =>
    have := argmaxLoop_spec vs [v] 0 v rfl (by
      intro i w hw
      rw [List.getElem?_singleton] at hw
      split at hw <;> simp at hw
      subst hw
      exact ⟨by omega, by omega⟩)
    simpa using this

/-- The backend holds this rule set and has its sizes. -/
structure Holds (rs : Rules) (i : Inf) : Prop where
  lits : i.nLits = rs.nLits
  classes : i.nClasses = rs.nClasses
  rules : i.rules = rs.rules
  weights : i.weights = rs.weights
  votes : i.votes.length = rs.nClasses
  empty : i.emptyClass = 0
  noFeat : i.featImp = false
  imps : i.litImp = true → i.impLits.length = 2 * rs.nLits

theorem inf_predict (rs : Rules) (h : RulesOK rs) (hn : 0 < rs.nClasses) (i : Inf) (hi : Holds rs i)
    (x : List Nat) (hb : Binary x) (hx : x.length = rs.nLits) :
    (i.predict x).1.votes = (rulesetVotes rs x).map wrap32 ∧
    pairs rs.rules rs.weights (i.predict x).1.active =
      (rs.rules.zip rs.weights).filter (fun r => decide (Matches rs.nLits x r.1)) ∧
    LowestMax ((rulesetVotes rs x).map wrap32) (i.predict x).2 := by
  have ht : x.take i.nLits = x := by rw [hi.lits, ← hx]; exact List.take_length
  have hrl : ∀ r ∈ rs.rules, ∀ j ∈ r, j < 2 * x.length := fun r hr j hj => by
    rw [hx]; exact (h.lits r hr).2 j hj
  have hv := inferLoop_votes rs.nClasses x hb rs.rules rs.weights hrl 0 []
    (List.replicate rs.nClasses 0) (fun _ => 0) (by
      simp [wrap32_zero])
  have ha := inferLoop_active rs.nClasses x hb rs.rules rs.weights hrl []
    (List.replicate rs.nClasses 0) [] [] rfl
  simp only [List.nil_append, List.length_nil, pairs, List.map_nil] at ha
  unfold Inf.predict
  dsimp only
  rw [ht, hi.classes, hi.rules, hi.weights, hi.votes, hi.empty]
  have hvv : (inferLoop rs.nClasses (inferExample x) rs.rules rs.weights 0 [] (List.replicate rs.nClasses 0)).2 =
      (rulesetVotes rs x).map wrap32 := by
    rw [hv]
    simp [rulesetVotes, hx]
  refine ⟨hvv, ?_, ?_⟩
  · unfold pairs; rw [ha]; simp [hx]
  · rw [hvv]
    have hne : (rulesetVotes rs x).map wrap32 ≠ [] := by
      intro h0
      have := congrArg List.length h0
      simp [rulesetVotes] at this
      omega
    split
    · rename_i h0
      have h0' := List.eq_nil_of_length_eq_zero h0
      rw [h0'] at ha
      have hz : ∀ k, ruleSum rs.nLits rs.rules rs.weights x k = 0 := by
        intro k
        unfold ruleSum
        have : ((rs.rules.zip rs.weights).filter fun r => decide (Matches x.length x r.1)) = [] := by
          simpa using ha.symm
        rw [hx] at this
        rw [List.sum_eq_zero]
        intro v hv
        obtain ⟨r, hr, rfl⟩ := List.mem_map.mp hv
        rw [List.mem_filter] at hr
        have hr2 : Matches rs.nLits x r.1 := by simpa using hr.2
        have hmem : r ∈ (rs.rules.zip rs.weights).filter fun r => decide (Matches rs.nLits x r.1) :=
          List.mem_filter.mpr ⟨hr.1, decide_eq_true hr2⟩
        rw [this] at hmem
        simp at hmem
      refine ⟨0, ?_, ?_⟩
      · simp [rulesetVotes, hz, wrap32_zero, hn]
      · intro j w hw
        simp only [rulesetVotes, List.map_map, List.getElem?_map, Option.map_eq_some_iff] at hw
        obtain ⟨a, -, rfl⟩ := hw
        simp [hz, wrap32_zero]
    · exact inferBest_lowestMax _ hne

/-! ### Importance -/

theorem addAt_get (v : List Int) (ks : List Nat) (w : Int) (hk : ks.Nodup) (i : Nat) :
    (addAt v ks w)[i]? = if i ∈ ks then v[i]?.map (fun a => wrap32 (a + w)) else v[i]? := by
  induction ks generalizing v with
  | nil => simp [addAt]
  | cons k ks ih =>
    rw [List.nodup_cons] at hk
    have e : addAt v (k :: ks) w = addAt (v.set k (wrap32 (v.getD k 0 + w))) ks w := rfl
    rw [e, ih _ hk.2]
    by_cases hi : i = k
    · subst hi
      simp only [hk.1, if_false, List.mem_cons, true_or, if_true]
      rw [List.getElem?_set]
      by_cases hl : i < v.length
      · simp [List.getD, hl]
      · simp [hl]
    · have hne : ¬ k = i := fun h => hi h.symm
      simp only [List.mem_cons, hi, false_or, List.getElem?_set, hne, if_false]

theorem addAt_length (v : List Int) (ks : List Nat) (w : Int) : (addAt v ks w).length = v.length := by
  induction ks generalizing v with
  | nil => rfl
  | cons k ks ih =>
    have e : addAt v (k :: ks) w = addAt (v.set k (wrap32 (v.getD k 0 + w))) ks w := rfl
    rw [e, ih]; simp

/-- Weights for `y` of a list of clauses that use literal `i`. -/
def pairSum (excl : Bool) (ps : List (List Nat × List Int)) (y i : Nat) : Int :=
  ((ps.filter fun r => decide (i ∈ r.1 ∧ (excl = true → 0 < r.2.getD y 0))).map fun r => r.2.getD y 0).sum

theorem pairSum_cons (excl : Bool) (r : List Nat) (w : List Int) (ps : List (List Nat × List Int)) (y i : Nat) :
    pairSum excl ((r, w) :: ps) y i =
      (if i ∈ r ∧ (excl = true → 0 < w.getD y 0) then w.getD y 0 else 0) + pairSum excl ps y i := by
  unfold pairSum
  rw [List.filter_cons]
  by_cases h : i ∈ r ∧ (excl = true → 0 < w.getD y 0)
  · rw [if_pos h, if_pos (decide_eq_true h), List.map_cons, List.sum_cons]
  · rw [if_neg h, if_neg (by rw [decide_eq_true_iff]; exact h)]; omega

theorem importanceLoop_lits (inf : Inf) (y : Nat) (hl : inf.litImp = true) (act : List Nat)
    (hnd : ∀ p ∈ pairs inf.rules inf.weights act, p.1.Nodup) (lits feats : List Int) (f : Nat → Int)
    (m : Nat) (hf : lits = (List.range m).map fun i => wrap32 (f i)) :
    (importanceLoop inf y act lits feats).1 =
      (List.range m).map fun i => wrap32 (f i + pairSum inf.exclNeg (pairs inf.rules inf.weights act) y i) := by
  induction act generalizing lits feats f with
  | nil => rw [importanceLoop]; simp [hf, pairs, pairSum]
  | cons k ks ih =>
    rw [importanceLoop]
    dsimp only
    have hnd' : ∀ p ∈ pairs inf.rules inf.weights ks, p.1.Nodup := fun p hp => hnd p (by
      simp only [pairs, List.map_cons, List.mem_cons] at hp ⊢; exact Or.inr hp)
    have ep : pairs inf.rules inf.weights (k :: ks) =
        (inf.rules.getD k [], inf.weights.getD k []) :: pairs inf.rules inf.weights ks := rfl
    have hkn : (inf.rules.getD k []).Nodup := hnd (inf.rules.getD k [], inf.weights.getD k []) (by rw [ep]; exact List.mem_cons_self)
    rw [ep]
    generalize inf.rules.getD k [] = rk at hkn ⊢
    generalize inf.weights.getD k [] = wk
    generalize hwy : wk.getD y 0 = wy
    by_cases he : inf.exclNeg = true ∧ wy < 1
    · rw [if_pos he, ih hnd' _ _ f hf]
      apply List.map_congr_left
      intro i _
      rw [pairSum_cons, hwy, if_neg (by rintro ⟨-, h⟩; have := h he.1; omega)]
      congr 1; omega
    · simp only [he, if_false, hl, if_true]
      have hset : addAt lits rk wy =
          (List.range m).map fun i => wrap32 (f i + if i ∈ rk then wy else 0) := by
        apply List.ext_getElem?
        intro i
        rw [addAt_get _ _ _ hkn, hf]
        simp only [List.getElem?_map]
        by_cases hi : i < m
        · simp only [List.getElem?_range hi, Option.map_some]
          by_cases hik : i ∈ rk
          · simp [hik, wrap32_add]
          · simp [hik]
        · simp [show m ≤ i by omega]
      rw [ih hnd' _ _ _ hset]
      apply List.map_congr_left
      intro i _
      congr 1
      rw [pairSum_cons, hwy]
      by_cases hik : i ∈ rk
      · rw [if_pos hik, if_pos ⟨hik, fun hex => by by_contra hc; exact he ⟨hex, by omega⟩⟩]; omega
      · rw [if_neg hik, if_neg (fun h => hik h.1)]; omega

/-! ### What calls keep -/

theorem importanceLoop_len (inf : Inf) (y : Nat) (act : List Nat) (lits feats : List Int) :
    (importanceLoop inf y act lits feats).1.length = lits.length := by
  induction act generalizing lits feats with
  | nil => rfl
  | cons k ks ih =>
    rw [importanceLoop]
    dsimp only
    split
    · rw [ih]
    · rw [ih]
      split
      · rw [addAt_length]
      · rfl

theorem holds_explain (rs : Rules) (i : Inf) (h : Holds rs i) (y : Nat) : Holds rs (i.explain y) := by
  constructor
  · exact h.lits
  · exact h.classes
  · exact h.rules
  · exact h.weights
  · exact h.votes
  · exact h.empty
  · exact h.noFeat
  · intro hl
    have hl' : i.litImp = true := hl
    unfold Inf.explain
    simp only [importanceLoop_len, hl', if_true, List.length_replicate]
    exact h.imps hl'

theorem inferLoop_votes_len (n : Nat) (ex : List Nat) (rs : List (List Nat)) (ws : List (List Int))
    (k : Nat) (act : List Nat) (votes : List Int) (hv : votes.length = n) :
    (inferLoop n ex rs ws k act votes).2.length = n := by
  induction rs generalizing ws k act votes with
  | nil => rw [inferLoop]; exact hv; intro r rs w ws h; simp at h
  | cons r rs ih =>
    cases ws with
    | nil => rw [inferLoop]; exact hv; intro r rs w ws h; simp
    | cons w ws =>
      rw [inferLoop]
      split
      · exact ih _ _ _ _ (by simp)
      · exact ih _ _ _ _ hv

theorem holds_predict (rs : Rules) (i : Inf) (h : Holds rs i) (x : List Nat) : Holds rs (i.predict x).1 := by
  constructor
  · exact h.lits
  · exact h.classes
  · exact h.rules
  · exact h.weights
  · unfold Inf.predict
    dsimp only
    rw [← h.classes]
    exact inferLoop_votes_len _ _ _ _ _ _ _ (by simp [h.votes, h.classes])
  · exact h.empty
  · exact h.noFeat
  · exact h.imps

theorem explainLoop_inf (p : Predictor) (P : Inf → Prop) (hP : ∀ i y, P i → P (i.explain y)) (ks : List Nat)
    (i : Inf) (h : P i) : P (p.explainLoop ks i).1 := by
  induction ks generalizing i with
  | nil => exact h
  | cons k ks ih => exact ih _ (hP _ _ h)

/-- Any property of the backend kept by `predict` and `explain` is kept by every call. -/
theorem afterCall_inf (P : Inf → Prop) (hE : ∀ i y, P i → P (i.explain y)) (p : Predictor) (c : Call)
    (hP : ∀ i x, c = .predict x → P i → P (i.predict x).1) (h : P p.inf) : P (afterCall p c).inf := by
  cases c with
  | predict x => exact hP _ x rfl h
  | explain t =>
    simp only [afterCall, Predictor.explainTarget]
    split
    · exact h
    · split
      · exact h
      · exact hE _ _ h
  | explainAll =>
    simp only [afterCall, Predictor.explainAll]
    split
    · exact h
    · exact explainLoop_inf p P hE _ _ h
  | setNames ns => exact h

theorem afterCall_expl (p : Predictor) (c : Call) : (afterCall p c).expl = p.expl := by
  cases c with
  | predict x => rfl
  | explain t =>
    simp only [afterCall, Predictor.explainTarget]
    split
    · rfl
    · split <;> rfl
  | explainAll =>
    simp only [afterCall, Predictor.explainAll]
    split <;> rfl
  | setNames ns => rfl

theorem afterCalls_inf (P : Inf → Prop) (hE : ∀ i y, P i → P (i.explain y)) (p : Predictor) (cs : List Call)
    (hP : ∀ i x, Call.predict x ∈ cs → P i → P (i.predict x).1) (h : P p.inf) : P (afterCalls p cs).inf := by
  induction cs generalizing p with
  | nil => exact h
  | cons c cs ih =>
    have e : afterCalls p (c :: cs) = afterCalls (afterCall p c) cs := rfl
    rw [e]
    exact ih _ (fun i x hx => hP i x (by simp [hx]))
      (afterCall_inf P hE p c (fun i x hc => hP i x (by simp [hc])) h)

theorem afterCalls_expl (p : Predictor) (cs : List Call) : (afterCalls p cs).expl = p.expl := by
  induction cs generalizing p with
  | nil => rfl
  | cons c cs ih =>
    have e : afterCalls p (c :: cs) = afterCalls (afterCall p c) cs := rfl
    rw [e, ih, afterCall_expl]

/-- The state of a new predictor. -/
theorem fromRuleset_holds (rs : Rules) (s : String) (excl : Bool) (p : Predictor)
    (h : Predictor.fromRuleset rs s excl = .ok p) :
    Holds rs p.inf ∧ p.names = none ∧ p.last = none ∧
      ((p.expl = .none ∧ s = "none") ∨
        (p.expl = .literals ∧ s = "literals" ∧ p.inf.litImp = true ∧ p.inf.exclNeg = excl)) := by
  unfold Predictor.fromRuleset parseExpl at h
  by_cases h1 : s = "none"
  · simp only [h1, if_true, backendFlags, Inf.new] at h
    simp at h
    subst h
    refine ⟨⟨rfl, rfl, rfl, rfl, by simp [Inf.setRules], rfl, rfl, ?_⟩, rfl, rfl, Or.inl ⟨rfl, h1⟩⟩
    intro hl; simp [Inf.setRules] at hl
  · by_cases h2 : s = "literals"
    · simp only [h2, if_true, backendFlags, Inf.new] at h
      simp at h
      subst h
      refine ⟨⟨rfl, rfl, rfl, rfl, by simp [Inf.setRules], rfl, rfl, ?_⟩, rfl, rfl, Or.inr ⟨rfl, h2, rfl, rfl⟩⟩
      intro hl; simp [Inf.setRules, Nat.mul_comm]
    · exfalso
      by_cases h3 : s = "features"
      · simp [h3, backendFlags, Inf.new] at h
      · by_cases h4 : s = "both"
        · simp [h4, backendFlags, Inf.new] at h
        · simp [h1, h2, h3, h4] at h

end GT

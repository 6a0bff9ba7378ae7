import Verif.Lemmas.Writers
import Verif.Props.Predictor

/-! # Properties of the exported C programs (C25, C26) -/

namespace GT
open Spec

/-! ### Hypotheses met -/

/-- C25, C26: rule sets compiled from a state meet what the theorems below ask of a rule set. -/
theorem C25_compiled_rules_exportable (ml : Bool) (st : DState) (h : WellShaped st) (rs : Rules)
    (hc : compileDense ml st = .ok rs) :
    RulesOK rs ∧ (∀ r ∈ rs.rules, r ≠ []) ∧ DistinctRules rs.rules := by
  obtain ⟨h1, h2, h3, h4⟩ := C23_well_formed ml st h rs hc
  refine ⟨(compiled_ok ml st h rs hc).1, fun r hr => (h3 r hr).1, ?_⟩
  intro i j a b hi hj hab
  have ha := (h3 a (List.mem_of_getElem? hi)).2.1
  have hb := (h3 b (List.mem_of_getElem? hj)).2.1
  have := sorted_ext ha hb hab
  subst this
  have hil := (List.getElem?_eq_some_iff.mp hi)
  have hjl := (List.getElem?_eq_some_iff.mp hj)
  exact (List.Nodup.getElem_inj_iff h1).mp (hil.2.trans hjl.2.symm)

example : RulesOK exRules ∧ (∀ r ∈ exRules.rules, r ≠ []) ∧ DistinctRules exRules.rules := by
  refine ⟨exRules_ok, by decide, ?_⟩
  intro i j a b hi hj hab
  match i, j with
  | 0, 0 => rfl
  | 1, 1 => rfl
  | 0, 1 =>
    simp [exRules] at hi hj
    subst hi; subst hj
    have := (hab 0).mp (by simp); simp at this
  | 1, 0 =>
    simp [exRules] at hi hj
    subst hi; subst hj
    have := (hab 0).mpr (by simp); simp at this
  | i + 2, _ => simp [exRules] at hi
  | 0, j + 2 => simp [exRules] at hj
  | 1, j + 2 => simp [exRules] at hj

/-! ### The flat program -/

theorem runC_simple (rs : Rules) (h : RulesOK rs) (hne : ∀ r ∈ rs.rules, r ≠ []) (prev : List Int)
    (hprev : prev.length = rs.nClasses) (x : List Nat) (hb : Binary x) (hx : x.length = rs.nLits) :
    ∃ v, execC x (simpleC rs) [] (List.replicate prev.length 0) = some v ∧
      v = (List.range rs.nClasses).map fun k => wrap16 (ruleSum rs.nLits rs.rules rs.weights x k) := by
  refine ⟨_, exec_simple rs.nLits x rs.rules hne rs.weights _, ?_⟩
  rw [addPaths_value rs.nLits rs.nClasses x (rs.rules.zip rs.weights) (fun _ => 0) _
    (by rw [hprev]; simp [wrap16_zero]) (fun e he => h.weights e.2 (List.of_mem_zip he).2)]
  apply List.map_congr_left
  intro k _
  rw [pathSum_ruleSum rs.nLits x hb hx rs.rules rs.weights (fun r hr => (h.lits r hr).2) k, Int.zero_add]

/-- C25: the exported program is accepted by the compiler, and for every example whose votes fit in 16 bits,
whatever the previous call left behind, it computes the votes of the rule set and returns the class that the
predictor, after any use, predicts. -/
theorem C25_simple_c (rs : Rules) (h : RulesOK rs) (hne : ∀ r ∈ rs.rules, r ≠ []) (hn : 0 < rs.nClasses)
    (s : String) (excl : Bool) (p : Predictor) (hp : Predictor.fromRuleset rs s excl = .ok p) (cs : List Call)
    (hnames : (afterCalls p cs).names = none) (prev : List Int) (hprev : prev.length = rs.nClasses)
    (x : List Nat) (hb : Binary x) (hx : x.length = rs.nLits) (hf : VotesFit rs x) :
    ∃ k, runC (simpleC rs) prev x = some (rulesetVotes rs x, k) ∧
      ((afterCalls p cs).predict x).2 = .ok (.idx k) := by
  obtain ⟨v, hv, hvv⟩ := runC_simple rs h hne prev hprev x hb hx
  have hh := reached_holds rs s excl p hp cs
  obtain ⟨e1, e2⟩ := program_agrees rs h hn _ hh x hb hx hf v hvv
  refine ⟨((afterCalls p cs).inf.predict x).2, ?_, ?_⟩
  · unfold runC
    rw [hv]
    simp only [e1]
    rw [e2]
  · simp [Predictor.predict, hnames]

example : runC (simpleC exRules) [99, 99] [1, 0] = some ([7, -1], 0) ∧
    runC (simpleC exRules) [99, 99] [0, 1] = some ([-2, 5], 1) := by decide

/-- C25: without the 16-bit condition the program can return another class than the predictor. -/
theorem C25_disagree_on_overflow :
    ∃ rs p, RulesOK rs ∧ Predictor.fromRuleset rs "none" false = .ok p ∧
      runC (simpleC rs) [0, 0] [1, 1] = some ([-5536, 0], 1) ∧ (p.predict [1, 1]).2 = .ok (.idx 0) := by
  refine ⟨⟨2, 2, false, [[0], [1]], [[30000, 0], [30000, 0]]⟩, _, ⟨rfl, by decide, by decide⟩, rfl,
    by decide, rfl⟩

/-- C25: a rule without literals is written as `if(){`, which is not C. -/
theorem C25_empty_rule_does_not_compile (n c : Nat) (ml : Bool) (w : List Int) (rules : List (List Nat))
    (weights : List (List Int)) (prev : List Int) (x : List Nat) :
    runC (simpleC ⟨n, c, ml, [] :: rules, w :: weights⟩) prev x = none := by
  simp [runC, simpleC, simpleRule, execC]

/-! ### The tree program -/

/-- C26: whatever entries the generator chooses, it finishes, and the tree program computes, for every input,
the votes and the class of the flat program. -/
theorem C26_tree_c (pick : List Nat → List Nat → List (Nat × List Nat) → Nat × List Nat)
    (hpick : ChoosesEntry pick) (rs : Rules) (h : RulesOK rs) (hne : ∀ r ∈ rs.rules, r ≠ [])
    (hd : DistinctRules rs.rules) :
    ∃ bound, ∀ fuel, bound < fuel → ∃ prog tree, topoC pick rs fuel [] = some (prog, tree) ∧
      ∀ prev x, prev.length = rs.nClasses → Binary x → x.length = rs.nLits →
        runC prog prev x = runC (simpleC rs) prev x := by
  refine ⟨mu rs.rules (List.range rs.rules.length) [], ?_⟩
  intro fuel hfuel
  have hget : ∀ k, k < rs.rules.length → rs.rules[k]? = some (rs.rules.getD k []) := by
    intro k hk; simp [List.getD, hk]
  obtain ⟨new, inTree', ps, g, -, ht, hperm, hsame, hl⟩ := grow_spec pick hpick rs.rules rs.weights fuel none
    (List.range rs.rules.length) [] [] none [] hfuel List.nodup_range (by simp) (by simp) (by
      intro i hi j hj hij
      rw [List.mem_range] at hi hj
      exact hd i j _ _ (hget i hi) (hget j hj) hij)
  have hnone : (List.range rs.rules.length).filter (fun k => sameSet (rs.rules.getD k []) []) = [] := by
    rw [List.filter_eq_nil_iff]
    intro k hk hs
    rw [List.mem_range] at hk
    rw [sameSet_iff] at hs
    apply hne (rs.rules.getD k []) (List.mem_of_getElem? (hget k hk))
    rw [List.eq_nil_iff_forall_not_mem]
    intro t ht'
    simpa using (hs t).mp ht'
  rw [hnone] at g hl
  simp only [List.foldl_nil, List.nil_append, List.map_nil] at g hl
  refine ⟨exportNode rs.nLits (.mk none none new) [], inTree', by unfold topoC; rw [g], ?_⟩
  intro prev x hprev hb hx
  have hprog : exportNode rs.nLits (.mk none none new) [] = exportList rs.nLits new [] := by
    rw [exportNode]
  have hex := exec_list rs.nLits x new ht [] [] [] (by simp [pathHolds]) (List.replicate prev.length 0) []
  rw [List.append_nil] at hex
  obtain ⟨v, hv, hvv⟩ := runC_simple rs h hne prev hprev x hb hx
  have hlen : ∀ q ∈ ps, q.1 < rs.rules.length := by
    intro q hq
    rw [← List.mem_range]
    exact hperm.subset (List.mem_map.mpr ⟨q, hq, rfl⟩)
  have hval := addPaths_value rs.nLits rs.nClasses x (listPaths new []) (fun _ => 0)
    (List.replicate prev.length 0) (by rw [hprev]; simp [wrap16_zero]) (by
      intro e he
      rw [hl] at he
      obtain ⟨q, hq, rfl⟩ := List.mem_map.mp he
      have hq' : q.1 < rs.weights.length := by rw [h.rows]; exact hlen q hq
      apply h.weights
      simp [List.getD, hq'])
  have hsum : ∀ k, pathSum rs.nLits x (listPaths new []) k = ruleSum rs.nLits rs.rules rs.weights x k := by
    intro k
    rw [hl, ← pathSum_ruleSum rs.nLits x hb hx rs.rules rs.weights (fun r hr => (h.lits r hr).2) k]
    unfold pathSum
    rw [List.map_map]
    have e1 : ps.map ((fun e : List Nat × List Int => if pathHolds rs.nLits x e.1 then e.2.getD k 0 else 0) ∘
        fun q => (q.2, rs.weights.getD q.1 [])) =
        (ps.map Prod.fst).map fun i => if pathHolds rs.nLits x (rs.rules.getD i []) then
          (rs.weights.getD i []).getD k 0 else 0 := by
      rw [List.map_map]
      apply List.map_congr_left
      intro q hq
      have : pathHolds rs.nLits x q.2 = pathHolds rs.nLits x (rs.rules.getD q.1 []) := by
        rw [Bool.eq_iff_iff]
        unfold pathHolds
        simp only [List.all_map, List.all_eq_true, Function.comp]
        exact ⟨fun h' t ht' => h' t ((hsame q hq t).mp ht'), fun h' t ht' => h' t ((hsame q hq t).mpr ht')⟩
      simp only [Function.comp, this]
    rw [e1, (hperm.map _).sum_eq]
    congr 1
    apply List.ext_getElem?
    intro i
    rw [List.getElem?_map, List.getElem?_map]
    by_cases hi : i < rs.rules.length
    · have hi' : i < rs.weights.length := by rw [h.rows]; exact hi
      simp [hi, hi', List.getD]
    · simp [show rs.rules.length ≤ i by omega]
  unfold runC
  rw [hprog, hex, hv]
  simp only [execC, List.append_nil, hval, hvv, hsum, Int.zero_add]

/-- C26: hence the tree program returns the class the predictor predicts. -/
theorem C26_tree_c_predicts (pick : List Nat → List Nat → List (Nat × List Nat) → Nat × List Nat)
    (hpick : ChoosesEntry pick) (rs : Rules) (h : RulesOK rs) (hne : ∀ r ∈ rs.rules, r ≠ [])
    (hd : DistinctRules rs.rules) (hn : 0 < rs.nClasses) (s : String) (excl : Bool) (p : Predictor)
    (hp : Predictor.fromRuleset rs s excl = .ok p) (cs : List Call) (hnames : (afterCalls p cs).names = none) :
    ∃ bound, ∀ fuel, bound < fuel → ∃ prog tree, topoC pick rs fuel [] = some (prog, tree) ∧
      ∀ prev x, prev.length = rs.nClasses → Binary x → x.length = rs.nLits → VotesFit rs x →
        ∃ k, runC prog prev x = some (rulesetVotes rs x, k) ∧
          ((afterCalls p cs).predict x).2 = .ok (.idx k) := by
  obtain ⟨b, hb⟩ := C26_tree_c pick hpick rs h hne hd
  refine ⟨b, fun fuel hf => ?_⟩
  obtain ⟨prog, tree, h1, h2⟩ := hb fuel hf
  refine ⟨prog, tree, h1, ?_⟩
  intro prev x hprev hbx hx hv
  rw [h2 prev x hprev hbx hx]
  exact C25_simple_c rs h hne hn s excl p hp cs hnames prev hprev x hbx hx hv

/-! The first entry is a possible choice; the tree for three rules that share literals. -/
def pickFirst (_ _ : List Nat) (c : List (Nat × List Nat)) : Nat × List Nat := c.headD (0, [])

example : ChoosesEntry pickFirst := by
  intro path R c hc
  cases c with
  | nil => exact absurd rfl hc
  | cons e c => simp [pickFirst]

def treeRules : Rules := ⟨3, 2, false, [[0], [0, 1], [1, 5]], [[3, 0], [0, 2], [5, -4]]⟩

example : (topoC pickFirst treeRules 20 []).map (·.1) =
    some [.ifOpen [.pos 0], .add [3, 0], .ifOpen [.pos 1], .add [0, 2], .close, .close,
      .ifOpen [.pos 1, .zero 2], .add [5, -4], .close] := by decide

/-- C26: exporting twice with the same writer object loses rules: the second program ignores all but one
branch, because the writer still believes every rule to be in the tree. -/
theorem C26_second_export_loses_rules :
    ∃ rs t prog' t' x, RulesOK rs ∧ DistinctRules rs.rules ∧ (topoC pickFirst rs 20 []).map (·.2) = some t ∧
      topoC pickFirst rs 20 t = some (prog', t') ∧
      runC prog' [0, 0] x ≠ runC (simpleC rs) [0, 0] x := by
  refine ⟨⟨2, 2, false, [[0], [1]], [[3, 0], [0, 2]]⟩, [0, 1], [.ifOpen [.pos 0], .add [3, 0], .close],
    [0, 1, 0], [0, 1], ⟨rfl, by decide, by decide⟩, ?_, by decide, by decide, by decide⟩
  intro i j a b hi hj hab
  match i, j with
  | 0, 0 => rfl
  | 1, 1 => rfl
  | 0, 1 =>
    simp at hi hj
    subst hi; subst hj
    have := (hab 0).mp (by simp); simp at this
  | 1, 0 =>
    simp at hi hj
    subst hi; subst hj
    have := (hab 0).mpr (by simp); simp at this
  | i + 2, _ => simp at hi
  | 0, j + 2 => simp at hj
  | 1, j + 2 => simp at hj

/-- C26: rules with the same literals are not added up; the tree keeps the weights of one of them. -/
theorem C26_equal_rules_lose_votes :
    ∃ rs prog t x, RulesOK rs ∧ topoC pickFirst rs 20 [] = some (prog, t) ∧
      runC prog [0, 0] x ≠ runC (simpleC rs) [0, 0] x :=
  ⟨⟨1, 2, false, [[0], [0]], [[3, 0], [0, 2]]⟩, [.ifOpen [.pos 0], .add [0, 2], .close], [0, 1], [1],
    ⟨rfl, by decide, by decide⟩, by decide, by decide⟩

end GT

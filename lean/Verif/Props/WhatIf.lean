import Verif.Lemmas.WhatIf

/-! # Explanations tell how the votes react to a change of the example (C103) -/

namespace GT
open Spec

/-- C103: turn one feature of an example round. The votes for a class then change by exactly what the two
explanations say: the importance of the literal that was true is lost and the importance of the literal that
is now true is gained. This holds whatever was called before, between and after the two predictions. -/
theorem C103_turned (rs : Rules) (h : RulesOK rs) (hn : 0 < rs.nClasses)
    (p : Predictor) (hp : Predictor.fromRuleset rs "literals" false = .ok p)
    (cs ds cs' ds' : List Call) (hc : NoNames cs) (hd : NoPredict ds) (hd' : NoNames ds)
    (hc1 : NoNames cs') (hd1 : NoPredict ds') (hd1' : NoNames ds')
    (x : List Nat) (hb : Binary x) (hx : x.length = rs.nLits) (i : Nat) (hi : i < rs.nLits)
    (y : Nat) (hy : y < rs.nClasses) :
    ((afterCalls p cs').predict (turned x i)).1.inf.votes.getD y 0 =
      wrap32 (((afterCalls p cs).predict x).1.inf.votes.getD y 0
        - reported (explained p cs x ds y) (trueLiteral rs.nLits x i)
        + reported (explained p cs' (turned x i) ds' y) (trueLiteral rs.nLits (turned x i) i)) := by
  have hb' := WhatIf.turned_binary x hb i
  have hx' : (turned x i).length = rs.nLits := by rw [WhatIf.turned_length, hx]
  have lt : ∀ z : List Nat, trueLiteral rs.nLits z i < 2 * rs.nLits := by
    intro z; unfold trueLiteral; split <;> omega
  rw [WhatIf.reported_eq rs h hn false p hp cs ds hc hd hd' x hb hx y _ (lt _),
    WhatIf.reported_eq rs h hn false p hp cs' ds' hc1 hd1 hd1' _ hb' hx' y _ (lt _)]
  obtain ⟨-, -, v1, -⟩ := C24_predict rs h hn "literals" false p hp cs x hb hx
  obtain ⟨-, -, v2, -⟩ := C24_predict rs h hn "literals" false p hp cs' _ hb' hx'
  rw [v1, v2]
  simp only [rulesetVotes, List.map_map, List.getD_eq_getElem?_getD, List.getElem?_map,
    List.getElem?_range hy, Option.map_some, Option.getD_some, Function.comp]
  rw [WhatIf.votes_split rs (turned x i) i y, WhatIf.votes_split rs x i y, WhatIf.rest_turned rs x hb hx i y hi]
  unfold wrap32
  omega

/-! Two rules, "0 and not 1" and "1"; turning feature 1 on loses the first and gains the second. -/
example : ∃ p, Predictor.fromRuleset exRules "literals" false = .ok p ∧
    (p.predict [1, 0]).1.inf.votes = [7, -1] ∧
    reported (explained p [] [1, 0] [] 0) (trueLiteral 2 [1, 0] 1) = 7 ∧
    turned [1, 0] 1 = [1, 1] ∧
    reported (explained p [] [1, 1] [] 0) (trueLiteral 2 [1, 1] 1) = -2 ∧
    (p.predict [1, 1]).1.inf.votes = [-2, 5] := ⟨_, rfl, by decide, by decide, by decide, by decide, by decide⟩

/-- C103: if no rule asks for the other value of the feature, the explanation alone tells the votes after the
change. -/
theorem C103_turned_away (rs : Rules) (h : RulesOK rs) (hn : 0 < rs.nClasses)
    (p : Predictor) (hp : Predictor.fromRuleset rs "literals" false = .ok p)
    (cs ds cs' : List Call) (hc : NoNames cs) (hd : NoPredict ds) (hd' : NoNames ds) (hc1 : NoNames cs')
    (x : List Nat) (hb : Binary x) (hx : x.length = rs.nLits) (i : Nat) (hi : i < rs.nLits)
    (hr : ∀ r ∈ rs.rules, trueLiteral rs.nLits (turned x i) i ∉ r)
    (y : Nat) (hy : y < rs.nClasses) :
    ((afterCalls p cs').predict (turned x i)).1.inf.votes.getD y 0 =
      wrap32 (((afterCalls p cs).predict x).1.inf.votes.getD y 0
        - reported (explained p cs x ds y) (trueLiteral rs.nLits x i)) := by
  rw [C103_turned rs h hn p hp cs ds cs' [] hc hd hd' hc1 (fun _ => by simp) (fun _ => by simp) x hb hx i hi y hy]
  rw [WhatIf.reported_eq rs h hn false p hp cs' [] hc1 (fun _ => by simp) (fun _ => by simp) _
    (WhatIf.turned_binary x hb i) (by rw [WhatIf.turned_length, hx]) y _
    (by unfold trueLiteral; split <;> omega)]
  rw [C27_unused_literal false rs _ y _ (fun r hrr _ => hr r hrr), wrap32_zero, Int.add_zero]

/-- C103: a literal with any importance is true in the example explained, with or without the negative
clauses. -/
theorem C103_only_true_literals (rs : Rules) (h : RulesOK rs) (hn : 0 < rs.nClasses) (excl : Bool)
    (p : Predictor) (hp : Predictor.fromRuleset rs "literals" excl = .ok p) (cs ds : List Call)
    (hc : NoNames cs) (hd : NoPredict ds) (hd' : NoNames ds) (x : List Nat) (hb : Binary x)
    (hx : x.length = rs.nLits) (y j : Nat) (hj : j < 2 * rs.nLits)
    (hr : reported (explained p cs x ds y) j ≠ 0) : LiteralTrue rs.nLits x j := by
  rw [WhatIf.reported_eq rs h hn excl p hp cs ds hc hd hd' x hb hx y j hj] at hr
  by_cases hu : ∀ r ∈ rs.rules, Matches rs.nLits x r → j ∉ r
  · rw [C27_unused_literal excl rs x y j hu] at hr
    exact absurd wrap32_zero hr
  · have : ∃ r ∈ rs.rules, Matches rs.nLits x r ∧ j ∈ r := by
      classical
      refine Classical.byContradiction fun hne => hu fun r hr hm hjr => hne ⟨r, hr, hm, hjr⟩
    obtain ⟨r, -, hm, hjr⟩ := this
    exact hm j hjr

example : ∃ p, Predictor.fromRuleset exRules "literals" false = .ok p ∧
    reported (explained p [] [1, 0] [] 0) 3 = 7 ∧ LiteralTrue 2 [1, 0] 3 :=
  ⟨_, rfl, by decide, Or.inr ⟨by decide, rfl⟩⟩

/-- C103: a feature no rule mentions has no influence: examples that agree on the features some rule mentions
get the same votes and the same class, whatever was called before. -/
theorem C103_unmentioned (rs : Rules) (h : RulesOK rs) (hn : 0 < rs.nClasses) (s : String) (excl : Bool)
    (p : Predictor) (hp : Predictor.fromRuleset rs s excl = .ok p) (cs cs' : List Call)
    (hc : NoNames cs) (hc' : NoNames cs')
    (x x' : List Nat) (hb : Binary x) (hx : x.length = rs.nLits) (hb' : Binary x') (hx' : x'.length = rs.nLits)
    (ha : ∀ i, (∃ r ∈ rs.rules, i ∈ r ∨ i + rs.nLits ∈ r) → x[i]? = x'[i]?) :
    ((afterCalls p cs).predict x).2 = ((afterCalls p cs').predict x').2 ∧
    ((afterCalls p cs).predict x).1.inf.votes = ((afterCalls p cs').predict x').1.inf.votes := by
  have hm : ∀ r ∈ rs.rules, Matches rs.nLits x r ↔ Matches rs.nLits x' r := by
    intro r hr
    unfold Matches
    refine forall₂_congr fun j hj => ?_
    by_cases h1 : j < rs.nLits
    · rw [ha j ⟨r, hr, Or.inl hj⟩]
      simp only [h1, true_and, Nat.not_le.mpr h1, false_and]
    · rw [ha (j - rs.nLits) ⟨r, hr, Or.inr (by rw [Nat.sub_add_cancel (by omega)]; exact hj)⟩]
      simp only [h1, false_and]
  have hv : rulesetVotes rs x = rulesetVotes rs x' := by
    unfold rulesetVotes
    apply List.map_congr_left
    intro y _
    unfold ruleSum
    congr 2
    apply List.filter_congr
    intro r hr
    rw [decide_eq_decide]
    exact hm r.1 (List.of_mem_zip hr).1
  obtain ⟨k, -, v1, l1, e1⟩ := C24_predict rs h hn s excl p hp cs x hb hx
  obtain ⟨k', -, v2, l2, e2⟩ := C24_predict rs h hn s excl p hp cs' x' hb' hx'
  rw [e1 (WhatIf.names_none p cs hc (WhatIf.start_names rs s excl p hp)),
    e2 (WhatIf.names_none p cs' hc' (WhatIf.start_names rs s excl p hp)), v1, v2, hv]
  rw [hv] at l1
  rw [lowestMax_unique l1 l2]
  exact ⟨rfl, rfl⟩

/-! Feature 1 of three is mentioned by no rule. -/
example : RulesOK ⟨3, 2, false, [[0], [5]], [[2, 1], [-1, 4]]⟩ ∧
    (∀ i, (∃ r ∈ ([[0], [5]] : List (List Nat)), i ∈ r ∨ i + 3 ∈ r) → ([1, 0, 0] : List Nat)[i]? = ([1, 1, 0] : List Nat)[i]?) := by
  refine ⟨⟨rfl, by decide, by decide⟩, ?_⟩
  rintro i ⟨r, hr, h⟩
  simp only [List.mem_cons, List.not_mem_nil, or_false] at hr
  rcases hr with rfl | rfl
  · simp only [List.mem_cons, List.not_mem_nil, or_false] at h
    rcases h with rfl | h
    · rfl
    · omega
  · simp only [List.mem_cons, List.not_mem_nil, or_false] at h
    rcases h with rfl | h
    · rfl
    · obtain rfl : i = 2 := by omega
      rfl

/-- C103: explanations that leave out the negative clauses name enough to keep the support. If every literal
with any importance for a class is also true in another example, then every rule that spoke for the class
(matched, with a positive weight) speaks for it there too. -/
theorem C103_support_kept (rs : Rules) (h : RulesOK rs) (hn : 0 < rs.nClasses)
    (p : Predictor) (hp : Predictor.fromRuleset rs "literals" true = .ok p) (cs ds : List Call)
    (hc : NoNames cs) (hd : NoPredict ds) (hd' : NoNames ds) (x : List Nat) (hb : Binary x)
    (hx : x.length = rs.nLits) (y : Nat) (hf : WeightsFit rs y) (x' : List Nat)
    (hk : ∀ j, j < 2 * rs.nLits → reported (explained p cs x ds y) j ≠ 0 → LiteralTrue rs.nLits x' j)
    (r : List Nat) (w : List Int) (hr : (r, w) ∈ rs.rules.zip rs.weights) (hw : 0 < w.getD y 0)
    (hm : Matches rs.nLits x r) : Matches rs.nLits x' r := by
  intro j hj
  have hj2 := (h.lits r (List.of_mem_zip hr).1).2 j hj
  refine hk j hj2 ?_
  rw [WhatIf.reported_eq rs h hn true p hp cs ds hc hd hd' x hb hx y j hj2]
  exact WhatIf.importance_pos rs x y j hf (r, w) hr hm hj hw

example : ∃ p, Predictor.fromRuleset exRules "literals" true = .ok p ∧ WeightsFit exRules 0 ∧
    (List.range 4).map (reported (explained p [] [1, 0] [] 0)) = [7, 0, 0, 7] :=
  ⟨_, rfl, by unfold WeightsFit; decide, by decide⟩

/-- Why the negative clauses have to be left out for that: with them, a literal on which the support rests can
be reported with importance 0, because a rule against the class uses it too. -/
theorem C103_cancelled_support :
    ∃ (rs : Rules) (p : Predictor), RulesOK rs ∧ WeightsFit rs 0 ∧
      Predictor.fromRuleset rs "literals" false = .ok p ∧
      reported (explained p [] [1, 1] [] 0) 0 = 0 ∧
      Matches rs.nLits [1, 1] [0, 1] ∧ ¬ Matches rs.nLits [0, 1] [0, 1] ∧
      (([0, 1], [3, 0]) : List Nat × List Int) ∈ rs.rules.zip rs.weights := by
  refine ⟨⟨2, 2, false, [[0, 1], [0]], [[3, 0], [-3, 0]]⟩, _, ⟨rfl, by decide, by decide⟩,
    by unfold WeightsFit; decide, rfl,
    by decide, ?_, ?_, by decide⟩
  · unfold Matches; decide
  · unfold Matches; decide

/-- Why the negative clauses have to stay in for `C103_turned`: without them, turning a feature with no
reported importance before or after changes the votes and the class. -/
theorem C103_turned_needs_negative :
    ∃ (rs : Rules) (p : Predictor), RulesOK rs ∧ Predictor.fromRuleset rs "literals" true = .ok p ∧
      (List.range 2).map (fun y => reported (explained p [] [1] [] y) 0) = [0, 0] ∧
      (List.range 2).map (fun y => reported (explained p [] [0] [] y) 1) = [0, 0] ∧
      (p.predict [1]).1.inf.votes = [-3, 0] ∧ (p.predict [0]).1.inf.votes = [0, 0] ∧
      (p.predict [1]).2.toOption = some (.idx 1) ∧ (p.predict [0]).2.toOption = some (.idx 0) :=
  ⟨⟨1, 2, false, [[0]], [[-3, 0]]⟩, _, ⟨rfl, by decide, by decide⟩, rfl, by decide, by decide, by decide,
    by decide, by decide, by decide⟩

/-- `C103_turned` is about one feature. Two features can each have importance 0 for every class while changing
both at once changes the votes and the class. -/
theorem C103_two_at_once :
    ∃ (rs : Rules) (p : Predictor), RulesOK rs ∧ Predictor.fromRuleset rs "literals" false = .ok p ∧
      (List.range 2).map (fun y => reported (explained p [] [1, 1] [] y) 0) = [0, 0] ∧
      (List.range 2).map (fun y => reported (explained p [] [1, 1] [] y) 1) = [0, 0] ∧
      (p.predict [1, 1]).1.inf.votes = [-1, 0] ∧
      (p.predict [0, 0]).1.inf.votes = [0, 0] ∧
      (p.predict [1, 1]).2.toOption = some (.idx 1) ∧ (p.predict [0, 0]).2.toOption = some (.idx 0) :=
  ⟨⟨2, 2, false, [[0], [1], [0, 1]], [[-1, 0], [-1, 0], [1, 0]]⟩, _, ⟨rfl, by decide, by decide⟩, rfl,
    by decide, by decide, by decide, by decide, by decide, by decide⟩

end GT

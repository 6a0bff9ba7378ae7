import Verif.Spec.WhatIf
import Verif.Props.Predictor

/-! # Helper lemmas about explanations and changed examples -/

namespace GT
open Spec

namespace WhatIf

theorem split {α : Type} (f : α → Int) (p q c : α → Bool) : ∀ ps : List α,
    (∀ r ∈ ps, p r = (q r || c r)) → (∀ r ∈ ps, ¬(q r = true ∧ c r = true)) →
    ((ps.filter p).map f).sum = ((ps.filter q).map f).sum + ((ps.filter c).map f).sum
  | [], _, _ => rfl
  | a :: ps, h1, h2 => by
    have ih := split f p q c ps (fun r hr => h1 r (List.mem_cons_of_mem _ hr))
      (fun r hr => h2 r (List.mem_cons_of_mem _ hr))
    have a1 := h1 a (List.mem_cons_self ..)
    have a2 := h2 a (List.mem_cons_self ..)
    simp only [List.filter_cons, a1]
    cases hq : q a <;> cases hc : c a <;> simp_all <;> omega

theorem turned_at (x : List Nat) (i : Nat) (hi : i < x.length) :
    (turned x i)[i]? = some (if x[i]? = some 1 then 0 else 1) := by
  simp [turned, hi]

theorem turned_other (x : List Nat) (i j : Nat) (h : j ≠ i) : (turned x i)[j]? = x[j]? := by
  simp [turned, Ne.symm h]

theorem turned_binary (x : List Nat) (hb : Binary x) (i : Nat) : Binary (turned x i) := by
  intro v hv
  rcases List.mem_or_eq_of_mem_set hv with h | h
  · exact hb v h
  · subst h; split <;> simp

theorem turned_length (x : List Nat) (i : Nat) : (turned x i).length = x.length := by simp [turned]

theorem at_binary (x : List Nat) (hb : Binary x) (i : Nat) (hi : i < x.length) :
    x[i]? = some 0 ∨ x[i]? = some 1 := by
  rw [List.getElem?_eq_getElem hi]
  rcases hb _ (List.getElem_mem hi) with h | h <;> simp [h]

/-- A rule that matches and does not use the literal that is true of feature `i` does not use feature `i`. -/
theorem matches_turned (n : Nat) (x : List Nat) (i : Nat) (hi : i < n)
    (r : List Nat) (hm : Matches n x r) (hl : trueLiteral n x i ∉ r) :
    Matches n (turned x i) r ∧ trueLiteral n (turned x i) i ∉ r := by
  have hlit : ∀ j ∈ r, j ≠ i ∧ j ≠ i + n := by
    intro j hj
    have hne : j ≠ trueLiteral n x i := fun h => hl (h ▸ hj)
    unfold trueLiteral at hne
    rcases hm j hj with ⟨h1, h2⟩ | ⟨h1, h2⟩
    · refine ⟨?_, by omega⟩
      rintro rfl
      rw [if_pos h2] at hne; exact hne rfl
    · refine ⟨by omega, ?_⟩
      rintro rfl
      rw [Nat.add_sub_cancel] at h2
      rw [if_neg (by rw [h2]; simp)] at hne; exact hne rfl
  constructor
  · intro j hj
    obtain ⟨h1, h2⟩ := hlit j hj
    rcases hm j hj with ⟨h3, h4⟩ | ⟨h3, h4⟩
    · exact Or.inl ⟨h3, by rw [turned_other _ _ _ h1]; exact h4⟩
    · exact Or.inr ⟨h3, by rw [turned_other _ _ _ (by omega)]; exact h4⟩
  · intro h
    have := hlit _ h
    unfold trueLiteral at this
    split at this <;> omega

theorem turned_turned (x : List Nat) (hb : Binary x) (i : Nat) (hi : i < x.length) : turned (turned x i) i = x := by
  apply List.ext_getElem?
  intro j
  by_cases h : j = i
  · subst h
    rw [turned_at _ _ (by rw [turned_length]; exact hi), turned_at _ _ hi]
    rcases at_binary x hb j hi with h | h <;> simp [h]
  · rw [turned_other _ _ _ h, turned_other _ _ _ h]

open Classical in
/-- The votes of the rules that match and do not use feature `i`. -/
noncomputable def rest (rs : Rules) (x : List Nat) (i y : Nat) : Int :=
  (((rs.rules.zip rs.weights).filter fun r =>
    decide (Matches rs.nLits x r.1 ∧ trueLiteral rs.nLits x i ∉ r.1)).map fun r => r.2.getD y 0).sum

theorem votes_split (rs : Rules) (x : List Nat) (i y : Nat) :
    ruleSum rs.nLits rs.rules rs.weights x y =
      importance false rs x y (trueLiteral rs.nLits x i) + rest rs x i y := by
  unfold ruleSum importance rest
  apply split
  · intro r _
    rw [Bool.eq_iff_iff]
    simp only [Bool.or_eq_true, decide_eq_true_eq]
    constructor
    · intro h
      by_cases h' : trueLiteral rs.nLits x i ∈ r.1
      · exact Or.inl ⟨h, h', by simp⟩
      · exact Or.inr ⟨h, h'⟩
    · rintro (h | h)
      · exact h.1
      · exact h.1
  · rintro r _ ⟨h1, h2⟩
    simp only [decide_eq_true_eq] at h1 h2
    exact h2.2 h1.2.1

theorem rest_turned (rs : Rules) (x : List Nat) (hb : Binary x) (hx : x.length = rs.nLits) (i y : Nat)
    (hi : i < rs.nLits) : rest rs (turned x i) i y = rest rs x i y := by
  unfold rest
  congr 2
  apply List.filter_congr
  intro r _
  rw [decide_eq_decide]
  constructor
  · rintro ⟨h1, h2⟩
    have := matches_turned rs.nLits (turned x i) i hi r.1 h1 h2
    rwa [turned_turned x hb i (by omega)] at this
  · rintro ⟨h1, h2⟩
    exact matches_turned rs.nLits x i hi r.1 h1 h2

theorem names_none (p : Predictor) (cs : List Call) (h : NoNames cs) (hp : p.names = none) :
    (afterCalls p cs).names = none := by
  unfold afterCalls
  induction cs generalizing p with
  | nil => exact hp
  | cons c cs ih =>
    rw [List.foldl_cons]
    refine ih _ (fun ns hn => h ns (List.mem_cons_of_mem _ hn)) ?_
    cases c with
    | predict x => exact hp
    | explain t =>
      simp only [afterCall, Predictor.explainTarget]
      split
      · exact hp
      · split <;> exact hp
    | explainAll =>
      simp only [afterCall, Predictor.explainAll]
      split <;> exact hp
    | setNames ns => exact absurd (List.mem_cons_self ..) (h ns)

theorem start_names (rs : Rules) (s : String) (excl : Bool) (p : Predictor)
    (hp : Predictor.fromRuleset rs s excl = .ok p) : p.names = none := by
  unfold Predictor.fromRuleset at hp
  split at hp
  · cases hp
  · dsimp only at hp
    split at hp
    · cases hp
    · injection hp with hp; rw [← hp]

theorem reported_eq (rs : Rules) (h : RulesOK rs) (hn : 0 < rs.nClasses) (excl : Bool)
    (p : Predictor) (hp : Predictor.fromRuleset rs "literals" excl = .ok p) (cs ds : List Call)
    (hc : NoNames cs) (hd : NoPredict ds) (hd' : NoNames ds) (x : List Nat) (hb : Binary x) (hx : x.length = rs.nLits)
    (y j : Nat) (hj : j < 2 * rs.nLits) :
    reported (explained p cs x ds y) j = wrap32 (importance excl rs x y j) := by
  unfold explained
  rw [C27_literal_importance rs h hn excl p hp cs ds hd x hb hx
    (names_none _ ds hd' (names_none p cs hc (start_names rs _ _ p hp))) y]
  simp [reported, hj]

theorem sum_nonneg_le : ∀ (l : List Int) (M : Nat), (l.map Int.natAbs).sum ≤ M → (∀ v ∈ l, 0 < v) →
    0 ≤ l.sum ∧ l.sum ≤ M ∧ (l ≠ [] → 0 < l.sum)
  | [], M, _, _ => by simp
  | a :: l, M, hm, hp => by
    simp only [List.map_cons, List.sum_cons] at hm
    have := sum_nonneg_le l (M - a.natAbs) (by omega) (fun v hv => hp v (List.mem_cons_of_mem _ hv))
    have ha := hp a (List.mem_cons_self ..)
    rw [List.sum_cons]
    refine ⟨by omega, by omega, fun _ => by omega⟩

theorem natAbs_sub (y : Nat) (q : List Nat × List Int → Bool) :
    ∀ (rs : List (List Nat)) (ws : List (List Int)),
    ((((rs.zip ws).filter q).map fun r => r.2.getD y 0).map Int.natAbs).sum ≤
      (ws.map fun w => (w.getD y 0).natAbs).sum
  | [], ws => by simp
  | _ :: _, [] => by simp
  | r :: rs, w :: ws => by
    have ih := natAbs_sub y q rs ws
    simp only [List.zip_cons_cons, List.filter_cons]
    split
    · simp only [List.map_cons, List.sum_cons]; omega
    · simp only [List.map_cons, List.sum_cons]; omega

theorem importance_pos (rs : Rules) (x : List Nat) (y j : Nat) (hf : WeightsFit rs y)
    (r : List Nat × List Int) (hr : r ∈ rs.rules.zip rs.weights) (hm : Matches rs.nLits x r.1) (hj : j ∈ r.1)
    (hw : 0 < r.2.getD y 0) : wrap32 (importance true rs x y j) ≠ 0 := by
  have key : ∀ q : List Nat × List Int → Bool,
      (∀ r, q r = true ↔ (Matches rs.nLits x r.1 ∧ j ∈ r.1 ∧ (true = true → 0 < r.2.getD y 0))) →
      wrap32 ((((rs.rules.zip rs.weights).filter q).map fun r => r.2.getD y 0).sum) ≠ 0 := by
    intro q hq
    generalize hl : ((rs.rules.zip rs.weights).filter q).map (fun r => r.2.getD y 0) = l
    have h1 : (l.map Int.natAbs).sum ≤ 2147483647 := by
      rw [← hl]; exact Nat.le_trans (natAbs_sub y _ _ _) hf
    have h2 : ∀ v ∈ l, 0 < v := by
      intro v hv
      rw [← hl] at hv
      obtain ⟨a, ha, rfl⟩ := List.mem_map.mp hv
      exact ((hq a).mp (List.mem_filter.mp ha).2).2.2 rfl
    have h3 : l ≠ [] := by
      rw [← hl]
      intro he
      have : r ∈ (rs.rules.zip rs.weights).filter q :=
        List.mem_filter.mpr ⟨hr, (hq r).mpr ⟨hm, hj, fun _ => hw⟩⟩
      rw [List.map_eq_nil_iff.mp he] at this
      cases this
    obtain ⟨a, b, c⟩ := sum_nonneg_le l _ h1 h2
    have c := c h3
    rw [wrap32_id (by omega) (by omega)]
    omega
  exact key _ (fun r => by simp only [decide_eq_true_eq])

end WhatIf

end GT

import Verif.Lemmas.Ruleset

/-! # Properties of compiled rule sets (C22, C23) -/

namespace GT
open Spec

/-! A state with four clauses over two literals and two classes: the first two include the same literals, the
third is empty, the fourth has only zero weights. -/
def exState : DState :=
  ⟨2, 2, [[0, -5, -5, 3], [4, -1, -9, 0], [-1, -1, -1, -1], [-1, 2, -1, -1]],
    [[3, -1], [4, 0], [7, 7], [0, 0]]⟩

theorem exState_ok : WellShaped exState := by
  constructor
  · rfl
  · decide
  · decide

example : compileDense false exState = .ok ⟨2, 2, false, [[0, 3]], [[7, -1]]⟩ := by decide +kernel

/-- C22, C23: every state of the right shape compiles, and the rule set has its dimensions. -/
theorem C23_compiles (ml : Bool) (s : DState) (h : WellShaped s) :
    ∃ rs, compileDense ml s = .ok rs ∧ rs.nLits = s.nLits ∧ rs.nClasses = s.nClasses ∧ rs.multiLabel = ml := by
  obtain ⟨m, -, -, hc⟩ := compileDense_spec ml s h
  exact ⟨_, hc, rfl, rfl, rfl⟩

theorem compileLoop_missing (n : Nat) (ws : List (List Int)) (rows : List (List Int)) (k : Nat) (m : List (List Nat × List Int)) :
    ((∃ r, compileLoop n ws rows k m = .ok r) ↔ ∀ i row, rows[i]? = some row → ws.length ≤ k + i → ∀ j, ¬ Included row j) ∧
    (∀ r, compileLoop n ws rows k m = .ok r → compileLoop n ws (rows.take (ws.length - k)) k m = .ok r) := by
  induction rows generalizing k m with
  | nil => simp [compileLoop]
  | cons row rows ih =>
    have hshift : ∀ (P : Nat → List Int → Prop), (∀ i r, (row :: rows)[i]? = some r → P i r) ↔
        P 0 row ∧ ∀ i r, rows[i]? = some r → P (i + 1) r := by
      intro P
      constructor
      · intro h
        exact ⟨h 0 row rfl, fun i r hr => h (i + 1) r hr⟩
      · rintro ⟨h0, h1⟩ i r hr
        cases i with
        | zero => cases hr; exact h0
        | succ i => exact h1 i r hr
    have hsplit := hshift fun i r => ws.length ≤ k + i → ∀ j, ¬ Included r j
    rw [hsplit]
    cases hw : ws[k]? with
    | some w =>
      obtain ⟨hk, -⟩ := List.getElem?_eq_some_iff.mp hw
      obtain ⟨i1, i2⟩ := ih (k + 1) (compileStep n m row w)
      rw [show ws.length - k = (ws.length - (k + 1)) + 1 by omega, List.take_succ_cons]
      simp only [compileLoop, hw]
      refine ⟨i1.trans ⟨fun h => ⟨fun h' => by omega, fun i r hr hl => h i r hr (by omega)⟩,
        fun h i r hr hl => h.2 i r hr (by omega)⟩, i2⟩
    | none =>
      have hk := List.getElem?_eq_none_iff.mp hw
      obtain ⟨i1, i2⟩ := ih (k + 1) m
      rw [show ws.length - k = 0 by omega]
      rw [show ws.length - (k + 1) = 0 by omega] at i2
      simp only [compileLoop, hw, List.take_zero] at i2 ⊢
      have hon : (onLiterals row 0).length < 1 ↔ ∀ j, ¬ Included row j := by
        constructor
        · intro h j hj
          have : j ∈ onLiterals row 0 := (mem_onLiterals row 0 j).mpr ⟨by omega, by simpa using hj⟩
          have := List.length_pos_of_mem this
          omega
        · intro h
          cases ho : onLiterals row 0 with
          | nil => simp
          | cons a l =>
            have : a ∈ onLiterals row 0 := by rw [ho]; simp
            exact absurd (by simpa using ((mem_onLiterals row 0 a).mp this).2) (h a)
      by_cases hc : (onLiterals row 0).length < 1
      · rw [if_pos hc]
        refine ⟨i1.trans ⟨fun h => ⟨fun _ => hon.mp hc, fun i r hr hl => h i r hr (by omega)⟩,
          fun h i r hr hl => h.2 i r hr (by omega)⟩, i2⟩
      · rw [if_neg hc]
        refine ⟨⟨(by rintro ⟨r, hr⟩; cases hr), fun h => absurd (hon.mpr (h.1 (by omega))) hc⟩, by intro r hr; cases hr⟩

/-- C23, weights of fewer clauses than there are: the state compiles exactly if the clauses without weights include no literal, and
then the rules are those of the clauses that have weights. -/
theorem C23_missing_weights (ml : Bool) (s : DState) :
    ((∃ rs, compileDense ml s = .ok rs) ↔ ∀ i row, s.c[i]? = some row → s.w.length ≤ i → ∀ j, ¬ Included row j) ∧
    (∀ rs, compileDense ml s = .ok rs → compileDense ml { s with c := s.c.take s.w.length } = .ok rs) := by
  obtain ⟨h1, h2⟩ := compileLoop_missing s.nClasses s.w s.c 0 []
  simp only [Nat.zero_add, Nat.sub_zero] at h1 h2
  unfold compileDense
  constructor
  · rw [← h1]
    cases hl : compileLoop s.nClasses s.w s.c 0 [] with
    | ok m => exact ⟨fun _ => ⟨m, rfl⟩, fun _ => ⟨_, rfl⟩⟩
    | error e => exact ⟨(by rintro ⟨_, h⟩; cases h), (by rintro ⟨_, h⟩; cases h)⟩
  · intro rs h
    cases hl : compileLoop s.nClasses s.w s.c 0 [] with
    | ok m =>
      rw [hl] at h
      simp only [h2 m hl]
      exact h
    | error e => rw [hl] at h; cases h

example : compileDense false ⟨1, 2, [[0, -5], [-1, -1]], [[3, -1]]⟩ = .ok ⟨1, 2, false, [[0]], [[3, -1]]⟩ := by decide +kernel

/-- C23: rules are distinct and non-empty, list existing literals in strictly increasing order, and each has
one 16-bit weight per class. -/
theorem C23_well_formed (ml : Bool) (s : DState) (h : WellShaped s) (rs : Rules)
    (hc : compileDense ml s = .ok rs) :
    rs.rules.Nodup ∧ rs.weights.length = rs.rules.length ∧
    (∀ r ∈ rs.rules, r ≠ [] ∧ r.Pairwise (· < ·) ∧ ∀ i ∈ r, i < 2 * s.nLits) ∧
    (∀ w ∈ rs.weights, w.length = s.nClasses ∧ ∀ v ∈ w, -32768 ≤ v ∧ v ≤ 32767) := by
  obtain ⟨m, hi, -, hc'⟩ := compileDense_spec ml s h
  rw [hc'] at hc
  obtain rfl := Except.ok.inj hc
  refine ⟨hi.nodup, by simp, ?_, ?_⟩
  · intro r hr
    obtain ⟨e, he, rfl⟩ := List.mem_map.mp hr
    obtain ⟨hne, p, hp, hpe⟩ := hi.keys e he
    refine ⟨hne, hpe ▸ onLiterals_sorted p.1 0, ?_⟩
    intro i hi'
    rw [← hpe] at hi'
    have := included_lt ((mem_onLiterals p.1 0 i).mp hi').2
    rw [h.states p.1 (List.of_mem_zip hp).1] at this
    omega
  · intro w hw
    obtain ⟨e, he, rfl⟩ := List.mem_map.mp hw
    refine ⟨by simpa using hi.len e he, ?_⟩
    intro v hv
    obtain ⟨a, -, rfl⟩ := List.mem_map.mp hv
    unfold wrap16
    omega

/-- C23: every rule is the literal set of some clause and every clause with an
included literal and a non-zero weight has its rule. -/
theorem C23_rules_are_clauses (ml : Bool) (s : DState) (h : WellShaped s) (rs : Rules)
    (hc : compileDense ml s = .ok rs) :
    (∀ r ∈ rs.rules, ∃ c ∈ stateClauses s, IncludesExactly s.nLits c r) ∧
    (∀ c ∈ stateClauses s, ¬ EmptyClause c.1 c.2.1 → (∃ v ∈ c.2.2, v ≠ 0) →
      ∃ r ∈ rs.rules, IncludesExactly s.nLits c r) := by
  obtain ⟨m, hm, hc'⟩ : ∃ m : RMap, m = loopZ s.nClasses [] (s.c.zip s.w) ∧
      rs.rules = m.map (·.1) := by
    refine ⟨_, rfl, ?_⟩
    unfold compileDense at hc
    have := compileLoop_wrap s.nClasses s.w s.c 0 [] (by simpa using h.rows)
    simp only [wrapMap, List.map_nil] at this
    rw [this] at hc
    obtain rfl := Except.ok.inj hc
    simp
  have hw : ∀ p ∈ s.c.zip s.w, p.2.length = s.nClasses := by
    intro p hp
    exact h.weights p.2 (List.of_mem_zip hp).2
  have hi : RInv s.nClasses (s.c.zip s.w) m := by
    have := rinv_loop s.nClasses (s.c.zip s.w) [] [] hw (rinv_nil _)
    rw [hm]; simpa using this
  constructor
  · intro r hr
    rw [hc'] at hr
    obtain ⟨e, he, rfl⟩ := List.mem_map.mp hr
    obtain ⟨-, p, hp, hpe⟩ := hi.keys e he
    refine ⟨(p.1.take s.nLits, p.1.drop s.nLits, p.2), ?_, ?_⟩
    · rw [stateClauses_eq]; exact List.mem_map.mpr ⟨p, hp, rfl⟩
    · rw [← hpe]; exact onLiterals_exact s.nLits p.1 p.2
  · intro c hcm hne hnz
    rw [stateClauses_eq] at hcm
    obtain ⟨p, hp, rfl⟩ := List.mem_map.mp hcm
    refine ⟨onLiterals p.1 0, ?_, onLiterals_exact s.nLits p.1 p.2⟩
    rw [hc', hm]
    rw [← empty_iff s.nLits p.1 p.2] at hne
    exact loopZ_has s.nClasses (s.c.zip s.w) [] p hp hne hnz

/-- C22: for every example and class, the weights of the matching rules add up, in 16-bit arithmetic, to what
the clauses of the state that fire add up to. -/
theorem C22_votes_mod (ml : Bool) (s : DState) (h : WellShaped s) (rs : Rules)
    (hc : compileDense ml s = .ok rs) (x : List Nat) (k : Nat) (hk : k < s.nClasses) :
    wrap16 (ruleSum rs.nLits rs.rules rs.weights x k) = wrap16 (firingSum (stateClauses s) x k) := by
  obtain ⟨m, -, hm, hc'⟩ := compileDense_spec ml s h
  rw [hc'] at hc
  obtain rfl := Except.ok.inj hc
  rw [← hm x k hk]
  exact ruleSum_wrap s.nLits x m k

/-- C22: the vote of the rule set equals the vote of the state exactly, unless identical clauses have weights
that add up to something outside 16 bits. -/
theorem C22_votes_exact (ml : Bool) (s : DState) (h : WellShaped s) (hf : MergesFit s) (rs : Rules)
    (hc : compileDense ml s = .ok rs) (x : List Nat) (k : Nat) (hk : k < s.nClasses) :
    ruleSum rs.nLits rs.rules rs.weights x k = firingSum (stateClauses s) x k := by
  obtain ⟨m, hi, hm, hc'⟩ := compileDense_spec ml s h
  rw [hc'] at hc
  obtain rfl := Except.ok.inj hc
  rw [← hm x k hk]
  have : m.map (fun e => e.2.map wrap16) = m.map (·.2) := by
    apply List.map_congr_left
    intro e he
    apply List.ext_getElem?
    intro j
    rw [List.getElem?_map]
    by_cases hj : j < e.2.length
    · have hn := hi.len e he
      obtain ⟨hne, p, hp, hpe⟩ := hi.keys e he
      have hg := ruleGet_of_mem m hi.nodup e.1 e.2 he
      have hv := hi.some e.1 e.2 hg j (by omega)
      have hfit := hf e.1 j (by omega)
      rw [stateClauses_eq, sameClauseSum_eq _ _ _ _ (hpe ▸ onLiterals_sorted p.1 0), ← hv] at hfit
      simp only [List.getD, List.getElem?_eq_getElem hj, Option.getD_some] at hfit
      rw [List.getElem?_eq_getElem hj]
      simp [wrap16_id hfit.1 hfit.2]
    · simp [show e.2.length ≤ j by omega]
  simp only [this]
  exact ruleSum_map s.nLits x m k

theorem exState_fit : MergesFit exState := mergesFit_of_bound exState (by decide)

example : ∀ rs, compileDense false exState = .ok rs →
    ruleSum rs.nLits rs.rules rs.weights [1, 0] 0 = firingSum (stateClauses exState) [1, 0] 0 :=
  fun rs hc => C22_votes_exact false exState exState_ok exState_fit rs hc [1, 0] 0 (by decide)

/-- C22: the condition cannot be dropped. Two identical clauses with weight 20000 each compile to a rule of
weight -25536, so the rule set votes against a class that the machine's clauses vote for. -/
theorem C22_merge_overflow :
    ∃ s rs x, WellShaped s ∧ compileDense false s = .ok rs ∧
      ruleSum rs.nLits rs.rules rs.weights x 0 = -25536 ∧ firingSum (stateClauses s) x 0 = 40000 := by
  refine ⟨⟨1, 1, [[0, -1], [0, -1]], [[20000], [20000]]⟩, ⟨1, 1, false, [[0]], [[-25536]]⟩, [1],
    ⟨rfl, by decide, by decide⟩, by decide +kernel, ?_, ?_⟩
  · simp only
    rw [ruleSum_cons, if_pos (by decide)]
    simp [ruleSum]
  · have hf : Fires [1] ([0], [-1], [20000]) := by
      have h1 : ∀ i, Included [0] i → i = 0 := by
        intro i hi; have := included_lt hi; simp at this; exact this
      have h2 : ∀ i, ¬ Included [-1] i := by
        rintro i ⟨v, hv, h0⟩
        match i with
        | 0 => simp at hv; omega
        | i + 1 => simp at hv
      exact ⟨fun h => h.1 0 ⟨0, rfl, by omega⟩, fun i hi => by rw [h1 i hi]; rfl, fun i hi => absurd hi (h2 i)⟩
    have e : stateClauses ⟨1, 1, [[0, -1], [0, -1]], [[20000], [20000]]⟩ =
        [([0], [-1], [20000]), ([0], [-1], [20000])] := rfl
    classical
    rw [e, firingSum_cons, firingSum_cons, if_pos hf]
    simp [firingSum]

end GT

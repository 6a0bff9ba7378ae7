import Verif.Lemmas.InferFlat
import Verif.Lemmas.SparseRules
import Verif.Props.Predictor
import Verif.Props.SparseState

/-! # The predictor stays inside its arrays (C81) -/

namespace GT
open Spec InferMem FlatMem

theorem exRules_fits : RulesFit exRules := ⟨exRules_ok, by decide, by decide, by
  intro c hc
  have : c = 0 ∨ c = 1 := by simp only [exRules] at hc; omega
  rcases this with rfl | rfl <;> decide⟩

/-- C81: creating a predictor never has undefined behaviour, and its outcome does not depend on what memory held. -/
theorem C81_creation (rs : Rules) (s : String) (excl : Bool) (junk : Nat → Nat) (h : rs.nLits * 2 < 2147483648) :
    (∀ e, Predictor.fromRuleset rs s excl = .error e → PredM.fromRuleset rs s excl junk = some (.error e)) ∧
    (∀ p, Predictor.fromRuleset rs s excl = .ok p →
      ∃ b, PredM.fromRuleset rs s excl junk = some (.ok ⟨p, b⟩) ∧ b.length = 2 * rs.nLits) := by
  rw [from_eq rs s excl junk h]
  constructor
  · intro e he; rw [he]
  · intro p hp; rw [hp]; exact ⟨_, rfl, by simp; omega⟩

/-- C81, for calls as they are meant: every history of such calls stays inside the arrays, no sum overflows, and every
answer is the one of the model without memory, whatever the buffer held before. Missing: the calls of the theorems below. -/
theorem C81_inside_partial (rs : Rules) (hf : RulesFit rs) (s : String) (excl : Bool) (p : Predictor)
    (hp : Predictor.fromRuleset rs s excl = .ok p) (junk : Nat → Nat) (cs : List Call) (hc : ∀ c ∈ cs, Proper rs c) :
    ∃ q0 q, PredM.fromRuleset rs s excl junk = some (.ok q0) ∧ callsC q0 cs = some (q, answers p cs) ∧
      q.p = afterCalls p cs := by
  have h1 := from_eq rs s excl junk hf.lits
  rw [hp] at h1
  obtain ⟨b, h2, -⟩ := calls_ok rs hf cs _ (inv_new rs s excl p hp junk) hc
  exact ⟨_, _, h1, h2, rfl⟩

example : RulesFit exRules ∧ (∃ p, Predictor.fromRuleset exRules "literals" false = .ok p) ∧
    ∀ c ∈ [Call.predict [1, 0, 9], .setNames ["a", "b"], .explain (some (.name "b")), .explain none, .explainAll],
      Proper exRules c := by
  refine ⟨exRules_fits, ⟨_, rfl⟩, ?_⟩
  intro c hc
  simp only [List.mem_cons, List.not_mem_nil, or_false] at hc
  rcases hc with rfl | rfl | rfl | rfl | rfl <;> simp [Proper, exRules]

/-- C81: the answers of such a history are the same for all contents of uninitialised memory. -/
theorem C81_independent_of_memory (rs : Rules) (hf : RulesFit rs) (s : String) (excl : Bool) (p : Predictor)
    (hp : Predictor.fromRuleset rs s excl = .ok p) (junk junk' : Nat → Nat) (cs : List Call)
    (hc : ∀ c ∈ cs, Proper rs c) (q0 q0' q q' : PredM) (as as' : List Answer)
    (h0 : PredM.fromRuleset rs s excl junk = some (.ok q0)) (h1 : callsC q0 cs = some (q, as))
    (h0' : PredM.fromRuleset rs s excl junk' = some (.ok q0')) (h1' : callsC q0' cs = some (q', as')) : as = as' := by
  obtain ⟨a, b, ha, hb, -⟩ := C81_inside_partial rs hf s excl p hp junk cs hc
  obtain ⟨a', b', ha', hb', -⟩ := C81_inside_partial rs hf s excl p hp junk' cs hc
  rw [h0] at ha
  obtain rfl := Except.ok.inj (Option.some.inj ha)
  rw [h0'] at ha'
  obtain rfl := Except.ok.inj (Option.some.inj ha')
  rw [h1] at hb
  rw [h1'] at hb'
  cases hb
  cases hb'
  rfl

/-- C81: after any such history, `predict` stays inside the memory of the example exactly when the example has at least as
many elements as there are literals. -/
theorem C81_predict_defined_iff (rs : Rules) (hf : RulesFit rs) (s : String) (excl : Bool) (p : Predictor)
    (hp : Predictor.fromRuleset rs s excl = .ok p) (junk : Nat → Nat) (cs : List Call) (hc : ∀ c ∈ cs, Proper rs c)
    (q0 q : PredM) (as : List Answer) (h0 : PredM.fromRuleset rs s excl junk = some (.ok q0))
    (h1 : callsC q0 cs = some (q, as)) (x : List Nat) :
    (callC q (.predict x)).isSome ↔ rs.nLits ≤ x.length := by
  have e := from_eq rs s excl junk hf.lits
  rw [hp, h0] at e
  obtain rfl := Except.ok.inj (Option.some.inj e)
  obtain ⟨b, h2, hi⟩ := calls_ok rs hf cs _ (inv_new rs s excl p hp junk) hc
  rw [h1] at h2
  obtain ⟨rfl, rfl⟩ := Prod.mk.inj (Option.some.inj h2)
  constructor
  · intro h
    by_contra hx
    have hn := copyC_none x b rs.nLits (by omega)
    have : (PredM.mk (afterCalls p cs) b).predict x = none := by
      unfold PredM.predict InfM.predict PredM.back
      dsimp only
      rw [hi.good.holds.lits, hn]
      rfl
    simp only [callC, this, Option.map_none, Option.isSome_none] at h
    cases h
  · intro h
    obtain ⟨b', h3, -⟩ := call_ok rs hf _ hi (.predict x) h
    rw [h3]; rfl

/-- No rule is active exactly when none matches. -/
theorem active_nil_iff (rs : Rules) (h : RulesOK rs) (x : List Nat) (act : List Nat)
    (ha : pairs rs.rules rs.weights act = (rs.rules.zip rs.weights).filter (fun r => decide (Matches rs.nLits x r.1))) :
    act = [] ↔ ∀ r ∈ rs.rules, ¬ Matches rs.nLits x r := by
  constructor
  · intro he r hr hm
    rw [he] at ha
    obtain ⟨k, hk, rfl⟩ := List.getElem_of_mem hr
    have hkw : k < rs.weights.length := by rw [h.rows]; exact hk
    have hmem : (rs.rules[k], rs.weights[k]) ∈ rs.rules.zip rs.weights := by
      rw [List.mem_iff_getElem]
      exact ⟨k, by simp [hk, hkw], by simp⟩
    have : (rs.rules[k], rs.weights[k]) ∈ (rs.rules.zip rs.weights).filter
        (fun r => decide (Matches rs.nLits x r.1)) := List.mem_filter.mpr ⟨hmem, by simpa using hm⟩
    rw [← ha] at this
    simp [pairs] at this
  · intro hn
    have : (rs.rules.zip rs.weights).filter (fun r => decide (Matches rs.nLits x r.1)) = [] := by
      rw [List.filter_eq_nil_iff]
      intro r hr
      simpa using hn r.1 (List.of_mem_zip hr).1
    rw [this] at ha
    simpa [pairs] using ha

/-- The predictor after predicting `x` and calling anything but `predict`. -/
theorem reached_after (rs : Rules) (hf : RulesFit rs) (excl : Bool) (p : Predictor)
    (hp : Predictor.fromRuleset rs "literals" excl = .ok p) (junk : Nat → Nat) (cs ds : List Call)
    (hd : NoPredict ds) (x : List Nat) (hb : Binary x) (hx : x.length = rs.nLits)
    (hc : ∀ c ∈ cs ++ .predict x :: ds, Proper rs c)
    (q0 q : PredM) (as : List Answer) (h0 : PredM.fromRuleset rs "literals" excl junk = some (.ok q0))
    (h1 : callsC q0 (cs ++ .predict x :: ds) = some (q, as)) :
    Inv rs q ∧ q.p.expl = .literals ∧ q.p = afterCalls p (cs ++ .predict x :: ds) ∧
      (q.p.inf.active = [] ↔ ∀ r ∈ rs.rules, ¬ Matches rs.nLits x r) := by
  have e := from_eq rs "literals" excl junk hf.lits
  rw [hp, h0] at e
  obtain rfl := Except.ok.inj (Option.some.inj e)
  obtain ⟨b, h2, hi⟩ := calls_ok rs hf _ _ (inv_new rs "literals" excl p hp junk) hc
  rw [h1] at h2
  obtain ⟨rfl, rfl⟩ := Prod.mk.inj (Option.some.inj h2)
  have hcalls : afterCalls p (cs ++ .predict x :: ds) = afterCalls ((afterCalls p cs).predict x).1 ds := by
    unfold afterCalls
    rw [List.foldl_append]
    rfl
  obtain ⟨-, a2, -, -, a5⟩ := after_predict rs hf.ok hf.classes excl p hp cs ds hd x hb hx
  rw [← hcalls] at a2 a5
  exact ⟨hi, a2, rfl, active_nil_iff rs hf.ok x _ a5⟩

/-- C81: when the last prediction was for `x`, explaining class `k` stays inside the arrays exactly when the class exists or
no rule matches `x`: the index is not checked. -/
theorem C81_explain_defined_iff (rs : Rules) (hf : RulesFit rs) (excl : Bool) (p : Predictor)
    (hp : Predictor.fromRuleset rs "literals" excl = .ok p) (junk : Nat → Nat) (cs ds : List Call)
    (hd : NoPredict ds) (x : List Nat) (hb : Binary x) (hx : x.length = rs.nLits)
    (hc : ∀ c ∈ cs ++ .predict x :: ds, Proper rs c)
    (q0 q : PredM) (as : List Answer) (h0 : PredM.fromRuleset rs "literals" excl junk = some (.ok q0))
    (h1 : callsC q0 (cs ++ .predict x :: ds) = some (q, as)) (hn : q.p.names = none) (k : Nat) :
    (callC q (.explain (some (.idx k)))).isSome ↔ k < rs.nClasses ∨ ∀ r ∈ rs.rules, ¬ Matches rs.nLits x r := by
  obtain ⟨hi, he, -, ha⟩ := reached_after rs hf excl p hp junk cs ds hd x hb hx hc q0 q as h0 h1
  rw [← ha]
  have hcls : explainClass q.p (some (.idx k)) = .ok k := by simp [explainClass, hn]
  have hne : ¬ q.p.expl = .none := by rw [he]; simp
  by_cases hk : k < rs.nClasses
  · obtain ⟨b', h3, -⟩ := call_ok rs hf _ hi (.explain (some (.idx k))) hk
    rw [h3]; simp [hk]
  · by_cases hact : q.p.inf.active = []
    · have h2 := explain_idle q.back k hact
      simp only [callC, PredM.explainTarget, if_neg hne, hcls, h2, hact]
      simp
    · have h2 := explain_none rs hf q.back hi.good k (by omega) hact
      simp only [callC, PredM.explainTarget, if_neg hne, hcls, h2]
      simp [hk, hact]

example : ∃ p, Predictor.fromRuleset exRules "literals" false = .ok p ∧ Binary [1, 0] ∧
    Matches exRules.nLits [1, 0] [0, 3] ∧ ∃ q0 q as, PredM.fromRuleset exRules "literals" false (fun _ => 77) = some (.ok q0) ∧
      callsC q0 ([] ++ .predict [1, 0] :: [.explainAll]) = some (q, as) ∧ q.p.names = none := by
  obtain ⟨q0, q, h0, h1, h2⟩ := C81_inside_partial exRules exRules_fits "literals" false _ rfl (fun _ => 77)
    [.predict [1, 0], .explainAll] (by
      intro c hc
      simp only [List.mem_cons, List.not_mem_nil, or_false] at hc
      rcases hc with rfl | rfl <;> simp [Proper, exRules])
  refine ⟨_, rfl, by decide, ?_, q0, q, _, h0, h1, by rw [h2]; rfl⟩
  intro i hi
  simp only [List.mem_cons, List.not_mem_nil, or_false] at hi
  rcases hi with rfl | rfl
  · exact Or.inl ⟨by decide, rfl⟩
  · exact Or.inr ⟨by decide, rfl⟩

/-- C81: with more target names than classes, explaining a surplus name reads outside the weights, whenever a rule matches the
last example. -/
theorem C81_surplus_name_outside (rs : Rules) (hf : RulesFit rs) (excl : Bool) (p : Predictor)
    (hp : Predictor.fromRuleset rs "literals" excl = .ok p) (junk : Nat → Nat) (cs ds : List Call)
    (hd : NoPredict ds) (x : List Nat) (hb : Binary x) (hx : x.length = rs.nLits)
    (hc : ∀ c ∈ cs ++ .predict x :: ds, Proper rs c)
    (q0 q : PredM) (as : List Answer) (h0 : PredM.fromRuleset rs "literals" excl junk = some (.ok q0))
    (h1 : callsC q0 (cs ++ .predict x :: ds) = some (q, as)) (r : List Nat) (hr : r ∈ rs.rules) (hm : Matches rs.nLits x r)
    (names : List String) (hnd : names.Nodup) (k : Nat) (hk : rs.nClasses ≤ k) (name : String) (hname : names[k]? = some name) :
    callC (q.setTargetNames names) (.explain (some (.name name))) = none := by
  obtain ⟨hi, he, -, ha⟩ := reached_after rs hf excl p hp junk cs ds hd x hb hx hc q0 q as h0 h1
  have hact : ¬ q.p.inf.active = [] := fun h => ha.mp h r hr hm
  have hne : ¬ (q.setTargetNames names).p.expl = .none := by
    show ¬ q.p.expl = .none
    rw [he]; simp
  have hcls : explainClass (q.setTargetNames names).p (some (.name name)) = .ok k := by
    have := invName_at names hnd k 0 name hname
    rw [Nat.zero_add] at this
    simp [explainClass, PredM.setTargetNames, Predictor.setTargetNames, this]
  have h2 : (q.setTargetNames names).back.explain k = none :=
    explain_none rs hf (q.setTargetNames names).back hi.good k hk hact
  simp only [callC, PredM.explainTarget, if_neg hne, hcls, h2]
  rfl

example : (["a", "b", "c"] : List String).Nodup ∧ exRules.nClasses ≤ 2 ∧ (["a", "b", "c"] : List String)[2]? = some "c" := by
  decide

/-! ### Which rule sets fit -/

theorem ruleSet_length (m : List (List Nat × List Int)) (key : List Nat) (v : List Int) :
    (ruleSet m key v).length = m.length := by
  induction m with
  | nil => rfl
  | cons e m ih =>
    rw [ruleSet]
    split <;> simp [ih]

theorem compileLoop_length (n : Nat) (ws : List (List Int)) (rows : List (List Int)) :
    ∀ (k : Nat) (m m' : List (List Nat × List Int)), compileLoop n ws rows k m = .ok m' →
      m'.length ≤ m.length + rows.length := by
  induction rows with
  | nil => intro k m m' h; cases h; simp
  | cons row rows ih =>
    intro k m m' h
    rw [compileLoop] at h
    simp only [List.length_cons]
    split at h
    · rename_i w hw
      have := ih _ _ _ h
      have hs : (compileStep n m row w).length ≤ m.length + 1 := by
        unfold compileStep
        dsimp only
        split
        · omega
        · split
          · rw [ruleSet_length]; omega
          · split
            · omega
            · simp
      omega
    · split at h
      · have := ih _ _ _ h; omega
      · cases h

theorem absSum_le (ws : List (List Int)) (c : Nat) (h : ∀ w ∈ ws, ∀ v ∈ w, -32768 ≤ v ∧ v ≤ 32767) :
    absSum ws c ≤ ws.length * 32768 := by
  induction ws with
  | nil => simp [absSum]
  | cons w ws ih =>
    have h1 := ih (fun w' hw' => h w' (by simp [hw']))
    have h2 : (w.getD c 0).natAbs ≤ 32768 := by
      by_cases hc : c < w.length
      · have := h w (by simp) w[c] (List.getElem_mem hc)
        have e : w.getD c 0 = w[c] := by simp [List.getD, hc]
        omega
      · have e : w.getD c 0 = 0 := by simp [List.getD, Nat.le_of_not_lt hc]
        rw [e]; simp
    simp only [absSum, List.map_cons, List.sum_cons, List.length_cons] at h1 ⊢
    omega

/-- C81: the rule set compiled from a machine with at most 65535 clauses fits. -/
theorem C81_compiled_fits (ml : Bool) (st : DState) (hw : WellShaped st) (rs : Rules) (hc : compileDense ml st = .ok rs)
    (h0 : 0 < st.nClasses) (hl : st.nLits * 2 < 2147483648) (hn : st.c.length ≤ 65535) : RulesFit rs := by
  obtain ⟨hok, e1, e2⟩ := compiled_ok ml st hw rs hc
  obtain ⟨-, hrw, -, hwt⟩ := C23_well_formed ml st hw rs hc
  have hlen : rs.rules.length ≤ 65535 := by
    unfold compileDense at hc
    split at hc
    · rename_i m hm
      cases hc
      have := compileLoop_length _ _ _ _ _ _ hm
      simp at this ⊢
      omega
    · cases hc
  refine ⟨hok, by omega, by rw [e1]; exact hl, ?_⟩
  intro c _
  have := absSum_le rs.weights c (fun w hw' => (hwt w hw').2)
  unfold absSum at this
  omega

example : WellShaped wideState ∧ 0 < wideState.nClasses ∧ wideState.nLits * 2 < 2147483648 ∧ wideState.c.length ≤ 65535 :=
  ⟨⟨rfl, by decide, by decide⟩, by decide, by decide, by decide⟩

/-- C81: so does the one compiled from the state of a sparse machine. -/
theorem C81_sparse_compiled_fits (ml : Bool) (m n nClauses : Nat) (bs : List SBlock)
    (hl : (bs.flatMap (·.clauses)).length = nClauses) (h : ∀ b ∈ bs, ∀ c ∈ b.clauses, SClauseOK m n c)
    (rs : Rules) (hc : compileSparse ml n (sLoad m nClauses n bs) = .ok rs)
    (h0 : 0 < n) (h32 : m * 2 < 2147483648) (hn : nClauses ≤ 65535) : RulesFit rs := by
  have h' : ∀ c ∈ bs.flatMap (·.clauses), SClauseOK m n c := by
    intro c hc
    obtain ⟨b, hb, hcb⟩ := List.mem_flatMap.mp hc
    exact h b hb c hcb
  rw [sLoad_eq m nClauses n bs hl] at hc
  obtain ⟨rs', e1, e2⟩ := compileSparse_eq ml m n bs h' ⟨some m, (bs.flatMap (·.clauses)).map (·.w), bs.map (·.getCsr),
    bs.map (·.getAL)⟩ rfl rfl rfl
  rw [hc] at e1
  cases e1
  exact C81_compiled_fits ml _ (aboveState_shaped m n _ h') rs e2 h0 h32 (by
    show (List.map _ _).length ≤ _
    rw [List.length_map, hl]; exact hn)

/-! ### Where it fails -/

/-- C81 fails for the rules compiled from a copy of a sparse state: the copy has lost the number of literals, the rules use
literals beyond the guessed number, and predicting an example with all its literals reads outside the example buffer. -/
theorem C81_copied_state_outside :
    ∃ (s : SparseSt) (rs rs' : Rules) (q : PredM), compileSparse false 2 s = .ok rs ∧ rs.nLits = 6 ∧
      compileSparse false 2 s.copy = .ok rs' ∧ PredM.fromRuleset rs' "none" false (fun _ => 0) = some (.ok q) ∧
      q.predict [1, 1, 1, 1, 1, 1] = none :=
  ⟨sLoad 6 2 2 [⟨6, 2, exSCfg, [⟨[(1, 3)], [], [1, 2], 0, 0⟩], [([], 0), ([], 0)], [0, 0], exQuarter⟩,
    ⟨6, 2, exSCfg, [⟨[(5, 3)], [], [3, 4], 0, 0⟩], [([], 0), ([], 0)], [0, 0], exQuarter⟩],
    ⟨6, 2, false, [[1], [5]], [[1, 2], [3, 4]]⟩, ⟨2, 2, false, [[1], [5]], [[1, 2], [3, 4]]⟩,
    ⟨⟨.none, ⟨false, false, false, 2, 2, 0, [[1], [5]], [[1, 2], [3, 4]], [], [], [0, 0], [], []⟩, none, none⟩, [0, 0, 0, 0]⟩,
    by decide +kernel, rfl, by decide +kernel, (from_eq _ _ _ _ (by decide)).trans rfl, by decide +kernel⟩

/-- C81: the object below the predictor compares the number of feature lists with the number of features, not of rules, so it
accepts too few lists and then reads beyond them. -/
theorem C81_too_few_feature_lists_outside :
    ∃ (m m' m'' : InfM), InfM.new true false false 2 2 1 (fun _ => 0) = some (.ok m) ∧
      (m.setRules [[0], [1]] [[1, 0], [0, 1]]).setFeatures [[0]] = .ok m' ∧
      (m'.predict [1, 1]).map (·.1) = some m'' ∧ m''.explain 0 = none :=
  ⟨_, _, _, rfl, rfl, rfl, by decide +kernel⟩

/-- C81: and after other rules are set it explains with the active rules of the old ones. -/
theorem C81_rules_replaced_outside :
    ∃ (m m' : InfM), InfM.new false true false 2 2 (-1) (fun _ => 0) = some (.ok m) ∧
      ((m.setRules [[0], [1]] [[1, 0], [0, 1]]).predict [1, 1]).map (·.1) = some m' ∧
      (m'.setRules [[0]] [[1, 0]]).explain 0 = none :=
  ⟨_, _, rfl, rfl, by decide +kernel⟩

/-- The class of an example that matches no rule is what was set, and 0 otherwise. -/
theorem C81_empty_class (m : InfM) (x : List Nat) (k : Nat) (m' : InfM) (y : Nat)
    (h : (m.setEmptyClass k).predict x = some (m', y)) (ha : m'.inf.active = []) :
    y = k ∧ (m.setEmptyClass k).getEmptyClass = k := by
  refine ⟨?_, rfl⟩
  unfold InfM.predict at h
  simp only [Option.bind_eq_bind, Option.bind_eq_some_iff] at h
  obtain ⟨b1, -, b2, -, s, -, h⟩ := h
  split at h
  · cases h; rfl
  · rename_i hne
    simp only [Option.bind_eq_some_iff, Option.pure_def, Option.some.injEq, Prod.mk.injEq] at h
    obtain ⟨w, -, rfl, -⟩ := h
    simp only at ha
    rw [ha] at hne
    exact absurd rfl hne

end GT

import Verif.Lemmas.Predictor
import Verif.Props.Ruleset
import Verif.Props.Executor

/-! # Properties of the predictor (C24, C27, C46) -/

namespace GT
open Spec

/-! A rule set with two rules over two literals and two classes. -/
def exRules : Rules := ⟨2, 2, false, [[0, 3], [1]], [[7, -1], [-2, 5]]⟩

theorem exRules_ok : RulesOK exRules := ⟨rfl, by decide, by decide⟩

/-- A predictor as the user gets it: made from the rule set, then used for any sequence of calls. -/
theorem reached_holds (rs : Rules) (s : String) (excl : Bool) (p : Predictor)
    (hp : Predictor.fromRuleset rs s excl = .ok p) (cs : List Call) : Holds rs (afterCalls p cs).inf :=
  afterCalls_inf (Holds rs) (fun i y h => holds_explain rs i h y) p cs
    (fun i x _ h => holds_predict rs i h x) (fromRuleset_holds rs s excl p hp).1

/-- C24: whatever was called before, `predict(x)` computes the votes of the rule set for `x` and chooses the
lowest-numbered class with the most votes, including when no rule matches. -/
theorem C24_predict (rs : Rules) (h : RulesOK rs) (hn : 0 < rs.nClasses) (s : String) (excl : Bool)
    (p : Predictor) (hp : Predictor.fromRuleset rs s excl = .ok p) (cs : List Call)
    (x : List Nat) (hb : Binary x) (hx : x.length = rs.nLits) :
    ∃ k, ((afterCalls p cs).predict x).1.last = some k ∧
      ((afterCalls p cs).predict x).1.inf.votes = (rulesetVotes rs x).map wrap32 ∧
      LowestMax ((rulesetVotes rs x).map wrap32) k ∧
      ((afterCalls p cs).names = none → ((afterCalls p cs).predict x).2 = .ok (.idx k)) := by
  have hh := reached_holds rs s excl p hp cs
  generalize afterCalls p cs = q at hh ⊢
  obtain ⟨h1, -, h3⟩ := inf_predict rs h hn q.inf hh x hb hx
  refine ⟨(q.inf.predict x).2, rfl, h1, h3, ?_⟩
  intro hq
  simp [Predictor.predict, hq]

example : ∃ p, Predictor.fromRuleset exRules "literals" false = .ok p ∧
    ((afterCalls p [.predict [0, 1], .explainAll]).predict [1, 0]).2 = .ok (.idx 0) := ⟨_, rfl, rfl⟩

theorem votes_fit_eq (rs : Rules) (x : List Nat)
    (h : ∀ k, k < rs.nClasses → -32768 ≤ ruleSum rs.nLits rs.rules rs.weights x k ∧
      ruleSum rs.nLits rs.rules rs.weights x k ≤ 32767) :
    (rulesetVotes rs x).map wrap32 = rulesetVotes rs x := by
  unfold rulesetVotes
  rw [List.map_map]
  apply List.map_congr_left
  intro k hk
  have := h k (List.mem_range.mp hk)
  exact wrap32_id (by omega) (by omega)

theorem compiled_ok (ml : Bool) (st : DState) (h : WellShaped st) (rs : Rules)
    (hc : compileDense ml st = .ok rs) : RulesOK rs ∧ rs.nLits = st.nLits ∧ rs.nClasses = st.nClasses := by
  obtain ⟨h1, h2, h3, h4⟩ := C23_well_formed ml st h rs hc
  obtain ⟨rs', hc', e1, e2, e3⟩ := C23_compiles ml st h
  rw [hc] at hc'
  obtain rfl := Except.ok.inj hc'
  refine ⟨⟨h2, ?_, ?_⟩, e1, e2⟩
  · intro r hr
    rw [e1]
    exact ⟨(h3 r hr).2.1.imp (fun h => Nat.ne_of_lt h), (h3 r hr).2.2⟩
  · intro w hw; rw [e2]; exact (h4 w hw).1

/-- The predictor made from a state chooses the lowest-numbered class with the most votes of the state's
clauses. -/
theorem predictor_lowestMax (m n : Nat) (cls : List (List Int × List Int × List Int)) (st : DState)
    (hw : WellShaped st) (hm : st.nLits = m) (hn : st.nClasses = n) (h0 : 0 < n) (hp : cls.Perm (stateClauses st))
    (hf : MergesFit st) (ml : Bool) (rs : Rules) (hc : compileDense ml st = .ok rs)
    (s : String) (excl : Bool) (p : Predictor) (hpr : Predictor.fromRuleset rs s excl = .ok p)
    (cs : List Call) (hnames : (afterCalls p cs).names = none)
    (x : List Nat) (hx : Binary x ∧ x.length = m)
    (hv : ∀ k, k < n → -32768 ≤ firingSum cls x k ∧ firingSum cls x k ≤ 32767) :
    ∃ k, ((afterCalls p cs).predict x).2 = .ok (.idx k) ∧ LowestMax (modelVotes n cls x) k := by
  obtain ⟨hok, e1, e2⟩ := compiled_ok ml st hw rs hc
  obtain ⟨k', -, -, hl', hres⟩ := C24_predict rs hok (by omega) s excl p hpr cs x
    hx.1 (by rw [hx.2, e1, hm])
  have hsum : ∀ j, j < n → ruleSum rs.nLits rs.rules rs.weights x j = firingSum cls x j := by
    intro j hj
    rw [C22_votes_exact ml st hw hf rs hc x j (by omega)]
    exact (firingSum_perm hp x j).symm
  rw [votes_fit_eq rs x (by
    intro j hj; rw [hsum j (by omega)]; exact hv j (by omega))] at hl'
  have hvotes : rulesetVotes rs x = modelVotes n cls x := by
    unfold rulesetVotes modelVotes
    rw [e2, hn]
    apply List.map_congr_left
    intro j hj
    have hj' := List.mem_range.mp hj
    have := hv j hj'
    rw [hsum j hj', wrap16_id this.1 this.2]
  rw [hvotes] at hl'
  exact ⟨k', hres hnames, hl'⟩

/-- C24: the predictor made from a state predicts, for every example of every batch and after any other use
of the predictor, the class that `eval_predict` of an executor with the same clauses predicts, provided the
merged weights and the votes stay within 16 bits. The clauses may be split into blocks in any way. -/
theorem C24_agrees_with_executor (m n : Nat) (e : Exec DBlock) (hs : SetUp m n e) (st : DState)
    (hw : WellShaped st) (hm : st.nLits = m) (hn : st.nClasses = n) (hp : (model e).Perm (stateClauses st))
    (hf : MergesFit st) (ml : Bool) (rs : Rules) (hc : compileDense ml st = .ok rs)
    (s : String) (excl : Bool) (p : Predictor) (hpr : Predictor.fromRuleset rs s excl = .ok p)
    (cs : List Call) (hnames : (afterCalls p cs).names = none)
    (data : List (List Nat)) (hx : ∀ x ∈ data, Binary x ∧ x.length = m)
    (hv : ∀ x ∈ data, ∀ k, k < n → -32768 ≤ firingSum (model e) x k ∧ firingSum (model e) x k ≤ 32767) :
    ∃ ks, (Exec.evalPredict denseBackend data data.length e).2 = some ks ∧ ks.length = data.length ∧
      ∀ (i : Nat) (x : List Nat) (k : Nat), data[i]? = some x → ks[i]? = some k →
        ((afterCalls p cs).predict x).2 = .ok (.idx k) := by
  obtain ⟨ks, h1, h2, h3⟩ := C17_batch_predictions m n e data hs hx
  refine ⟨ks, h1, h2, ?_⟩
  intro i x k hi hk
  have hxm : x ∈ data := List.mem_of_getElem? hi
  obtain ⟨k', hk', hl'⟩ := predictor_lowestMax m n (model e) st hw hm hn hs.classes hp hf ml rs hc s excl p hpr cs
    hnames x (hx x hxm) (hv x hxm)
  rw [hk', lowestMax_unique hl' (h3 i x k hi hk)]

/-- C24: the same with the AVX2 backend. -/
theorem C24_agrees_with_avx2_executor (m n : Nat) (e : Exec VBlock) (hs : AvxSetUp m n e) (st : DState)
    (hw : WellShaped st) (hm : st.nLits = m) (hn : st.nClasses = n) (hp : (avxModel e).Perm (stateClauses st))
    (hf : MergesFit st) (ml : Bool) (rs : Rules) (hc : compileDense ml st = .ok rs)
    (s : String) (excl : Bool) (p : Predictor) (hpr : Predictor.fromRuleset rs s excl = .ok p)
    (cs : List Call) (hnames : (afterCalls p cs).names = none)
    (data : List Mem) (hx : ∀ x ∈ data, Binary (unpadExample m x))
    (hv : ∀ x ∈ data, ∀ k, k < n → -32768 ≤ firingSum (avxModel e) (unpadExample m x) k ∧
      firingSum (avxModel e) (unpadExample m x) k ≤ 32767) :
    ∃ ks, (Exec.evalPredict avxBackend data data.length e).2 = some ks ∧ ks.length = data.length ∧
      ∀ (i : Nat) (x : Mem) (k : Nat), data[i]? = some x → ks[i]? = some k →
        ((afterCalls p cs).predict (unpadExample m x)).2 = .ok (.idx k) := by
  obtain ⟨ks, h1, h2, h3⟩ := C17_avx2_batch_predictions m n e data hs hx
  refine ⟨ks, h1, h2, ?_⟩
  intro i x k hi hk
  have hxm : x ∈ data := List.mem_of_getElem? hi
  obtain ⟨k', hk', hl'⟩ := predictor_lowestMax m n (avxModel e) st hw hm hn hs.classes hp hf ml rs hc s excl p hpr
    cs hnames (unpadExample m x) ⟨hx x hxm, by simp [unpadExample]⟩ (hv x hxm)
  rw [hk', lowestMax_unique hl' (h3 i x k hi hk)]

/-- The hypotheses are met by the two blocks of `exExec` and the state read from them. -/
example : ∃ st rs p, WellShaped st ∧ st.nLits = 2 ∧ st.nClasses = 2 ∧ (model exExec).Perm (stateClauses st) ∧
    MergesFit st ∧ compileDense false st = .ok rs ∧ Predictor.fromRuleset rs "none" false = .ok p ∧
    (p.predict [1, 0]).2 = .ok (.idx 0) ∧ (Exec.evalPredict denseBackend [[1, 0]] 1 exExec).2 = some [0] := by
  refine ⟨⟨2, 2, [[5, -3, -2, 0], [-5, -3, -2, -7], [0, -1, -1, -1]], [[4, -1], [4, 9], [-2, 3]]⟩,
    ⟨2, 2, false, [[0, 3], [0]], [[4, -1], [-2, 3]]⟩, _, ⟨rfl, by decide, by decide⟩, rfl, rfl, List.Perm.refl _,
    mergesFit_of_bound _ (by decide), by decide +kernel, rfl, rfl, by decide +kernel⟩

def wideExec : Exec DBlock :=
  ⟨exFB, [⟨2, 2, exCfg, [⟨[5, -3], [-2, -1], [30000, 0], 0, 0⟩, ⟨[-1, 0], [-2, -1], [30000, 0], 0, 0⟩],
    [0, 0], exRng, exRng⟩], []⟩

def wideState : DState := ⟨2, 2, [[5, -3, -2, -1], [-1, 0, -2, -1]], [[30000, 0], [30000, 0]]⟩

/-- C24: without the 16-bit condition on the votes the two can differ: the executor's votes wrap, the
predictor's do not. -/
theorem C24_disagree_on_overflow :
    ∃ (e : Exec DBlock) (st : DState) (rs : Rules) (p : Predictor),
      SetUp 2 2 e ∧ WellShaped st ∧ model e = stateClauses st ∧ compileDense false st = .ok rs ∧
      Predictor.fromRuleset rs "none" false = .ok p ∧
      (Exec.evalPredict denseBackend [[1, 1]] 1 e).2 = some [1] ∧ (p.predict [1, 1]).2 = .ok (.idx 0) := by
  refine ⟨wideExec, wideState, ⟨2, 2, false, [[0], [1]], [[30000, 0], [30000, 0]]⟩, _, ?_,
    ⟨rfl, by decide, by decide⟩, rfl, by decide +kernel, rfl, by decide +kernel, ?_⟩
  · refine ⟨by decide, rfl, rfl, ?_⟩
    simp [wideExec, Shaped]
  · rfl

/-- The weight, for an active backend, of each literal. -/
theorem explain_value (rs : Rules) (h : RulesOK rs) (excl : Bool) (i : Inf) (hi : Holds rs i)
    (hl : i.litImp = true) (he : i.exclNeg = excl) (x : List Nat)
    (ha : pairs rs.rules rs.weights i.active =
      (rs.rules.zip rs.weights).filter (fun r => decide (Matches rs.nLits x r.1))) (y : Nat) :
    (i.explain y).impLits = (List.range (2 * rs.nLits)).map fun j => wrap32 (importance excl rs x y j) := by
  unfold Inf.explain
  dsimp only
  rw [hl, if_pos rfl, hi.imps hl]
  rw [importanceLoop_lits i y hl i.active ?_ _ _ (fun _ => 0) (2 * rs.nLits) (by simp [wrap32_zero])]
  · apply List.map_congr_left
    intro j _
    congr 1
    rw [hi.rules, hi.weights, ha, he]
    unfold pairSum importance
    rw [List.filter_filter, Int.zero_add]
    congr 2
    apply List.filter_congr
    intro r _
    rw [← Bool.decide_and, decide_eq_decide]
    constructor
    · rintro ⟨⟨a, b⟩, c⟩; exact ⟨c, a, b⟩
    · rintro ⟨c, a, b⟩; exact ⟨⟨a, b⟩, c⟩
  · rw [hi.rules, hi.weights, ha]
    intro q hq
    exact (h.lits q.1 (List.of_mem_zip (List.mem_filter.mp hq).1).1).1

/-- After predicting `x` and then calling anything but `predict`, the active clauses are those matching `x`. -/
theorem after_predict (rs : Rules) (h : RulesOK rs) (hn : 0 < rs.nClasses) (excl : Bool)
    (p : Predictor) (hp : Predictor.fromRuleset rs "literals" excl = .ok p) (cs ds : List Call)
    (hd : NoPredict ds) (x : List Nat) (hb : Binary x) (hx : x.length = rs.nLits) :
    let q := afterCalls ((afterCalls p cs).predict x).1 ds
    Holds rs q.inf ∧ q.expl = .literals ∧ q.inf.litImp = true ∧ q.inf.exclNeg = excl ∧
      pairs rs.rules rs.weights q.inf.active =
        (rs.rules.zip rs.weights).filter (fun r => decide (Matches rs.nLits x r.1)) := by
  intro q
  obtain ⟨h0, -, -, hex⟩ := fromRuleset_holds rs "literals" excl p hp
  have hex : p.expl = .literals ∧ p.inf.litImp = true ∧ p.inf.exclNeg = excl := by
    rcases hex with ⟨-, h⟩ | ⟨h, -, h', h''⟩
    · exact absurd h (by decide)
    · exact ⟨h, h', h''⟩
  have h1 := reached_holds rs "literals" excl p hp cs
  have h2 : (afterCalls p cs).inf.litImp = true ∧ (afterCalls p cs).inf.exclNeg = excl :=
    afterCalls_inf (fun i => i.litImp = true ∧ i.exclNeg = excl) (fun i y h => h) p cs (fun i x _ h => h) hex.2
  have hq : q.expl = .literals := by
    show (afterCalls _ ds).expl = _
    rw [afterCalls_expl]
    show (afterCalls p cs).expl = _
    rw [afterCalls_expl, hex.1]
  obtain ⟨-, hact, -⟩ := inf_predict rs h hn (afterCalls p cs).inf h1 x hb hx
  have := afterCalls_inf (fun i => Holds rs i ∧ i.litImp = true ∧ i.exclNeg = excl ∧
      pairs rs.rules rs.weights i.active =
        (rs.rules.zip rs.weights).filter (fun r => decide (Matches rs.nLits x r.1)))
    (fun i y h => ⟨holds_explain rs i h.1 y, h.2⟩) ((afterCalls p cs).predict x).1 ds
    (fun i x hx => absurd hx (hd x))
    ⟨holds_predict rs _ h1 x, h2.1, h2.2, hact⟩
  exact ⟨this.1, hq, this.2⟩

/-- C27: after `predict(x)`, the explanation for a class gives every literal the sum of the weights for that
class of the matching rules that use it. Nothing called before the prediction or between the prediction and
the explanation makes a difference. -/
theorem C27_literal_importance (rs : Rules) (h : RulesOK rs) (hn : 0 < rs.nClasses) (excl : Bool)
    (p : Predictor) (hp : Predictor.fromRuleset rs "literals" excl = .ok p) (cs ds : List Call)
    (hd : NoPredict ds) (x : List Nat) (hb : Binary x) (hx : x.length = rs.nLits)
    (hnames : (afterCalls ((afterCalls p cs).predict x).1 ds).names = none) (y : Nat) :
    ((afterCalls ((afterCalls p cs).predict x).1 ds).explainTarget (some (.idx y))).2 =
      .ok ⟨some ((List.range (2 * rs.nLits)).map fun j => wrap32 (importance excl rs x y j)), none⟩ := by
  obtain ⟨h1, h2, h3, h4, h5⟩ := after_predict rs h hn excl p hp cs ds hd x hb hx
  generalize afterCalls ((afterCalls p cs).predict x).1 ds = q at *
  simp [Predictor.explainTarget, h2, hnames, Predictor.explanation, explain_value rs h excl q.inf h1 h3 h4 x h5 y]

/-- C27: `explain("all")` gives the same for every class in one call. -/
theorem C27_explain_all (rs : Rules) (h : RulesOK rs) (hn : 0 < rs.nClasses) (excl : Bool)
    (p : Predictor) (hp : Predictor.fromRuleset rs "literals" excl = .ok p) (cs ds : List Call)
    (hd : NoPredict ds) (x : List Nat) (hb : Binary x) (hx : x.length = rs.nLits)
    (hnames : (afterCalls ((afterCalls p cs).predict x).1 ds).names = none) :
    (afterCalls ((afterCalls p cs).predict x).1 ds).explainAll.2 =
      .ok ((List.range rs.nClasses).map fun y =>
        (y, ⟨some ((List.range (2 * rs.nLits)).map fun j => wrap32 (importance excl rs x y j)), none⟩)) := by
  obtain ⟨h1, h2, h3, h4, h5⟩ := after_predict rs h hn excl p hp cs ds hd x hb hx
  generalize afterCalls ((afterCalls p cs).predict x).1 ds = q at *
  have hloop : ∀ (ks : List Nat) (i : Inf), (Holds rs i ∧ i.litImp = true ∧ i.exclNeg = excl ∧
      pairs rs.rules rs.weights i.active =
        (rs.rules.zip rs.weights).filter (fun r => decide (Matches rs.nLits x r.1))) →
      (q.explainLoop ks i).2 = ks.map fun y =>
        (y, ⟨some ((List.range (2 * rs.nLits)).map fun j => wrap32 (importance excl rs x y j)), none⟩) := by
    intro ks
    induction ks with
    | nil => intro i _; rfl
    | cons k ks ih =>
      intro i hi
      have hi' : Holds rs (i.explain k) ∧ (i.explain k).litImp = true ∧ (i.explain k).exclNeg = excl ∧
          pairs rs.rules rs.weights (i.explain k).active =
            (rs.rules.zip rs.weights).filter (fun r => decide (Matches rs.nLits x r.1)) :=
        ⟨holds_explain rs i hi.1 k, hi.2⟩
      simp only [Predictor.explainLoop, List.map_cons, ih _ hi']
      simp [Predictor.explanation, h2, explain_value rs h excl i hi.1 hi.2.1 hi.2.2.1 x hi.2.2.2 k]
  simp only [Predictor.explainAll, h2, hnames]
  rw [hloop _ _ ⟨h1, h3, h4, h5⟩, h1.classes]
  rfl

example : ∃ p, Predictor.fromRuleset exRules "literals" true = .ok p ∧
    ((p.predict [1, 0]).1.explainTarget (some (.idx 0))).2 = .ok ⟨some [7, 0, 0, 7], none⟩ := ⟨_, rfl, rfl⟩

/-- C27: a literal used by no matching rule has importance 0. -/
theorem C27_unused_literal (excl : Bool) (rs : Rules) (x : List Nat) (y j : Nat)
    (hj : ∀ r ∈ rs.rules, Matches rs.nLits x r → j ∉ r) : importance excl rs x y j = 0 := by
  unfold importance
  rw [List.sum_eq_zero]
  intro v hv
  obtain ⟨r, hr, rfl⟩ := List.mem_map.mp hv
  rw [List.mem_filter] at hr
  have : Matches rs.nLits x r.1 ∧ j ∈ r.1 ∧ (excl = true → 0 < r.2.getD y 0) := by
    have h := hr.2
    simp only [decide_eq_true_eq] at h
    exact h
  exact absurd this.2.1 (hj r.1 (List.of_mem_zip hr.1).1 this.1)

/-- C27: explanations of features cannot be had: no rule set gives a predictor with them. -/
theorem C27_features_unavailable (rs : Rules) (excl : Bool) :
    (∃ e, Predictor.fromRuleset rs "features" excl = .error e) ∧
    (∃ e, Predictor.fromRuleset rs "both" excl = .error e) := ⟨⟨_, rfl⟩, ⟨_, rfl⟩⟩

/-! ### Target names -/

/-- C46: with names set, `predict` returns the name of the class that it would return without names. -/
theorem C46_predict_name (q : Predictor) (names : List String) (x : List Nat) (k : Nat)
    (hq : q.names = none) (h : (q.predict x).2 = .ok (.idx k)) :
    ((q.setTargetNames names).predict x).2 =
      match names[k]? with
      | some s => .ok (.name s)
      | none => .error "IndexError" := by
  simp only [Predictor.predict, hq, Except.ok.injEq, Target.idx.injEq] at h
  simp only [Predictor.predict, Predictor.setTargetNames, h]
  cases names[k]? <;> rfl

theorem invName_none (names : List String) (k : Nat) (s : String) (h : s ∉ names) : invName names k s = none := by
  induction names generalizing k with
  | nil => rfl
  | cons a names ih =>
    rw [List.mem_cons, not_or] at h
    rw [invName, ih _ h.2]
    have : ¬ a = s := fun h' => h.1 h'.symm
    simp [this]

theorem invName_at (names : List String) (hd : names.Nodup) (k j : Nat) (s : String)
    (hk : names[k]? = some s) : invName names j s = some (j + k) := by
  induction names generalizing k j with
  | nil => simp at hk
  | cons a names ih =>
    rw [List.nodup_cons] at hd
    rw [invName]
    match k with
    | 0 =>
      simp only [List.getElem?_cons_zero, Option.some.injEq] at hk
      subst hk
      simp [invName_none names (j + 1) a hd.1]
    | k + 1 =>
      rw [List.getElem?_cons_succ] at hk
      rw [ih hd.2 k (j + 1) hk]
      simp only [Option.some.injEq]; omega

/-- C46: with distinct names, explaining a name explains the class with that name. -/
theorem C46_explain_name (q : Predictor) (names : List String) (hd : names.Nodup) (k : Nat) (s : String)
    (hk : names[k]? = some s) (hq : q.names = none) :
    ((q.setTargetNames names).explainTarget (some (.name s))).2 = (q.explainTarget (some (.idx k))).2 := by
  have h := invName_at names hd k 0 s hk
  rw [Nat.zero_add] at h
  by_cases he : q.expl = .none
  · simp [Predictor.explainTarget, Predictor.setTargetNames, he]
  · simp [Predictor.explainTarget, Predictor.setTargetNames, he, hq, h, Predictor.explanation]

/-- C46: an unknown name is refused and nothing changes. -/
theorem C46_unknown_name (q : Predictor) (names : List String) (s : String) (hs : s ∉ names)
    (he : q.expl ≠ .none) :
    (q.setTargetNames names).explainTarget (some (.name s)) = (q.setTargetNames names, .error "ValueError") := by
  simp [Predictor.explainTarget, Predictor.setTargetNames, he, invName_none names 0 s hs]

theorem afterCalls_last (p : Predictor) (ds : List Call) (hd : NoPredict ds) :
    (afterCalls p ds).last = p.last := by
  induction ds generalizing p with
  | nil => rfl
  | cons c ds ih =>
    have e : afterCalls p (c :: ds) = afterCalls (afterCall p c) ds := rfl
    rw [e, ih _ (fun x hx => hd x (by simp [hx]))]
    cases c with
    | predict x => exact absurd List.mem_cons_self (hd x)
    | explain t =>
      simp only [afterCall, Predictor.explainTarget]
      split
      · rfl
      · split <;> rfl
    | explainAll =>
      simp only [afterCall, Predictor.explainAll]
      split <;> rfl
    | setNames ns => rfl

/-- C46: without a target, `explain` explains the class that the last `predict` chose, with or without names
set. -/
theorem C46_explain_last (q : Predictor) (x : List Nat) (ds : List Call) (hd : NoPredict ds) (k : Nat)
    (hk' : (({ q with names := none } : Predictor).predict x).2 = .ok (.idx k)) :
    let r := afterCalls (q.predict x).1 ds
    (r.explainTarget none).2 = (({ r with names := none } : Predictor).explainTarget (some (.idx k))).2 := by
  intro r
  have hk : (q.predict x).1.last = some k := by
    simp only [Predictor.predict, Except.ok.injEq, Target.idx.injEq] at hk' ⊢
    rw [hk']
  have hr : r.last = some k := by rw [← hk]; exact afterCalls_last _ ds hd
  by_cases he : r.expl = .none
  · simp [Predictor.explainTarget, he]
  · simp [Predictor.explainTarget, he, hr, Predictor.explanation]

/-- C46: before the first prediction there is no last class, and `explain()` raises. -/
theorem C46_explain_before_predict (rs : Rules) (excl : Bool) (p : Predictor)
    (hp : Predictor.fromRuleset rs "literals" excl = .ok p) (ds : List Call) (hd : NoPredict ds) :
    ((afterCalls p ds).explainTarget none).2 = .error "TypeError" := by
  obtain ⟨-, -, hl, hex⟩ := fromRuleset_holds rs "literals" excl p hp
  have hex : p.expl = .literals := by
    rcases hex with ⟨-, h⟩ | ⟨h, -⟩
    · exact absurd h (by decide)
    · exact h
  have h1 := afterCalls_last p ds hd
  have h2 := afterCalls_expl p ds
  rw [hl] at h1
  rw [hex] at h2
  simp [Predictor.explainTarget, h1, h2]

/-- C46: `explain("all")` with target names always raises (for a machine with classes). -/
theorem C46_explain_all_with_names_raises (q : Predictor) (names : List String) (he : q.expl ≠ .none)
    (hn : 0 < q.inf.nClasses) : (q.setTargetNames names).explainAll.2 = .error "TypeError" := by
  obtain ⟨n, hn'⟩ : ∃ n, q.inf.nClasses = n + 1 := ⟨q.inf.nClasses - 1, by omega⟩
  have hne : ∀ (p : Predictor) (i : Inf), (p.explainLoop (List.range (n + 1)) i).2 ≠ [] := by
    intro p i
    rw [List.range_succ_eq_map]
    simp [Predictor.explainLoop]
  have he' : (q.setTargetNames names).expl ≠ .none := he
  have hn2 : (q.setTargetNames names).inf.nClasses = n + 1 := hn'
  unfold Predictor.explainAll
  rw [if_neg he', hn2]
  simp only [Predictor.setTargetNames]
  exact if_neg (hne _ _)

/-! A predictor with names: it predicts "yes", explains it, and refuses to explain all. -/
example : ∃ p, Predictor.fromRuleset exRules "literals" false = .ok p ∧ p.names = none ∧
    (p.predict [0, 1]).2 = .ok (.idx 1) ∧
    ((p.setTargetNames ["no", "yes"]).predict [0, 1]).2 = .ok (.name "yes") ∧
    (((p.setTargetNames ["no", "yes"]).predict [0, 1]).1.explainTarget (some (.name "yes"))).2 =
      .ok ⟨some [0, 5, 0, 0], none⟩ := ⟨_, rfl, rfl, rfl, rfl, rfl⟩

end GT

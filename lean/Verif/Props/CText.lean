import Verif.Lemmas.CExec

/-!
# C71: the text of the exported C programs

The programs as files: the text written by `export_as_program`, read as C by the small language definition of
`Verif/Spec/CLang.lean` (characters to tokens, preprocessor, grammar, meaning).
-/

namespace GT
open Spec Spec.CLang

/-- Calls of a program whose single calls return the expected classes. -/
theorem session_of_calls (text : List Char) (m : Nat) (fuel : Nat) (P : List Nat → Prop) (Q : List Nat → Nat → Prop)
    (h : ∀ (st : List Char → Option (List Int)), (∀ l, st c!"votes" = some l → l.length = m) → ∀ x, P x →
      ∃ (k : Nat) (st' : List Char → Option (List Int)), call fuel text st x = some ((k : Int), st') ∧
        (∀ l, st' c!"votes" = some l → l.length = m) ∧ Q x k) :
    ∀ (xs : List (List Nat)), (∀ x ∈ xs, P x) → ∀ (st : List Char → Option (List Int)),
      (∀ l, st c!"votes" = some l → l.length = m) →
      ∃ ks : List Nat, session fuel text st xs = some (ks.map Int.ofNat) ∧ List.Forall₂ Q xs ks := by
  intro xs
  induction xs with
  | nil => intro _ st _; exact ⟨[], rfl, .nil⟩
  | cons x xs ih =>
    intro hP st hst
    obtain ⟨k, st', h1, h2, h3⟩ := h st hst x (hP x List.mem_cons_self)
    obtain ⟨ks, h4, h5⟩ := ih (fun y hy => hP y (List.mem_cons_of_mem _ hy)) st' h2
    refine ⟨k :: ks, ?_, .cons h3 h5⟩
    rw [session, h1]
    simp only [h4]
    rfl

/-- One call of an exported program. -/
theorem call_exported (rs : Rules) (text : List Char) (ts : List Tok) (hn : 0 < rs.nClasses)
    (hn' : rs.nClasses < 2 ^ 31) (hs : ∀ t ∈ ts, t.safe rs.nLits rs.nClasses)
    (hc : compile text = parseFile (fnToks rs.nClasses ++ (ts.flatMap cToks ++ findToks rs.nClasses)))
    (p : Predictor) (x : List Nat) (hx : x.length = rs.nLits)
    (hr : ∃ k, runC ts (List.replicate rs.nClasses 0) x = some (rulesetVotes rs x, k) ∧ (p.predict x).2 = .ok (.idx k))
    (st : List Char → Option (List Int)) (hst : ∀ l, st c!"votes" = some l → l.length = rs.nClasses) (fuel : Nat)
    (hf : (ts.flatMap cToks).length + rs.nClasses + 11 ≤ fuel) :
    ∃ (k : Nat) (st' : List Char → Option (List Int)), call fuel text st x = some ((k : Int), st') ∧
      (∀ l, st' c!"votes" = some l → l.length = rs.nClasses) ∧ (p.predict x).2 = .ok (.idx k) := by
  obtain ⟨k, h1, h2⟩ := hr
  unfold runC at h1
  rw [List.length_replicate] at h1
  split at h1
  · simp at h1
  · next v hv =>
    obtain ⟨rfl, rfl⟩ := Prod.mk.inj (Option.some.inj h1)
    obtain ⟨st', h3, h4⟩ := call_text text rs.nClasses ts hn (by omega) hc x (hx ▸ hs) _ hv st hst fuel hf
    refine ⟨_, st', h3, ?_, h2⟩
    intro l hl
    rw [h4] at hl
    rw [← Option.some.inj hl]
    simp [rulesetVotes]

/-- C71: the text `export_as_program` writes with the flat exporter is a C file with one function; calling it again
and again, from the start of the process, returns for every example whose votes fit in 16 bits the class the predictor
predicts, and never reads or writes outside an array. -/
theorem C71_simple_text (rs : Rules) (h : RulesOK rs) (hne : ∀ r ∈ rs.rules, r ≠ []) (hn : 0 < rs.nClasses)
    (hn' : rs.nClasses < 2 ^ 31) (s : String) (excl : Bool) (p : Predictor)
    (hp : Predictor.fromRuleset rs s excl = .ok p) (cs : List Call) (hnames : (afterCalls p cs).names = none)
    (pick : List Nat → List Nat → List (Nat × List Nat) → Nat × List Nat) (steps : Nat) :
    ∃ text, exportAsProgram pick rs steps "simple_c" = .ok (some text) ∧
      ∃ bound, ∀ fuel, bound ≤ fuel → ∀ xs : List (List Nat),
        (∀ x ∈ xs, Binary x ∧ x.length = rs.nLits ∧ VotesFit rs x) →
        ∃ ks : List Nat, session fuel text (fun _ => none) xs = some (ks.map Int.ofNat) ∧
          List.Forall₂ (fun x k => ((afterCalls p cs).predict x).2 = .ok (.idx k)) xs ks := by
  refine ⟨simpleText rs, rfl, ((simpleC rs).flatMap cToks).length + rs.nClasses + 11, ?_⟩
  intro fuel hf xs hxs
  refine session_of_calls _ rs.nClasses fuel (fun x => Binary x ∧ x.length = rs.nLits ∧ VotesFit rs x) _ ?_ xs hxs _
    (by simp)
  intro st hst x hx
  exact call_exported rs _ _ hn hn' (simpleC_safe rs h) (compile_simple rs) (afterCalls p cs) x hx.2.1
    (C25_simple_c rs h hne hn s excl p hp cs hnames _ (by simp) x hx.1 hx.2.1 hx.2.2) st hst fuel hf

/-- C71: the same for the tree exporter, whatever entries it chooses while it builds the tree; it finishes. -/
theorem C71_tree_text (pick : List Nat → List Nat → List (Nat × List Nat) → Nat × List Nat)
    (hpick : ChoosesEntry pick) (rs : Rules) (h : RulesOK rs) (hne : ∀ r ∈ rs.rules, r ≠ [])
    (hd : DistinctRules rs.rules) (hn : 0 < rs.nClasses)
    (hn' : rs.nClasses < 2 ^ 31) (s : String) (excl : Bool) (p : Predictor)
    (hp : Predictor.fromRuleset rs s excl = .ok p) (cs : List Call) (hnames : (afterCalls p cs).names = none) :
    ∃ minSteps, ∀ steps, minSteps ≤ steps → ∃ text, exportAsProgram pick rs steps "topological_c" = .ok (some text) ∧
      ∃ bound, ∀ fuel, bound ≤ fuel → ∀ xs : List (List Nat),
        (∀ x ∈ xs, Binary x ∧ x.length = rs.nLits ∧ VotesFit rs x) →
        ∃ ks : List Nat, session fuel text (fun _ => none) xs = some (ks.map Int.ofNat) ∧
          List.Forall₂ (fun x k => ((afterCalls p cs).predict x).2 = .ok (.idx k)) xs ks := by
  obtain ⟨b, hb⟩ := C26_tree_c_predicts pick hpick rs h hne hd hn s excl p hp cs hnames
  refine ⟨b + 1, fun steps hs => ?_⟩
  obtain ⟨prog, tree, h1, h2⟩ := hb steps (by omega)
  unfold topoC at h1
  split at h1
  · simp at h1
  · next root inTree hg =>
    obtain ⟨rfl, -⟩ := Prod.mk.inj (Option.some.inj h1)
    refine ⟨treeText rs.nLits rs.nClasses root, ?_, ((exportNode rs.nLits root []).flatMap cToks).length + rs.nClasses + 11, ?_⟩
    · simp [exportAsProgram, topoText, hg]
    · intro fuel hf xs hxs
      refine session_of_calls _ rs.nClasses fuel (fun x => Binary x ∧ x.length = rs.nLits ∧ VotesFit rs x) _ ?_ xs hxs _
        (by simp)
      intro st hst x hx
      have hsafe := grow_safe pick hpick rs h steps _ _ _ _ _ _ _ _ (by simp) (by simp) (by simp)
        (by simp [NodesSafe]) hg
      exact call_exported rs _ _ hn hn' (exportNode_safe _ _ root [] hsafe (by simp)) (compile_tree _ _ root)
        (afterCalls p cs) x hx.2.1 (h2 _ x (by simp) hx.1 hx.2.1 hx.2.2) st hst fuel hf

/-- C71: the two texts compute the same function on every input, also when 16-bit votes overflow. -/
theorem C71_texts_agree (pick : List Nat → List Nat → List (Nat × List Nat) → Nat × List Nat)
    (hpick : ChoosesEntry pick) (rs : Rules) (h : RulesOK rs) (hne : ∀ r ∈ rs.rules, r ≠ [])
    (hd : DistinctRules rs.rules) (hn : 0 < rs.nClasses) (hn' : rs.nClasses < 2 ^ 31) :
    ∃ minSteps, ∀ steps, minSteps ≤ steps → ∃ flat tree, exportAsProgram pick rs steps "simple_c" = .ok (some flat) ∧
      exportAsProgram pick rs steps "topological_c" = .ok (some tree) ∧
      ∃ bound, ∀ fuel, bound ≤ fuel → ∀ xs : List (List Nat), (∀ x ∈ xs, Binary x ∧ x.length = rs.nLits) →
        ∃ ks : List Nat, session fuel flat (fun _ => none) xs = some (ks.map Int.ofNat) ∧
          session fuel tree (fun _ => none) xs = some (ks.map Int.ofNat) := by
  obtain ⟨b, hb⟩ := C26_tree_c pick hpick rs h hne hd
  refine ⟨b + 1, fun steps hs => ?_⟩
  obtain ⟨prog, tree, h1, h2⟩ := hb steps (by omega)
  unfold topoC at h1
  split at h1
  · simp at h1
  · next root inTree hg =>
    obtain ⟨rfl, -⟩ := Prod.mk.inj (Option.some.inj h1)
    refine ⟨simpleText rs, treeText rs.nLits rs.nClasses root, rfl, by simp [exportAsProgram, topoText, hg],
      ((exportNode rs.nLits root []).flatMap cToks).length + ((simpleC rs).flatMap cToks).length + rs.nClasses + 11, ?_⟩
    intro fuel hf xs hxs
    have hsafe := grow_safe pick hpick rs h steps _ _ _ _ _ _ _ _ (by simp) (by simp) (by simp)
      (by simp [NodesSafe]) hg
    have hz : (List.replicate rs.nClasses (0 : Int)).length = rs.nClasses := List.length_replicate
    -- the class of the flat program
    have hrun : ∀ x, Binary x ∧ x.length = rs.nLits → ∃ v, execC x (simpleC rs) [] (List.replicate rs.nClasses 0) = some v ∧
        execC x (exportNode rs.nLits root []) [] (List.replicate rs.nClasses 0) = some v ∧ v.length = rs.nClasses := by
      intro x hx
      obtain ⟨v, hv, hvv⟩ := runC_simple rs h hne (List.replicate rs.nClasses 0) hz x hx.1 hx.2
      have e := h2 (List.replicate rs.nClasses 0) x hz hx.1 hx.2
      unfold runC at e
      rw [hv] at e
      rw [hz] at hv e
      refine ⟨v, hv, ?_, by rw [hvv]; simp⟩
      revert e
      cases execC x (exportNode rs.nLits root []) [] (List.replicate rs.nClasses 0) with
      | none => simp
      | some v' => intro e; simp at e; rw [e.1]
    have hone : ∀ (text : List Char) (ts : List Tok), (∀ t ∈ ts, t.safe rs.nLits rs.nClasses) →
        compile text = parseFile (fnToks rs.nClasses ++ (ts.flatMap cToks ++ findToks rs.nClasses)) →
        (ts.flatMap cToks).length + rs.nClasses + 11 ≤ fuel →
        (∀ x, Binary x ∧ x.length = rs.nLits → ∃ v, execC x (simpleC rs) [] (List.replicate rs.nClasses 0) = some v ∧
          execC x ts [] (List.replicate rs.nClasses 0) = some v ∧ v.length = rs.nClasses) →
        ∃ ks : List Nat, session fuel text (fun _ => none) xs = some (ks.map Int.ofNat) ∧
          List.Forall₂ (fun x k => ∃ v, runC (simpleC rs) (List.replicate rs.nClasses 0) x = some (v, k)) xs ks := by
      intro text ts hsf hcomp hfu hex
      refine session_of_calls _ rs.nClasses fuel (fun x => Binary x ∧ x.length = rs.nLits) _ ?_ xs hxs _ (by simp)
      intro st hst x hx
      obtain ⟨v, e1, e2, e3⟩ := hex x hx
      obtain ⟨st', h3, h4⟩ := call_text text rs.nClasses ts hn (by omega) hcomp x (hx.2 ▸ hsf) v e2 st hst fuel hfu
      refine ⟨_, st', h3, ?_, v, ?_⟩
      · intro l hl
        rw [h4] at hl
        rw [← Option.some.inj hl, e3]
      · unfold runC
        rw [hz, e1]
    obtain ⟨ks, hk1, hk2⟩ := hone _ (simpleC rs) (simpleC_safe rs h) (compile_simple rs) (by omega) (fun x hx => by
      obtain ⟨v, e1, -, e3⟩ := hrun x hx
      exact ⟨v, e1, e1, e3⟩)
    obtain ⟨ks', hk1', hk2'⟩ := hone _ _ (exportNode_safe _ _ root [] hsafe (by simp)) (compile_tree _ _ root) (by omega) hrun
    have : ks = ks' := by
      clear hk1 hk1' hxs hone
      induction hk2 generalizing ks' with
      | nil => cases hk2'; rfl
      | cons hq _ ih =>
        cases hk2' with
        | cons hq' hr' =>
          obtain ⟨v, hq⟩ := hq
          obtain ⟨v', hq'⟩ := hq'
          rw [hq] at hq'
          simp at hq'
          rw [hq'.2, ih _ hr']
    exact ⟨ks, hk1, this ▸ hk1'⟩

/-- C71: any other exporter name is a `ValueError` and nothing is written. -/
theorem C71_unknown_exporter (pick : List Nat → List Nat → List (Nat × List Nat) → Nat × List Nat) (rs : Rules)
    (steps : Nat) (exporter : String) :
    exportAsProgram pick rs steps exporter = .error "ValueError" ↔
      exporter ≠ "simple_c" ∧ exporter ≠ "topological_c" := by
  unfold exportAsProgram
  by_cases h1 : exporter = "simple_c"
  · simp [h1]
  · by_cases h2 : exporter = "topological_c" <;> simp [h1, h2]

/-- C71 fails for a rule set (not made by training) with a rule without literals: the text is not C. -/
theorem C71_empty_rule_is_not_c :
    ∃ rs : Rules, RulesOK rs ∧ compile (simpleText rs) = none :=
  ⟨⟨1, 2, false, [[]], [[1, 0]]⟩, ⟨rfl, by decide, by decide⟩, by decide +kernel⟩

/-- C71 fails for votes beyond 16 bits: the program of these two rules says class 1, the predictor says class 0. -/
theorem C71_overflow_disagrees :
    ∃ rs p, RulesOK rs ∧ Predictor.fromRuleset rs "none" false = .ok p ∧
      session 100 (simpleText rs) (fun _ => none) [[1, 1]] = some [1] ∧ (p.predict [1, 1]).2 = .ok (.idx 0) :=
  ⟨⟨2, 2, false, [[0], [1]], [[30000, 0], [30000, 0]]⟩, _, ⟨rfl, by decide, by decide⟩, rfl, by decide +kernel, rfl⟩

/-! The text for a small rule set, and a session with it. -/
example : simpleText ⟨2, 2, false, [[0, 3]], [[-5, 7]]⟩ =
    "#ifndef __SIMPLE_C_OUTPUT__H_\n#define __SIMPLE_C_OUTPUT__H_\n// Export from green_tsetlin:SimpleC\n\n#include <inttypes.h>\n#include <string.h>\n\n#define NUM_CLASSES 2\n#define DEFAULT_OUTPUT 0\nint predict_tm(uint8_t* x)\n{\n    static int16_t votes[NUM_CLASSES] = {0};\n    memset(votes, 0, sizeof(votes));\n\n\n\n// start clauses\nif(x[0] > 0 && x[1] == 0){\nvotes[0] += -5; votes[1] += 7;\n}\nint output_class = DEFAULT_OUTPUT;\nint16_t most_votes = votes[DEFAULT_OUTPUT];\nfor(int i = 1; i < NUM_CLASSES; ++i)\n{\n    if(votes[i] > most_votes)\n    {\n        most_votes = votes[i];\n        output_class = i;\n    }\n}\n    return output_class;\n}\n\n#endif // #ifndef __SIMPLE_C_OUTPUT__H_\n".toList := by
  decide +kernel

example : session 100 (simpleText ⟨2, 2, false, [[0, 3]], [[-5, 7]]⟩) (fun _ => none) [[1, 0], [1, 1], [1, 0]] = some [1, 0, 1] := by
  decide +kernel

/-! The hypotheses hold for rules that share literals; both texts give both classes. -/
def textRules : Rules := ⟨3, 2, false, [[0], [0, 1], [1, 5]], [[3, 0], [0, 4], [5, -4]]⟩

example : RulesOK textRules ∧ (∀ r ∈ textRules.rules, r ≠ []) ∧ 0 < textRules.nClasses ∧ textRules.nClasses < 2 ^ 31 ∧
    (topoText pickFirst textRules 20 []).bind (fun t => session 200 t (fun _ => none) [[1, 1, 1], [0, 1, 0], [1, 1, 1]]) =
      some [1, 0, 1] ∧
    session 200 (simpleText textRules) (fun _ => none) [[1, 1, 1], [0, 1, 0], [1, 1, 1]] = some [1, 0, 1] :=
  ⟨⟨rfl, by decide, by decide⟩, by decide, by decide, by decide, by decide +kernel, by decide +kernel⟩

example : DistinctRules textRules.rules := by
  have key : ∀ i < 3, ∀ j < 3, (∀ t < 6, (textRules.rules.getD i []).contains t = (textRules.rules.getD j []).contains t) → i = j := by decide
  intro i j a b hi hj hab
  have hil : i < 3 := (List.getElem?_eq_some_iff.mp hi).1
  have hjl : j < 3 := (List.getElem?_eq_some_iff.mp hj).1
  refine key i hil j hjl fun t _ => ?_
  simp only [List.getD, hi, hj, Option.getD_some]
  rw [Bool.eq_iff_iff, List.contains_iff_mem, List.contains_iff_mem]
  exact hab t

end GT

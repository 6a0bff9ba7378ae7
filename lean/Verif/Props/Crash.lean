import Verif.Model.Crash
import Verif.Lemmas.CPrefix
import Verif.Props.CText
import Verif.Props.Files

/-!
# C95: interrupted exports and saves; C96: exported programs included more than once

C95: when the process ends while a program is exported or a state is saved, the file it leaves is the old one, or
none that compiles or loads, or as good as the complete one. C96: what a C file gets that includes exported programs.
-/

namespace GT
open Spec Spec.CLang

theorem fileAfter_write {α : Type} (content : List α) (k : Nat) (old : Option (List α)) :
    fileAfter (writeOps content) (k + 1) old = some (content.take k) := by
  have h : ∀ (c acc : List α), (c.map FileOp.put).foldl FileOp.run (some acc) = some (acc ++ c) := by
    intro c
    induction c with
    | nil => intro acc; simp
    | cons a c ih => intro acc; simp [FileOp.run, ih]
  simp only [fileAfter, writeOps, List.take_succ_cons, List.foldl_cons, FileOp.run, ← List.map_take]
  simpa using h (content.take k) []

theorem session_congr (t u : List Char) (h : compile t = compile u) (fuel : Nat) (xs : List (List Nat)) :
    ∀ st, session fuel t st xs = session fuel u st xs := by
  have hc : ∀ st x, call fuel t st x = call fuel u st x := by
    intro st x
    unfold call
    rw [h]
  induction xs with
  | nil => intro st; rfl
  | cons x xs ih =>
    intro st
    simp only [session, hc]
    cases call fuel u st x with
    | none => rfl
    | some r => simp only [ih]

theorem session_none (t : List Char) (h : compile t = none) (fuel : Nat) (x : List Nat) (xs : List (List Nat))
    (st : List Char → Option (List Int)) : session fuel t st (x :: xs) = none := by
  simp only [session, call, h]

/-- The texts of the exporters are C files with one function. -/
theorem export_compiles (pick : List Nat → List Nat → List (Nat × List Nat) → Nat × List Nat)
    (hpick : ChoosesEntry pick) (rs : Rules) (h : RulesOK rs) (hne : ∀ r ∈ rs.rules, r ≠ [])
    (hd : DistinctRules rs.rules) (hn : 0 < rs.nClasses) (hn' : rs.nClasses < 2 ^ 31) :
    ∃ minSteps, ∀ steps, minSteps ≤ steps → ∀ exporter, exporter = "simple_c" ∨ exporter = "topological_c" →
      ∃ text r, exportAsProgram pick rs steps exporter = .ok (some text) ∧ compile text = some r := by
  obtain ⟨b, hb⟩ := C71_texts_agree pick hpick rs h hne hd hn hn'
  refine ⟨b, fun steps hs exporter he => ?_⟩
  obtain ⟨flat, tree, e1, e2, bound, hf⟩ := hb steps hs
  obtain ⟨ks, h1, h2⟩ := hf bound (Nat.le_refl _) [List.replicate rs.nLits 0]
    (by intro x hx; obtain rfl := List.mem_singleton.mp hx; exact ⟨by simp [Binary], by simp⟩)
  have key : ∀ t, session bound t (fun _ => none) [List.replicate rs.nLits 0] = some (ks.map Int.ofNat) →
      ∃ r, compile t = some r := by
    intro t ht
    cases hc : compile t with
    | some r => exact ⟨r, rfl⟩
    | none => rw [session_none t hc] at ht; simp at ht
  rcases he with rfl | rfl
  · obtain ⟨r, hr⟩ := key flat h1
    exact ⟨flat, r, e1, hr⟩
  · obtain ⟨r, hr⟩ := key tree h2
    exact ⟨tree, r, e2, hr⟩

/-- C95: when an export ends after any number of steps, the file is what it was before, or it holds a text that -
taken as it is, or given the newline at its end some compilers add - is no program or is exactly the complete
program. -/
theorem C95_interrupted_export (pick : List Nat → List Nat → List (Nat × List Nat) → Nat × List Nat)
    (hpick : ChoosesEntry pick) (rs : Rules) (h : RulesOK rs) (hne : ∀ r ∈ rs.rules, r ≠ [])
    (hd : DistinctRules rs.rules) (hn : 0 < rs.nClasses) (hn' : rs.nClasses < 2 ^ 31) :
    ∃ minSteps, ∀ steps, minSteps ≤ steps → ∀ exporter, exporter = "simple_c" ∨ exporter = "topological_c" →
      ∃ text, exportAsProgram pick rs steps exporter = .ok (some text) ∧
        ∀ (k : Nat) (old : Option (List Char)),
          fileAfter (exportOps pick rs steps exporter) k old = old ∨
          ∃ left, fileAfter (exportOps pick rs steps exporter) k old = some left ∧
            ∀ nl, nl = [] ∨ nl = ['\n'] → compile (left ++ nl) = none ∨ compile (left ++ nl) = compile text := by
  obtain ⟨b, hb⟩ := export_compiles pick hpick rs h hne hd hn hn'
  refine ⟨b, fun steps hs exporter he => ?_⟩
  obtain ⟨text, r, e, hc⟩ := hb steps hs exporter he
  refine ⟨text, e, fun k old => ?_⟩
  simp only [exportOps, e]
  cases k with
  | zero => left; rfl
  | succ k =>
    right
    refine ⟨text.take k, fileAfter_write text k old, fun nl hnl => ?_⟩
    cases hq : compile (text.take k ++ nl) with
    | none => left; rfl
    | some q =>
      right
      rw [hc, CPre.compile_prefix (text.take k) (text.drop k) nl hnl r q
        (by rw [List.take_append_drop]; exact hc) hq]

/-- C95: so calls of the program left behind either have no meaning or return what the complete program returns: for
examples whose votes fit in 16 bits, the classes the predictor predicts. -/
theorem C95_calls_of_a_left_export (rs : Rules) (h : RulesOK rs) (hne : ∀ r ∈ rs.rules, r ≠ [])
    (hd : DistinctRules rs.rules) (hn : 0 < rs.nClasses) (hn' : rs.nClasses < 2 ^ 31) (s : String) (excl : Bool)
    (p : Predictor) (hp : Predictor.fromRuleset rs s excl = .ok p) (cs : List Call)
    (hnames : (afterCalls p cs).names = none)
    (pick : List Nat → List Nat → List (Nat × List Nat) → Nat × List Nat) (hpick : ChoosesEntry pick) :
    ∃ minSteps, ∀ steps, minSteps ≤ steps → ∃ bound, ∀ fuel, bound ≤ fuel → ∀ (k : Nat) (left : List Char),
      fileAfter (exportOps pick rs steps "simple_c") k none = some left → ∀ (x : List Nat) (xs : List (List Nat)),
      (∀ y ∈ x :: xs, Binary y ∧ y.length = rs.nLits ∧ VotesFit rs y) →
      session fuel left (fun _ => none) (x :: xs) = none ∨
      ∃ ks : List Nat, session fuel left (fun _ => none) (x :: xs) = some (ks.map Int.ofNat) ∧
        List.Forall₂ (fun x k => ((afterCalls p cs).predict x).2 = .ok (.idx k)) (x :: xs) ks := by
  obtain ⟨b, hb⟩ := C95_interrupted_export pick hpick rs h hne hd hn hn'
  refine ⟨b, fun steps hs => ?_⟩
  obtain ⟨text, e1, h1⟩ := hb steps hs "simple_c" (.inl rfl)
  obtain ⟨text', e2, bound, h2⟩ := C71_simple_text rs h hne hn hn' s excl p hp cs hnames pick steps
  obtain rfl : text = text' := by rw [e1] at e2; simpa using e2
  refine ⟨bound, fun fuel hf k left hl x xs hxs => ?_⟩
  rcases h1 k none with h3 | ⟨left', h3, h4⟩
  · rw [hl] at h3; simp at h3
  · obtain rfl : left = left' := by rw [hl] at h3; simpa using h3
    rcases h4 [] (.inl rfl) with h5 | h5
    · left; rw [List.append_nil] at h5; exact session_none _ h5 _ _ _ _
    · right
      rw [List.append_nil] at h5
      obtain ⟨ks, h6, h7⟩ := h2 fuel hf (x :: xs) hxs
      exact ⟨ks, by rw [session_congr _ _ h5]; exact h6, h7⟩

/-- C95: an unknown exporter does not touch the file. -/
theorem C95_unknown_exporter (pick : List Nat → List Nat → List (Nat × List Nat) → Nat × List Nat) (rs : Rules)
    (steps : Nat) (exporter : String) (h : exporter ≠ "simple_c" ∧ exporter ≠ "topological_c") (k : Nat)
    (old : Option (List Char)) : fileAfter (exportOps pick rs steps exporter) k old = old := by
  have := (C71_unknown_exporter pick rs steps exporter).mpr h
  simp [exportOps, this, fileAfter]

/-! ### States -/

theorem savez_take (d : Npz) (k : Nat) (hk : k < (savezPieces d).length) : readNpz ((savezPieces d).take k) = none := by
  have hl : ((savezPieces d).take k).getLast? = none ∨ ∃ p, ((savezPieces d).take k).getLast? = some p ∧
      ∀ ns, p ≠ .directory ns := by
    cases hg : ((savezPieces d).take k).getLast? with
    | none => left; rfl
    | some p =>
      right
      refine ⟨p, rfl, ?_⟩
      have hm : p ∈ (savezPieces d).take k := List.mem_of_getLast? hg
      unfold savezPieces at hk hm
      rw [List.length_append, List.length_singleton] at hk
      rw [List.take_append_of_le_length (by omega)] at hm
      have := List.mem_of_mem_take hm
      obtain ⟨e, -, he⟩ := List.mem_flatMap.mp this
      rintro ns rfl
      simp at he
  unfold readNpz
  rcases hl with hl | ⟨p, hl, hp⟩
  · rw [hl]
  · rw [hl]
    cases p with
    | directory ns => exact absurd rfl (hp ns)
    | _ => rfl

/-- C95: when saving a valid state ends after any number of steps, other files are untouched, and loading the file
gives what it gave before (nothing was written yet), or fails and leaves the machine's state alone, or gives exactly
the state being saved. -/
theorem C95_interrupted_save (s : DenseArr) (hs : ValidState s) (disk : Disk) (path : String) (hp : NpzName path)
    (k : Nat) (st : Option DenseArr) :
    (∀ p, p ≠ path → saveToDisk s disk path k p = disk p) ∧
    (saveToDisk s disk path k path = disk path ∨
      loadStateFromDisk (saveToDisk s disk path k) st path = (.error .notAnArchive, st) ∨
      loadStateFromDisk (saveToDisk s disk path k) st path = (.ok (), some s)) := by
  have hp' := (isNpz_iff path).mpr hp
  have hd : saveToDisk s disk path k = fun p => if p = path then
      fileAfter (writeOps (savezPieces [("w", s.w), ("c", s.c)])) k (disk p) else disk p := by
    simp [saveToDisk, hp']
  refine ⟨fun p hne => by rw [hd]; simp [hne], ?_⟩
  cases k with
  | zero => left; rw [hd]; simp [fileAfter]
  | succ k =>
    right
    have hf : saveToDisk s disk path (k + 1) path = some ((savezPieces [("w", s.w), ("c", s.c)]).take k) := by
      rw [hd]
      simp only [if_true]
      exact fileAfter_write _ _ _
    by_cases hk : k < (savezPieces [("w", s.w), ("c", s.c)]).length
    · left
      simp [loadStateFromDisk, loadFromDisk, hp', hf, savez_take _ _ hk]
    · right
      have hr : readNpz ((savezPieces [("w", s.w), ("c", s.c)]).take k) = some [("w", s.w), ("c", s.c)] := by
        rw [List.take_of_length_le (by omega)]
        simp [savezPieces, readNpz, readEntries, findEntry]
      have hl : DenseArr.loadFromFile (fun _ => some [("w", s.w), ("c", s.c)]) path = .ok s :=
        (C50_loads_iff _ _ _).mpr ⟨hp, hs, _, rfl, rfl, rfl⟩
      simp [loadStateFromDisk, loadFromDisk, hp', hf, hr, hl]

/-- C95: saving that is not interrupted leaves a file that loads as the state. -/
theorem C95_complete_save (s : DenseArr) (hs : ValidState s) (disk : Disk) (path : String) (hp : NpzName path)
    (st : Option DenseArr) : ∃ steps, ∀ k, steps ≤ k →
      loadStateFromDisk (saveToDisk s disk path k) st path = (.ok (), some s) := by
  refine ⟨6, fun k hk => ?_⟩
  obtain ⟨k, rfl⟩ : ∃ j, k = j + 1 := ⟨k - 1, by omega⟩
  have hp' := (isNpz_iff path).mpr hp
  have hf : saveToDisk s disk path (k + 1) path = some (savezPieces [("w", s.w), ("c", s.c)]) := by
    simp only [saveToDisk, hp', Bool.not_true, Bool.false_eq_true, if_false, if_true]
    rw [fileAfter_write, List.take_of_length_le (by simp [savezPieces]; omega)]
  have hr : readNpz (savezPieces [("w", s.w), ("c", s.c)]) = some [("w", s.w), ("c", s.c)] := by
    simp [savezPieces, readNpz, readEntries, findEntry]
  have hl : DenseArr.loadFromFile (fun _ => some [("w", s.w), ("c", s.c)]) path = .ok s :=
    (C50_loads_iff _ _ _).mpr ⟨hp, hs, _, rfl, rfl, rfl⟩
  simp [loadStateFromDisk, loadFromDisk, hp', hf, hr, hl]

/-- The old file is not kept: whatever state was saved before, after the first step neither it nor the new one can be
loaded. -/
theorem C95_old_state_is_lost (s : DenseArr) (disk : Disk) (path : String) (hp : NpzName path)
    (st : Option DenseArr) :
    loadStateFromDisk (saveToDisk s disk path 1) st path = (.error .notAnArchive, st) := by
  have hp' := (isNpz_iff path).mpr hp
  have hf : saveToDisk s disk path 1 path = some [] := by
    simp only [saveToDisk, hp', Bool.not_true, Bool.false_eq_true, if_false, if_true]
    rw [fileAfter_write]
    rfl
  simp [loadStateFromDisk, loadFromDisk, hp', hf, readNpz]

/-! ### Including exported programs -/

/-- C96: a file that includes an exported program again is the same program: including it once or more often makes no
difference. -/
theorem C96_included_again_partial (pick : List Nat → List Nat → List (Nat × List Nat) → Nat × List Nat)
    (rs : Rules) (steps : Nat) (exporter : String) (text : List Char)
    (h : exportAsProgram pick rs steps exporter = .ok (some text)) (times : Nat) :
    compile (text ++ (List.replicate times text).flatten) = compile text := by
  obtain ⟨ts, h1⟩ := CPre.lexes_export pick exporter rs steps text h
  refine CPre.compile_more _ (CPre.guardOf_guard _) _ _ _ h1 _ (fun t ht => ?_)
  obtain rfl := (List.mem_replicate.mp ht).2
  exact ⟨_, _, h1⟩

/-- C96 fails for two machines: a file that includes the programs of two predictors by the same exporter is the program
of the first, and the second is left out without an error. -/
theorem C96_second_machine_is_left_out
    (pick pick' : List Nat → List Nat → List (Nat × List Nat) → Nat × List Nat)
    (rs rs' : Rules) (steps steps' : Nat) (exporter : String) (text text' : List Char)
    (h : exportAsProgram pick rs steps exporter = .ok (some text))
    (h' : exportAsProgram pick' rs' steps' exporter = .ok (some text')) :
    compile (text ++ text') = compile text := by
  obtain ⟨ts, h1⟩ := CPre.lexes_export pick exporter rs steps text h
  obtain ⟨ts', h2⟩ := CPre.lexes_export pick' exporter rs' steps' text' h'
  have := CPre.compile_more _ (CPre.guardOf_guard _) _ _ _ h1 [text']
    (fun t ht => by obtain rfl := List.mem_singleton.mp ht; exact ⟨_, _, h2⟩)
  simpa using this

/-- C96: the programs of two exporters in one file do not compile, since both define the same function. -/
theorem C96_both_exporters_refused (pick : List Nat → List Nat → List (Nat × List Nat) → Nat × List Nat)
    (rs rs' : Rules) (steps steps' : Nat) (flat tree : List Char)
    (h : exportAsProgram pick rs steps "simple_c" = .ok (some flat))
    (h' : exportAsProgram pick rs' steps' "topological_c" = .ok (some tree)) :
    (compile flat ≠ none → compile (flat ++ tree) = none) ∧ (compile tree ≠ none → compile (tree ++ flat) = none) := by
  obtain ⟨ts, h1⟩ := CPre.lexes_export pick _ rs steps flat h
  obtain ⟨ts', h2⟩ := CPre.lexes_export pick _ rs' steps' tree h'
  constructor
  · intro hc
    obtain ⟨r, hr⟩ := Option.ne_none_iff_exists'.mp hc
    exact CPre.compile_both _ _ (CPre.guardOf_guard _) (CPre.guardOf_guard _) (by decide) _ _ _ _ _ _ _ h1 h2 hr
  · intro hc
    obtain ⟨r, hr⟩ := Option.ne_none_iff_exists'.mp hc
    exact CPre.compile_both _ _ (CPre.guardOf_guard _) (CPre.guardOf_guard _) (by decide) _ _ _ _ _ _ _ h2 h1 hr

/-! Two rules: interrupted within the text, nothing compiles; after the function's closing brace a compiler still
misses the `#endif`; with all but the final newline the program is complete for a compiler that adds it. -/
def crashRules : Rules := ⟨2, 2, false, [[0], [1, 2]], [[1, 0], [0, 3]]⟩

/-- The hypotheses hold for these rules. -/
example : RulesOK crashRules ∧ (∀ r ∈ crashRules.rules, r ≠ []) ∧ DistinctRules crashRules.rules ∧
    0 < crashRules.nClasses := by
  refine ⟨⟨rfl, by decide, by decide⟩, by decide, ?_, by decide⟩
  have key : ∀ i < 2, ∀ j < 2, (∀ t < 4, (crashRules.rules.getD i []).contains t =
    (crashRules.rules.getD j []).contains t) → i = j := by decide
  intro i j a b hi hj hab
  have hil : i < 2 := (List.getElem?_eq_some_iff.mp hi).1
  have hjl : j < 2 := (List.getElem?_eq_some_iff.mp hj).1
  refine key i hil j hjl fun t _ => ?_
  simp only [List.getD, hi, hj, Option.getD_some]
  rw [Bool.eq_iff_iff, List.contains_iff_mem, List.contains_iff_mem]
  exact hab t

example : (exportOps pickFirst crashRules 0 "simple_c").length = 712 ∧
    ((fileAfter (exportOps pickFirst crashRules 0 "simple_c") 400 none).bind compile).isNone ∧
    ((fileAfter (exportOps pickFirst crashRules 0 "simple_c") 672 none).bind compile).isNone ∧
    ((fileAfter (exportOps pickFirst crashRules 0 "simple_c") 711 none).bind compile).isNone ∧
    ((fileAfter (exportOps pickFirst crashRules 0 "simple_c") 711 none).bind (fun t => compile (t ++ ['\n']))).isSome ∧
    ((fileAfter (exportOps pickFirst crashRules 0 "simple_c") 712 none).bind compile).isSome := by
  decide +kernel

/-! A state saved over an older one. -/
def crashState : DenseArr := ⟨⟨.int16, [1, 2], [3, -1]⟩, ⟨.int8, [1, 2], [5, -5]⟩⟩
def crashOld : DenseArr := ⟨⟨.int16, [1, 2], [7, 7]⟩, ⟨.int8, [1, 2], [-9, 9]⟩⟩
def crashDisk : Disk := saveToDisk crashOld (fun _ => none) "tm.npz" 6

example : ValidState crashState ∧ NpzName "tm.npz" ∧
    loadStateFromDisk crashDisk none "tm.npz" = (.ok (), some crashOld) ∧
    loadStateFromDisk (saveToDisk crashState crashDisk "tm.npz" 0) none "tm.npz" = (.ok (), some crashOld) ∧
    loadStateFromDisk (saveToDisk crashState crashDisk "tm.npz" 3) none "tm.npz" = (.error .notAnArchive, none) ∧
    loadStateFromDisk (saveToDisk crashState crashDisk "tm.npz" 6) none "tm.npz" = (.ok (), some crashState) :=
  ⟨⟨rfl, rfl, 1, rfl, rfl⟩, ⟨['t', 'm'], rfl⟩, rfl, rfl, rfl, rfl⟩

/-! Two machines in one file: the second one is lost, though it would predict another class. -/
example : session 100 (simpleText crashRules) (fun _ => none) [[1, 1]] = some [0] ∧
    session 100 (simpleText ⟨2, 2, false, [[0]], [[0, 1]]⟩) (fun _ => none) [[1, 1]] = some [1] ∧
    session 100 (simpleText crashRules ++ simpleText ⟨2, 2, false, [[0]], [[0, 1]]⟩) (fun _ => none) [[1, 1]] =
      some [0] := by
  decide +kernel

end GT

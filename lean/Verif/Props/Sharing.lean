import Verif.Lemmas.Sharing

/-! # C87: machines, trainers and variables that refer to the same state object -/

namespace GT
open Spec Share

variable {S R X Y P : Type}

/-- Every program that keeps to the public interface, whatever it shares and wherever its training runs are interrupted: all results, rule
sets and exceptions, all files, and the contents of every state that is held anywhere are what they are when every machine, trainer and
variable has a copy of its own. -/
theorem C87_own_copies (k : Shop S R) (compile : List R → P) (cs : List (UseCall S R X Y)) (hc : ∀ c ∈ cs, publicCall c = true) :
    let refs := useAll k compile ([], nothing) cs
    let own := ownAll k compile nothing cs
    refs.2 = own.2 ∧ refs.1.2.files = own.1.files ∧ valuesOf refs.1.1 refs.1.2 = own.1 ∧ References refs.1.1 refs.1.2 := by
  obtain ⟨e, r, _⟩ := all k compile cs [] nothing nothing_refs hc
  have e0 : valuesOf (R := R) [] (nothing : Made S R Ref X Y) = nothing := rfl
  rw [e0] at e
  dsimp only
  rw [e]
  exact ⟨rfl, rfl, rfl, r⟩

/-- No call of the public interface changes the contents of a state object that exists already. -/
theorem C87_objects_never_change (k : Shop S R) (compile : List R → P) (cs ds : List (UseCall S R X Y)) (hc : ∀ c ∈ cs, publicCall c = true)
    (hd : ∀ c ∈ ds, publicCall c = true) (r : Ref) (hr : r < (useAll k compile ([], nothing) cs).1.1.length) :
    (useAll k compile ([], nothing) (cs ++ ds)).1.1[r]? = (useAll k compile ([], nothing) cs).1.1[r]? := by
  obtain ⟨_, h1, _⟩ := all k compile cs [] nothing nothing_refs hc
  rw [useAll_append]
  obtain ⟨_, _, p⟩ := all k compile ds _ _ h1 hd
  obtain ⟨t, ht⟩ := p
  dsimp only
  rw [← ht, List.getElem?_append_left hr]

/-- A call that is neither made on machine `m` nor on a trainer of it leaves the contents of its state as they are, although another machine
or a trainer may refer to the same object. -/
theorem C87_others_untouched (k : Shop S R) (compile : List R → P) (cs : List (UseCall S R X Y)) (hc : ∀ c ∈ cs, publicCall c = true)
    (c : UseCall S R X Y) (hp : publicCall c = true) (m : Nat) (mc : Mach1 S Ref)
    (hm : (useAll k compile ([], nothing) cs).1.2.machines[m]? = some mc)
    (hl : ∀ v, c ≠ .load m v) (hf : ∀ p, c ≠ .loadFile m p) (hs : ∀ p, c ≠ .save m p)
    (ht : ∀ t n tr, c = .train t n → (useAll k compile ([], nothing) cs).1.2.trainers[t]? = some tr → tr.mach ≠ m) :
    let s := (useAll k compile ([], nothing) cs).1
    let s' := (useCall k compile s c).1
    ∃ mc', s'.2.machines[m]? = some mc' ∧ mc'.st.map s'.1.get = mc.st.map s.1.get ∧ mc'.st = mc.st := by
  obtain ⟨_, h1, _⟩ := all k compile cs [] nothing nothing_refs hc
  generalize useAll k compile ([], nothing) cs = q at *
  obtain ⟨⟨h, w⟩, out⟩ := q
  dsimp only at *
  obtain ⟨_, _, p⟩ := step k compile h w h1 c hp
  have key : (useCall k compile (h, w) c).1.2.machines[m]? = some mc := by
    cases c with
    | machine n =>
      simp only [useCall]
      rw [List.getElem?_append_left (List.getElem?_eq_some_iff.1 hm).1]; exact hm
    | state rows => exact hm
    | stateOf i => unfold useCall; dsimp only; split <;> exact hm
    | copyOf v => unfold useCall; dsimp only; split <;> exact hm
    | load i v =>
      have : i ≠ m := fun e => hl v (by rw [e])
      unfold useCall; dsimp only
      split
      · simp only [Made.setState]; rw [List.getElem?_set_ne this]; exact hm
      · exact hm
    | loadFile i path =>
      have : i ≠ m := fun e => hf path (by rw [e])
      unfold useCall; dsimp only
      split
      · simp only [Made.setState]; rw [List.getElem?_set_ne this]; exact hm
      · exact hm
    | save i path =>
      have : i ≠ m := fun e => hs path (by rw [e])
      unfold useCall; dsimp only
      split
      · exact hm
      · simp only [Made.setState]; rw [List.getElem?_set_ne this]; exact hm
      · exact hm
      · exact hm
    | rules i => unfold useCall; dsimp only; split <;> exact hm
    | trainer i cfg xt yt xe ye => unfold useCall; dsimp only; split <;> exact hm
    | data t xt yt xe ye => unfold useCall; dsimp only; split <;> exact hm
    | train t n =>
      unfold useCall; dsimp only
      cases htr : w.trainers[t]? with
      | none => exact hm
      | some tr =>
        dsimp only
        have : tr.mach ≠ m := ht t n tr rfl htr
        split
        · simp only [Made.withAttrs]; rw [List.getElem?_set_ne this]; exact hm
        · exact hm
    | write v i row => cases hp
    | refresh i => cases hp
  exact ⟨mc, key, map_get_prefix p (h1.2.1 mc (List.mem_of_getElem? hm)), rfl⟩

/-- After `s.copy()` the user can write into the copy: nothing but the copy changes, no machine, no trainer and none of the other variables. -/
theorem C87_copies_are_apart (k : Shop S R) (compile : List R → P) (cs : List (UseCall S R X Y)) (hc : ∀ c ∈ cs, publicCall c = true)
    (v i : Nat) (row : R) (hv : v < (useAll k compile ([], nothing) cs).1.2.vars.length) :
    let s := (useAll k compile ([], nothing) cs).1
    let n := s.2.vars.length
    let s' := (useAll k compile s [.copyOf v, .write n i row]).1
    valuesOf s'.1 s'.2 = { valuesOf s.1 s.2 with vars := (valuesOf s.1 s.2).vars ++ [((valuesOf s.1 s.2).vars.getD v []).set i row] } := by
  obtain ⟨_, h1, _⟩ := all k compile cs [] nothing nothing_refs hc
  generalize useAll k compile ([], nothing) cs = q at *
  obtain ⟨⟨h, w⟩, out⟩ := q
  dsimp only at *
  have hv' : w.vars[v]? = some w.vars[v] := List.getElem?_eq_getElem hv
  have e : (useAll k compile (h, w) [.copyOf v, .write w.vars.length i row]).1 =
      (h ++ [(h.get w.vars[v]).set i row], { w with vars := w.vars ++ [h.length] }) := by
    simp only [useAll, useCall, hv', StateHeap.alloc, List.getElem?_concat_length, modify_last]
  rw [e]
  dsimp only
  rw [values_addVar, get_new, values_prefix (List.prefix_append _ _) h1]
  have : (valuesOf h w).vars.getD v [] = h.get w.vars[v] := by
    rw [List.getD, var_get, hv']; rfl
  rw [this]

/-! ## Why the restrictions are there -/

/-- A program for the counterexamples and the examples: rows are numbers. The two blocks of a machine with backend state `s` have the rows
`[s]` and `[s + 1]`; an epoch adds one; the score is the state. -/
private def demoShop : Shop Nat Nat := ⟨0, fun s => [[s], [s + 1]]⟩

private def demoCfg (best : Bool) (epochs folds : Int) : TrainerCfg Nat Nat Nat Nat :=
  ⟨epochs, 1000, best, folds, fun _ _ _ _ => ⟨fun o => (o.map List.sum).getD 0, fun _ s => s, fun s => (s + 1, 0), fun s => (s, s)⟩, fun _ _ => [([0], [1]), ([1], [0])]⟩

/-- Two machines with the same state object. -/
private def demoStart : List (UseCall Nat Nat Nat Nat) :=
  [.machine 2, .machine 2, .state [7, 8], .load 0 0, .load 1 0, .trainer 0 (demoCfg true 2 0) [1] [0] [1] [0]]

/-- `load_state` keeps a reference: a user who writes into the arrays of a state afterwards changes every machine it was loaded into. -/
theorem C87_writes_show :
    ∃ (k : Shop Nat Nat) (cs : List (UseCall Nat Nat Nat Nat)) (v i : Nat) (row : Nat), (∀ c ∈ cs, publicCall c = true) ∧
      let s := (useAll k (fun r => r) ([], nothing) cs).1
      Shares s.2 0 1 ∧
      let s' := (useAll k (fun r => r) s [.write v i row]).1
      (s.2.machines.map fun m => m.st.map s.1.get) = [some [7, 8], some [7, 8]] ∧
      (s'.2.machines.map fun m => m.st.map s'.1.get) = [some [9, 8], some [9, 8]] :=
  ⟨demoShop, demoStart, 0, 0, 9, (by decide), ⟨by decide, _, _, 0, rfl, rfl, rfl, rfl⟩, rfl, rfl⟩

/-- The private `_load_state_from_backend()` writes into the object the machine has: during a training run (here one that was interrupted) it
changes a machine that shares the object. No public method calls it on a machine that has a state. -/
theorem C87_refresh_shows :
    ∃ (k : Shop Nat Nat) (cs : List (UseCall Nat Nat Nat Nat)), (∀ c ∈ cs, publicCall c = true) ∧
      let s := (useAll k (fun r => r) ([], nothing) cs).1
      Shares s.2 0 1 ∧
      let s' := (useAll k (fun r => r) s [.refresh 0]).1
      (s.2.machines.map fun m => m.st.map s.1.get) = [some [7, 8], some [7, 8]] ∧
      (s'.2.machines.map fun m => m.st.map s'.1.get) = [some [16, 17], some [16, 17]] :=
  ⟨demoShop, demoStart ++ [.train 0 (some 4)], (by decide), ⟨by decide, _, _, 0, rfl, rfl, rfl, rfl⟩, rfl, rfl⟩

/-! ## The hypotheses can be met -/

private def demoProgram : List (UseCall Nat Nat Nat Nat) :=
  demoStart ++ [.train 0 none, .rules 0, .rules 1, .stateOf 0, .load 1 1, .save 1 "a.npz", .train 0 none, .train 0 (some 6),
    .trainer 1 (demoCfg false 1 2) [1] [0] [1] [0], .train 1 none, .rules 0, .rules 1, .save 0 "b.npz", .loadFile 1 "a.npz", .rules 1]

/-- A long program: the second machine keeps its state while the first is trained, then gets the first one's new state; the first goes on
training, is interrupted once, and the second is trained with two folds. -/
example : (∀ c ∈ demoProgram, publicCall c = true) ∧
    (useAll demoShop (fun r => r) ([], nothing) demoProgram).2.filterMap (fun o => match o with | .rules p => some p | _ => none) =
      [[17, 18], [7, 8], [37, 38], [74, 75], [17, 18]] ∧
    ((useAll demoShop (fun r => r) ([], nothing) demoProgram).1.2.files "a.npz" = some [17, 18]) ∧
    ((useAll demoShop (fun r => r) ([], nothing) demoProgram).1.2.files "b.npz" = some [37, 38]) :=
  ⟨by decide, by decide +kernel, by decide +kernel, by decide +kernel⟩

/-- Machine 1 refers to the object of machine 0, and machine 0 is trained. -/
example : Shares (useAll demoShop (fun r => r) ([], nothing) demoStart).1.2 0 1 ∧
    publicCall (.train 0 none : UseCall Nat Nat Nat Nat) = true ∧
    ((useAll demoShop (fun r => r) ([], nothing) demoStart).1.2.trainers[0]?.map (·.mach)) = some 0 ∧
    ((useAll demoShop (fun r => r) ([], nothing) (demoStart ++ [.train 0 none])).1.1) = [[7, 8], [16, 17], [17, 18]] :=
  ⟨⟨by decide, _, _, 0, rfl, rfl, rfl, rfl⟩, rfl, rfl, by decide +kernel⟩

end GT

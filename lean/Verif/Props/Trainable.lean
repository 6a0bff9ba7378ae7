import Verif.Lemmas.Trainable
import Verif.Props.Executor
import Verif.Props.ConvExec
import Verif.Props.SparseExec

/-! # C88: a block made untrainable keeps what it has learned and still votes -/

namespace GT
open Spec

variable {B E : Type}

/-- Only `set_trainable` on the block changes its flag, and only a new executor changes which blocks are recorded: those that are trainable then. -/
theorem C88_flags (be : Backend B E) (smp : List Rat → Rat → Nat) (e : FExec B) (hw : FWell e) (c : FCall E) (j : Nat) :
    flagAt (e.call be smp c).1 j = (match c with
      | .setTrainable i v => if i = j then (flagAt e j).map (fun _ => v) else flagAt e j
      | _ => flagAt e j) ∧
    (Recorded (e.call be smp c).1 j ↔ match c with
      | .rebuild _ => flagAt e j = some true
      | _ => Recorded e j) ∧
    FWell (e.call be smp c).1 := by
  have hm : Flag.Moves (fun a b : FExec B => flagAt b j = flagAt a j ∧ b.recorded = a.recorded) :=
    ⟨fun _ => ⟨rfl, rfl⟩, fun _ _ _ h1 h2 => ⟨h2.1.trans h1.1, h2.2.trans h1.2⟩⟩
  have ht : ∀ (e : FExec B) x l, FWell e → flagAt (e.trainOne be smp x l) j = flagAt e j ∧ (e.trainOne be smp x l).recorded = e.recorded := by
    intro e x l hw
    refine ⟨?_, rfl⟩
    unfold flagAt
    rw [Flag.trainOne_get be smp e hw, Option.map_map]
    congr 1
    funext b
    simp only [Function.comp]
    split <;> rfl
  have he : ∀ (e : FExec B) x, FWell e → flagAt (e.evalOne be x).1 j = flagAt e j ∧ (e.evalOne be x).1.recorded = e.recorded := by
    intro e x _
    refine ⟨?_, rfl⟩
    unfold flagAt
    rw [(Flag.evalOne_get be e x).1, List.getElem?_map, Option.map_map]
    rfl
  cases c with
  | setTrainable i v =>
    refine ⟨?_, Iff.rfl, hw.1, fun k hk => ?_⟩
    · show Option.map _ ((e.blocks.modify i _)[j]?) = _
      rw [List.getElem?_modify]
      dsimp only
      split
      · unfold flagAt; cases e.blocks[j]? <;> rfl
      · unfold flagAt; cases e.blocks[j]? <;> rfl
    · show k < (e.blocks.modify i _).length
      rw [List.length_modify]; exact hw.2 k hk
  | slice sh data a b =>
    have := Flag.trainIndices_rel be smp hm ht data (((if a = 0 then sh (List.range data.length) else e.index).take b).drop a)
      { e with index := if a = 0 then sh (List.range data.length) else e.index } hw
    exact ⟨this.1.1, by show j ∈ _ ↔ j ∈ _; rw [show ((e.call be smp (.slice sh data a b)).1).recorded = e.recorded from this.1.2], this.2⟩
  | epoch sh data =>
    have := Flag.trainIndices_rel be smp hm ht data (((if 0 = 0 then sh (List.range data.length) else e.index).take data.length).drop 0)
      { e with fb := e.fb.resetCounter, index := if 0 = 0 then sh (List.range data.length) else e.index } hw
    exact ⟨this.1.1, by show j ∈ _ ↔ j ∈ _; rw [show ((e.call be smp (.epoch sh data)).1).recorded = e.recorded from this.1.2], this.2⟩
  | eval data n =>
    have := Flag.evalLoop_rel be hm he data e hw
    simp only [FExec.call, FExec.evalPredict]
    by_cases hn : n ≠ data.length
    · rw [if_pos hn]; exact ⟨rfl, Iff.rfl, hw⟩
    · rw [if_neg hn]
      exact ⟨this.1.1, by show j ∈ _ ↔ j ∈ _; rw [this.1.2], this.2⟩
  | rebuild fb => exact ⟨rfl, Flag.new_recorded fb e.blocks j, Flag.new_well fb e.blocks⟩

/-- One training example: every block computes its output and votes; then exactly the blocks that were trainable when the executor was made and
are trainable now get the update, once, with the same example and feedback. -/
theorem C88_each_block_partial (be : Backend B E) (smp : List Rat → Rat → Nat) (e : FExec B) (hw : FWell e) (x : E) (label j : Nat) :
    (Learning e j → blockAt (e.trainOne be smp x label) j =
      (blockAt e j).map fun b => be.trainUpdate (be.trainExample b x) x (e.trainOne be smp x label).fb.feedback) ∧
    (¬ Learning e j → blockAt (e.trainOne be smp x label) j = (blockAt e j).map (be.trainExample · x)) := by
  unfold Learning Recorded flagAt blockAt
  rw [Flag.trainOne_get be smp e hw]
  constructor
  · rintro ⟨h1, h2⟩
    cases hb : e.blocks[j]? with
    | none => rfl
    | some b =>
      rw [hb] at h2
      have h2 : b.flag = true := by simpa using h2
      have h1 : e.recorded.contains j = true := by simpa using h1
      simp only [Option.map_some, h1, h2]
      rfl
  · intro h
    cases hb : e.blocks[j]? with
    | none => rfl
    | some b =>
      have : (e.recorded.contains j && b.flag) = false := by
        rw [hb] at h
        cases hc : e.recorded.contains j
        · rfl
        · cases hf : b.flag
          · rfl
          · exact absurd ⟨by simpa using hc, by simp [hf]⟩ h
      simp only [Option.map_some, this]
      simp [Flagged.on]

/-- Frozen blocks vote in training: the votes, the feedback for an example and the training counters are those of the executor without flags
that holds the same blocks. -/
theorem C88_frozen_blocks_vote (be : Backend B E) (smp : List Rat → Rat → Nat) (e : FExec B) (x : E) (label : Nat) :
    (e.trainOne be smp x label).fb = ((plain e).trainOne be smp x label).fb := Flag.trainOne_fb be smp e x label

/-- Frozen blocks vote in predictions: these are those of the executor without flags that holds the same blocks. -/
theorem C88_frozen_blocks_predict (be : Backend B E) (e : FExec B) (xs : List E) (n : Nat) :
    (FExec.evalPredict be xs n e).2 = (Exec.evalPredict be xs n (plain e)).2 ∧
    plain (FExec.evalPredict be xs n e).1 = (Exec.evalPredict be xs n (plain e)).1 := by
  unfold FExec.evalPredict Exec.evalPredict
  by_cases h : n ≠ xs.length
  · rw [if_pos h, if_pos h]; exact ⟨rfl, rfl⟩
  · rw [if_neg h, if_neg h]
    obtain ⟨h1, h2, -, -⟩ := Flag.evalLoop_plain be xs e
    exact ⟨congrArg some h2, h1⟩

/-- A call during which a block is not learning leaves alone all of the block that `train_example` and `eval_example` leave alone. -/
theorem C88_call_keeps {α : Type} (be : Backend B E) (smp : List Rat → Rat → Nat) (F : B → α) (hF : KeptByExamples be F) (c : FCall E)
    (e : FExec B) (hw : FWell e) (j : Nat) (hj : ¬ Learning e j) :
    (blockAt (e.call be smp c).1 j).map F = (blockAt e j).map F := by
  have hm : Flag.Moves (fun a b : FExec B => ¬ Learning a j → (blockAt b j).map F = (blockAt a j).map F ∧ ¬ Learning b j) :=
    ⟨fun _ h => ⟨rfl, h⟩, fun _ _ _ h1 h2 h => ⟨(h2 (h1 h).2).1.trans (h1 h).1, (h2 (h1 h).2).2⟩⟩
  have ht : ∀ (e : FExec B) x l, FWell e → ¬ Learning e j → (blockAt (e.trainOne be smp x l) j).map F = (blockAt e j).map F ∧
      ¬ Learning (e.trainOne be smp x l) j := by
    intro e x l hw h
    constructor
    · rw [(C88_each_block_partial be smp e hw x l j).2 h, Option.map_map]
      congr 1
      funext b
      exact (hF b x).1
    · rintro ⟨h1, h2⟩
      refine h ⟨h1, ?_⟩
      rw [← h2]
      unfold flagAt
      rw [Flag.trainOne_get be smp e hw, Option.map_map]
      congr 1
      funext b
      simp only [Function.comp]
      split <;> rfl
  have he : ∀ (e : FExec B) x, FWell e → ¬ Learning e j → (blockAt (e.evalOne be x).1 j).map F = (blockAt e j).map F ∧
      ¬ Learning (e.evalOne be x).1 j := by
    intro e x _ h
    unfold Learning Recorded blockAt flagAt at *
    rw [(Flag.evalOne_get be e x).1, List.getElem?_map, (Flag.evalOne_get be e x).2]
    simp only [Option.map_map]
    refine ⟨?_, h⟩
    congr 1; funext b; exact (hF b.block x).2
  cases c with
  | setTrainable i v =>
    unfold blockAt
    show Option.map F (Option.map _ ((e.blocks.modify i _)[j]?)) = _
    rw [List.getElem?_modify]
    split <;> cases e.blocks[j]? <;> rfl
  | slice sh data a b =>
    exact ((Flag.trainIndices_rel be smp hm ht data _ { e with index := if a = 0 then sh (List.range data.length) else e.index } hw).1 hj).1
  | epoch sh data =>
    exact ((Flag.trainIndices_rel be smp hm ht data _
      { e with fb := e.fb.resetCounter, index := if 0 = 0 then sh (List.range data.length) else e.index } hw).1 hj).1
  | eval data n =>
    simp only [FExec.call, FExec.evalPredict]
    by_cases hn : n ≠ data.length
    · rw [if_pos hn]
    · rw [if_neg hn]; exact ((Flag.evalLoop_rel be hm he data e hw).1 hj).1
  | rebuild fb => rfl

/-- Whatever a program trains and evaluates, with however many executors: a block that is untrainable at the start and is not made trainable keeps
everything that `train_example` and `eval_example` leave alone. -/
theorem C88_frozen_keeps {α : Type} (be : Backend B E) (smp : List Rat → Rat → Nat) (F : B → α) (hF : KeptByExamples be F)
    (cs : List (FCall E)) (e : FExec B) (hw : FWell e) (j : Nat) (hj : flagAt e j = some false) (hc : ∀ c ∈ cs, Leaves j c) :
    (blockAt (FExec.run be smp cs e).1 j).map F = (blockAt e j).map F := by
  induction cs generalizing e with
  | nil => rfl
  | cons c cs ih =>
    have hl : ¬ Learning e j := fun h => by have h := h.2; rw [hj] at h; cases h
    rw [← C88_call_keeps be smp F hF c e hw j hl]
    obtain ⟨f1, -, f3⟩ := C88_flags be smp e hw c j
    refine ih _ f3 ?_ fun c' hc' => hc c' (by simp [hc'])
    rw [f1]
    have h := hc c (by simp)
    cases c with
    | setTrainable i v =>
      dsimp only
      split
      · rename_i hij
        subst hij
        cases v with
        | true => exact absurd rfl h
        | false => rw [hj]; rfl
      · exact hj
    | _ => exact hj

/-- A block that was untrainable when the executor was made keeps the same for as long as this executor is used, even when it is made trainable:
the flag has no effect before another executor is made. -/
theorem C88_late_enabling_ignored {α : Type} (be : Backend B E) (smp : List Rat → Rat → Nat) (F : B → α) (hF : KeptByExamples be F)
    (cs : List (FCall E)) (e : FExec B) (hw : FWell e) (j : Nat) (hj : ¬ Recorded e j) (hc : ∀ c ∈ cs, SameExecutor c) :
    (blockAt (FExec.run be smp cs e).1 j).map F = (blockAt e j).map F := by
  induction cs generalizing e with
  | nil => rfl
  | cons c cs ih =>
    rw [← C88_call_keeps be smp F hF c e hw j fun h => hj h.1]
    obtain ⟨-, f2, f3⟩ := C88_flags be smp e hw c j
    refine ih _ f3 ?_ fun c' hc' => hc c' (by simp [hc'])
    rw [f2]
    have h := hc c (by simp)
    cases c with
    | rebuild fb => exact absurd rfl (h fb)
    | _ => exact hj

/-- With all blocks trainable when the executor is made and none made untrainable, the flags make no difference: every program returns the
same and leaves the same blocks as on the executor without flags (the one the other properties are about). -/
theorem C88_all_trainable (be : Backend B E) (hb : ∀ b, be.trainable b = true) (smp : List Rat → Rat → Nat) (fb : FB) (bs : List B)
    (cs : List (FCall E)) (hc : ∀ c ∈ cs, FreezesNone c) :
    plain (FExec.run be smp cs (FExec.new fb (bs.map Flagged.new))).1 = (plainRun be smp cs ⟨fb, bs, []⟩).1 ∧
    (FExec.run be smp cs (FExec.new fb (bs.map Flagged.new))).2 = (plainRun be smp cs ⟨fb, bs, []⟩).2 := by
  let On : FExec B → Prop := fun e => FWell e ∧ ∀ j < e.blocks.length, Learning e j
  have step : ∀ (e : FExec B) x l, On e → On (e.trainOne be smp x l) ∧ plain (e.trainOne be smp x l) = (plain e).trainOne be smp x l := by
    intro e x l ⟨hw, hl⟩
    have hlen := (Flag.trainOne_rest be smp e x l).2.2
    have hget : (e.trainOne be smp x l).blocks = e.blocks.map fun b =>
        (b.on (be.trainExample · x)).on (be.trainUpdate · x (e.trainOne be smp x l).fb.feedback) := by
      apply List.ext_getElem?
      intro j
      rw [Flag.trainOne_get be smp e hw, List.getElem?_map]
      cases hb : e.blocks[j]? with
      | none => rfl
      | some b =>
        have hj : j < e.blocks.length := (List.getElem?_eq_some_iff.mp hb).1
        obtain ⟨h1, h2⟩ := hl j hj
        unfold flagAt at h2
        rw [hb] at h2
        have h2 : b.flag = true := by simpa using h2
        have h1 : e.recorded.contains j = true := by simpa [Recorded] using h1
        simp only [Option.map_some, h1, h2]
        rfl
    refine ⟨⟨⟨hw.1, fun i hi => by rw [hlen]; exact hw.2 i hi⟩, fun j hj => ?_⟩, ?_⟩
    · rw [hlen] at hj
      refine ⟨(hl j hj).1, ?_⟩
      have h2 := (hl j hj).2
      unfold flagAt at h2 ⊢
      rw [hget, List.getElem?_map, Option.map_map]
      exact h2
    · have hfb := Flag.trainOne_fb be smp e x l
      have hbl : ((plain e).trainOne be smp x l).blocks = (plain e).blocks.map fun b =>
          be.trainUpdate (be.trainExample b x) x ((plain e).trainOne be smp x l).fb.feedback := by
        simp [Exec.trainOne, exampleLoop_blocks, hb]
      have : ∀ a b : Exec B, a.fb = b.fb → a.blocks = b.blocks → a.index = b.index → a = b := by
        rintro ⟨_, _, _⟩ ⟨_, _, _⟩ rfl rfl rfl; rfl
      apply this
      · exact hfb
      · rw [hbl, ← hfb]
        show (e.trainOne be smp x l).blocks.map _ = _
        rw [hget]
        simp [plain, Flagged.on]
      · rfl
  have indices : ∀ (data : List (E × Nat)) (is : List Nat) (e : FExec B), On e → On (FExec.trainIndices be smp data is e) ∧
      plain (FExec.trainIndices be smp data is e) = Exec.trainIndices be smp data is (plain e) := by
    intro data is
    induction is with
    | nil => exact fun e h => ⟨h, rfl⟩
    | cons i is ih =>
      intro e h
      rw [FExec.trainIndices, Exec.trainIndices]
      cases data[i]? with
      | none => exact ih e h
      | some d =>
        obtain ⟨s1, s2⟩ := step e d.1 d.2 h
        dsimp only
        rw [← s2]
        exact ih _ s1
  have callOK : ∀ (c : FCall E) (e : FExec B), FreezesNone c → On e → On (e.call be smp c).1 ∧
      plain (e.call be smp c).1 = (plainCall be smp (plain e) c).1 ∧ (e.call be smp c).2 = (plainCall be smp (plain e) c).2 := by
    intro c e hc h
    cases c with
    | setTrainable i v =>
      cases v with
      | false => exact absurd rfl (hc i)
      | true =>
        refine ⟨⟨(C88_flags be smp e h.1 (.setTrainable i true) 0).2.2, fun j hj => ?_⟩, ?_, rfl⟩
        · have hj' : j < e.blocks.length := by
            have : (e.blocks.modify i fun b => { b with flag := true }).length = e.blocks.length := List.length_modify ..
            exact this ▸ hj
          refine ⟨(h.2 j hj').1, ?_⟩
          rw [(C88_flags be smp e h.1 (.setTrainable i true) j).1]
          dsimp only
          rw [(h.2 j hj').2]
          split <;> rfl
        · show Exec.mk _ _ _ = Exec.mk _ _ _
          congr 1
          show (e.blocks.modify i _).map _ = _
          apply List.ext_getElem?
          intro j
          rw [List.getElem?_map, List.getElem?_map, List.getElem?_modify]
          split <;> cases e.blocks[j]? <;> rfl
    | slice sh data a b =>
      obtain ⟨i1, i2⟩ := indices data _ { e with index := if a = 0 then sh (List.range data.length) else e.index } h
      exact ⟨i1, i2, rfl⟩
    | epoch sh data =>
      obtain ⟨i1, i2⟩ := indices data _ { e with fb := e.fb.resetCounter, index := if 0 = 0 then sh (List.range data.length) else e.index } h
      refine ⟨i1, i2, ?_⟩
      have := congrArg Exec.fb i2
      exact congrArg (fun f : FB => FRes.accuracy f.accuracy) this
    | eval data n =>
      obtain ⟨v2, v3⟩ := C88_frozen_blocks_predict be e data n
      · refine ⟨⟨(C88_flags be smp e h.1 (.eval data n) 0).2.2, fun j hj => ?_⟩, v3, congrArg FRes.predictions v2⟩
        have hf := C88_flags be smp e h.1 (.eval data n) j
        have hj' : j < e.blocks.length := by
          rcases Nat.lt_or_ge j e.blocks.length with hl | hl
          · exact hl
          · have h0 : flagAt (e.call be smp (.eval data n)).1 j = none := by
              rw [hf.1]; unfold flagAt; dsimp only; rw [List.getElem?_eq_none hl]; rfl
            unfold flagAt at h0
            rw [List.getElem?_eq_getElem hj] at h0
            cases h0
        exact ⟨hf.2.1.mpr (h.2 j hj').1, hf.1.trans (h.2 j hj').2⟩
    | rebuild fb =>
      refine ⟨⟨Flag.new_well fb e.blocks, fun j hj => ?_⟩, rfl, rfl⟩
      exact ⟨(Flag.new_recorded fb e.blocks j).mpr (h.2 j hj).2, (h.2 j hj).2⟩
  have start : On (FExec.new fb (bs.map Flagged.new)) := by
    refine ⟨Flag.new_well _ _, fun j hj => ?_⟩
    have hj : j < (bs.map Flagged.new).length := hj
    have : flagAt (FExec.new fb (bs.map Flagged.new)) j = some true := by
      show Option.map _ ((bs.map Flagged.new)[j]?) = _
      rw [List.getElem?_eq_getElem hj]
      simp [Flagged.new]
    exact ⟨(Flag.new_recorded _ _ j).mpr this, this⟩
  have hp : plain (FExec.new fb (bs.map Flagged.new)) = ⟨fb, bs, []⟩ := by
    show Exec.mk fb ((bs.map Flagged.new).map (·.block)) [] = _
    rw [List.map_map]
    congr 1
    exact List.map_id bs
  rw [← hp]
  generalize FExec.new fb (bs.map Flagged.new) = e at start
  induction cs generalizing e with
  | nil => exact ⟨rfl, rfl⟩
  | cons c cs ih =>
    obtain ⟨c1, c2, c3⟩ := callOK c e (hc c (by simp)) start
    rw [FExec.run, plainRun, ← c2, ← c3]
    obtain ⟨i1, i2⟩ := ih (fun c h => hc c (by simp [h])) _ c1
    exact ⟨i1, by rw [← i2]⟩

/-- Training with several threads, whatever the schedule, with any flags: the result is that of training one block after the other. -/
theorem C88_any_schedule {be : Backend B E} {n : Nat} {P : B → Prop} (hk : Keeps be n P) (smp : List Rat → Rat → Nat) (ds : List (E × Nat))
    (e : FExec B) (hw : FWell e) (h : Ready n P (plain e)) (e' : Exec (Bool × Flagged B)) :
    TrainMT (taskBackend be) smp ds e.marked e' ↔ e' = (ds.foldl (fun e d => e.trainOne be smp d.1 d.2) e).marked := by
  have hk' : Keeps (taskBackend be) n (fun b => P b.2.block) :=
    ⟨fun b x h => hk.train b.2.block x h, fun b x h => hk.eval b.2.block x h, fun b x f h => hk.update b.2.block x f h⟩
  have hr : Ready n (fun b : Bool × Flagged B => P b.2.block) e.marked := by
    refine ⟨h.classes, h.fbClasses, h.fbVotes, ?_⟩
    intro b hb
    obtain ⟨i, hi, rfl⟩ := List.mem_mapIdx.mp hb
    exact h.blocks _ (List.mem_map.mpr ⟨_, List.getElem_mem hi, rfl⟩)
  rw [trainMT_iff hk' smp ds e.marked e' hr]
  suffices hs : trainAll (taskBackend be) smp ds e.marked = (ds.foldl (fun e d => e.trainOne be smp d.1 d.2) e).marked by rw [hs]
  clear h hr
  induction ds generalizing e with
  | nil => rfl
  | cons d ds ih =>
    obtain ⟨r1, r2, r3⟩ := Flag.trainOne_rest be smp e d.1 d.2
    have hone : e.marked.trainOne (taskBackend be) smp d.1 d.2 = (e.trainOne be smp d.1 d.2).marked := by
      have hfb : (e.marked.trainOne (taskBackend be) smp d.1 d.2).fb = (e.trainOne be smp d.1 d.2).fb := by
        have := Flag.exampleLoop_marked (be.trainExample · d.1) be.votes (fun i => e.recorded.contains i) e.blocks 0 e.fb.reset
        unfold Exec.trainOne FExec.trainOne FExec.marked taskBackend
        dsimp only
        simp only [Nat.add_zero] at this
        rw [this]
      have hbl : (e.marked.trainOne (taskBackend be) smp d.1 d.2).blocks = (e.trainOne be smp d.1 d.2).marked.blocks := by
        apply List.ext_getElem?
        intro j
        have h1 : (e.trainOne be smp d.1 d.2).marked.blocks[j]? =
            (e.trainOne be smp d.1 d.2).blocks[j]?.map fun b => (e.recorded.contains j, b) := by
          unfold FExec.marked
          rw [List.getElem?_mapIdx, r1]
        have h2 : (e.marked.trainOne (taskBackend be) smp d.1 d.2).blocks = e.marked.blocks.map fun b =>
            if b.1 && b.2.flag then (b.1, (b.2.on (be.trainExample · d.1)).on (be.trainUpdate · d.1 (e.trainOne be smp d.1 d.2).fb.feedback))
            else (b.1, b.2.on (be.trainExample · d.1)) := by
          rw [← hfb]
          unfold Exec.trainOne
          dsimp only
          rw [exampleLoop_blocks, List.map_map]
          rfl
        rw [h1, h2, Flag.trainOne_get be smp e hw, List.getElem?_map]
        unfold FExec.marked
        rw [List.getElem?_mapIdx]
        cases e.blocks[j]? with
        | none => rfl
        | some b =>
          simp only [Option.map_some]
          split <;> rfl
      have : ∀ a b : Exec (Bool × Flagged B), a.fb = b.fb → a.blocks = b.blocks → a.index = b.index → a = b := by
        rintro ⟨_, _, _⟩ ⟨_, _, _⟩ rfl rfl rfl; rfl
      exact this _ _ hfb hbl rfl
    show trainAll (taskBackend be) smp ds (e.marked.trainOne (taskBackend be) smp d.1 d.2) = _
    rw [hone]
    exact ih _ ⟨hw.1, fun i hi => by rw [r3]; exact hw.2 i hi⟩

/-! ### The blocks -/

/-- A portable dense block keeps, while it does not learn, its configuration, states, weights and both generators. -/
theorem C88_dense (cs : List (FCall (List Nat))) (smp : List Rat → Rat → Nat) (e : FExec DBlock) (hw : FWell e) (j : Nat)
    (h : flagAt e j = some false ∧ (∀ c ∈ cs, Leaves j c) ∨ ¬ Recorded e j ∧ ∀ c ∈ cs, SameExecutor c) :
    (blockAt (FExec.run denseBackend smp cs e).1 j).map (fun b => (b.nLits, b.nClasses, b.cfg, b.clauses.map learned, b.fast, b.rng)) =
      (blockAt e j).map fun b => (b.nLits, b.nClasses, b.cfg, b.clauses.map learned, b.fast, b.rng) := by
  have hF : KeptByExamples denseBackend (fun b : DBlock => (b.nLits, b.nClasses, b.cfg, b.clauses.map learned, b.fast, b.rng)) := by
    intro b x
    have h1 : (b.clauses.map (setOutClause b.cfg x)).map learned = b.clauses.map learned := by
      rw [List.map_map]; apply List.map_congr_left; intro c _; rfl
    have h2 : (b.clauses.map (evalOutClause x)).map learned = b.clauses.map learned := by
      rw [List.map_map]; apply List.map_congr_left; intro c _; rfl
    exact ⟨congrArg (fun z => (b.nLits, b.nClasses, b.cfg, z, b.fast, b.rng)) h1, congrArg (fun z => (b.nLits, b.nClasses, b.cfg, z, b.fast, b.rng)) h2⟩
  rcases h with ⟨h1, h2⟩ | ⟨h1, h2⟩
  · exact C88_frozen_keeps denseBackend smp _ hF cs e hw j h1 h2
  · exact C88_late_enabling_ignored denseBackend smp _ hF cs e hw j h1 h2

/-- The same for an AVX2 block, padding included. -/
theorem C88_avx2 (cs : List (FCall Mem)) (smp : List Rat → Rat → Nat) (e : FExec VBlock) (hw : FWell e) (j : Nat)
    (h : flagAt e j = some false ∧ (∀ c ∈ cs, Leaves j c) ∨ ¬ Recorded e j ∧ ∀ c ∈ cs, SameExecutor c) :
    (blockAt (FExec.run avxBackend smp cs e).1 j).map (fun b => (b.nClasses, b.cfg, b.clauses.map (fun c => (c.row, c.w)), b.fast, b.vrng)) =
      (blockAt e j).map fun b => (b.nClasses, b.cfg, b.clauses.map (fun c => (c.row, c.w)), b.fast, b.vrng) := by
  have hF : KeptByExamples avxBackend (fun b : VBlock => (b.nClasses, b.cfg, b.clauses.map (fun c => (c.row, c.w)), b.fast, b.vrng)) := by
    intro b x
    have h1 : (b.clauses.map (avxSetClause b.cfg x)).map (fun c => (c.row, c.w)) = b.clauses.map (fun c => (c.row, c.w)) := by
      rw [List.map_map]; apply List.map_congr_left; intro c _; simp only [Function.comp, avxSetClause]; split <;> (try split) <;> (try split) <;> rfl
    have h2 : (b.clauses.map (avxEvalClause b.cfg x)).map (fun c => (c.row, c.w)) = b.clauses.map (fun c => (c.row, c.w)) := by
      rw [List.map_map]; apply List.map_congr_left; intro c _; simp only [Function.comp, avxEvalClause]; split <;> (try split) <;> (try split) <;> rfl
    exact ⟨congrArg (fun z => (b.nClasses, b.cfg, z, b.fast, b.vrng)) h1, congrArg (fun z => (b.nClasses, b.cfg, z, b.fast, b.vrng)) h2⟩
  rcases h with ⟨h1, h2⟩ | ⟨h1, h2⟩
  · exact C88_frozen_keeps avxBackend smp _ hF cs e hw j h1 h2
  · exact C88_late_enabling_ignored avxBackend smp _ hF cs e hw j h1 h2

/-- The same for a sparse block, with its lists of active literals. -/
theorem C88_sparse (cs : List (FCall (List Nat))) (smp : List Rat → Rat → Nat) (e : FExec SBlock) (hw : FWell e) (j : Nat)
    (h : flagAt e j = some false ∧ (∀ c ∈ cs, Leaves j c) ∨ ¬ Recorded e j ∧ ∀ c ∈ cs, SameExecutor c) :
    (blockAt (FExec.run sparseBackend smp cs e).1 j).map (fun b => (b.nLits, b.nClasses, b.cfg, b.clauses.map (fun c => (c.pos, c.neg, c.w)), b.al, b.fast)) =
      (blockAt e j).map fun b => (b.nLits, b.nClasses, b.cfg, b.clauses.map (fun c => (c.pos, c.neg, c.w)), b.al, b.fast) := by
  have hF : KeptByExamples sparseBackend
      (fun b : SBlock => (b.nLits, b.nClasses, b.cfg, b.clauses.map (fun c => (c.pos, c.neg, c.w)), b.al, b.fast)) := by
    intro b x
    have h1 : (b.clauses.map (sSetClause b.cfg x)).map (fun c => (c.pos, c.neg, c.w)) = b.clauses.map (fun c => (c.pos, c.neg, c.w)) := by
      rw [List.map_map]; apply List.map_congr_left; intro c _; simp only [Function.comp, sSetClause]; split <;> rfl
    have h2 : (b.clauses.map (sEvalClause x)).map (fun c => (c.pos, c.neg, c.w)) = b.clauses.map (fun c => (c.pos, c.neg, c.w)) := by
      rw [List.map_map]; apply List.map_congr_left; intro c _; simp only [Function.comp, sEvalClause]; split <;> rfl
    exact ⟨congrArg (fun z => (b.nLits, b.nClasses, b.cfg, z, b.al, b.fast)) h1, congrArg (fun z => (b.nLits, b.nClasses, b.cfg, z, b.al, b.fast)) h2⟩
  rcases h with ⟨h1, h2⟩ | ⟨h1, h2⟩
  · exact C88_frozen_keeps sparseBackend smp _ hF cs e hw j h1 h2
  · exact C88_late_enabling_ignored sparseBackend smp _ hF cs e hw j h1 h2

/-- The same for a portable convolutional block. The generator that chooses the patches is not among what it keeps: it is used by `train_example`. -/
theorem C88_conv (cs : List (FCall (List Nat))) (smp : List Rat → Rat → Nat) (e : FExec ConvBlock) (hw : FWell e) (j : Nat)
    (h : flagAt e j = some false ∧ (∀ c ∈ cs, Leaves j c) ∨ ¬ Recorded e j ∧ ∀ c ∈ cs, SameExecutor c) :
    (blockAt (FExec.run convBackend smp cs e).1 j).map (fun b => (b.nLits, b.nClasses, b.nPatches, b.cfg, b.clauses.map (fun c => learned c.base), b.fast)) =
      (blockAt e j).map fun b => (b.nLits, b.nClasses, b.nPatches, b.cfg, b.clauses.map (fun c => learned c.base), b.fast) := by
  have hF : KeptByExamples convBackend
      (fun b : ConvBlock => (b.nLits, b.nClasses, b.nPatches, b.cfg, b.clauses.map (fun c => learned c.base), b.fast)) := by
    intro b x
    constructor
    · have : ∀ (cs : List ConvClause) k g, (convSetClauses b.cfg b.nLits b.nPatches x cs k g).1.map (fun c => learned c.base) =
          cs.map fun c => learned c.base := by
        intro cs
        induction cs with
        | nil => intro k g; rfl
        | cons c cs ih => intro k g; simp only [convSetClauses, List.map_cons, ih]; rfl
      show (_, _, _, _, (convSetClauses b.cfg b.nLits b.nPatches x b.clauses b.counts b.rng).1.map _, _) = _
      rw [this]
      rfl
    · show (_, _, _, _, ((b.clauses.map (convEvalClause b.nLits b.nPatches x)).map _), _) = _
      rw [List.map_map]
      rfl
  rcases h with ⟨h1, h2⟩ | ⟨h1, h2⟩
  · exact C88_frozen_keeps convBackend smp _ hF cs e hw j h1 h2
  · exact C88_late_enabling_ignored convBackend smp _ hF cs e hw j h1 h2

/-- The same for an AVX2 convolutional block. -/
theorem C88_avx2_conv (cs : List (FCall Mem)) (smp : List Rat → Rat → Nat) (e : FExec VConvBlock) (hw : FWell e) (j : Nat)
    (h : flagAt e j = some false ∧ (∀ c ∈ cs, Leaves j c) ∨ ¬ Recorded e j ∧ ∀ c ∈ cs, SameExecutor c) :
    (blockAt (FExec.run avxConvBackend smp cs e).1 j).map (fun b => (b.nClasses, b.nPatches, b.cfg, b.clauses.map (fun c => (c.base.row, c.base.w)), b.fast, b.vrng)) =
      (blockAt e j).map fun b => (b.nClasses, b.nPatches, b.cfg, b.clauses.map (fun c => (c.base.row, c.base.w)), b.fast, b.vrng) := by
  have hF : KeptByExamples avxConvBackend
      (fun b : VConvBlock => (b.nClasses, b.nPatches, b.cfg, b.clauses.map (fun c => (c.base.row, c.base.w)), b.fast, b.vrng)) := by
    intro b x
    constructor
    · show (_, _, _, (avxConvSetClauses b.cfg b.nPatches x b.clauses b.counts b.rng).1.map _, _, _) = _
      rw [CE.avxConvSetClauses_base]
      rfl
    · show (_, _, _, ((b.clauses.map (avxConvEvalClause b.cfg b.nPatches x)).map _), _, _) = _
      rw [List.map_map]
      rfl
  rcases h with ⟨h1, h2⟩ | ⟨h1, h2⟩
  · exact C88_frozen_keeps avxConvBackend smp _ hF cs e hw j h1 h2
  · exact C88_late_enabling_ignored avxConvBackend smp _ hF cs e hw j h1 h2

/-- The same for a NEON block with a literal budget (without one `train_example` is undefined, see C42). -/
theorem C88_neon (cs : List (FCall Mem)) (smp : List Rat → Rat → Nat) (e : FExec (Option NBlock)) (hw : FWell e) (j : Nat)
    (h : flagAt e j = some false ∧ (∀ c ∈ cs, Leaves j c) ∨ ¬ Recorded e j ∧ ∀ c ∈ cs, SameExecutor c)
    (b : NBlock) (hb : blockAt e j = some (some b)) (hbud : b.cfg.budget ≠ none) :
    ∃ b', blockAt (FExec.run neonBackend smp cs e).1 j = some (some b') ∧ b'.nClasses = b.nClasses ∧ b'.cfg = b.cfg ∧
      b'.clauses.map (fun c => (c.row, c.w)) = b.clauses.map (fun c => (c.row, c.w)) ∧ b'.fast = b.fast ∧ b'.vrng = b.vrng := by
  let F : Option NBlock → Option (Nat × VCfg × List (Mem × List Int) × Rng × VRng) := fun b => b.bind fun b =>
    if b.cfg.budget = none then none else some (b.nClasses, b.cfg, b.clauses.map (fun c => (c.row, c.w)), b.fast, b.vrng)
  have he : ∀ (cfg : VCfg) (x : Mem) (cs : List VClause) (act : Bool),
      (neonEvalClauses cfg x act cs).map (fun c => (c.row, c.w)) = cs.map (fun c => (c.row, c.w)) := by
    intro cfg x cs
    induction cs with
    | nil => intro act; rfl
    | cons c cs ih =>
      intro act
      simp only [neonEvalClauses, List.map_cons, ih]
      congr 1
      unfold neonEvalClause
      dsimp only
      split <;> (try split) <;> (try split) <;> rfl
  have hF : KeptByExamples neonBackend F := by
    intro b x
    cases b with
    | none => exact ⟨rfl, rfl⟩
    | some b =>
      by_cases hn : b.cfg.budget = none
      · constructor
        · show F ((neonSetClauses b.cfg x b.clauses).map _) = F (some b)
          unfold neonSetClauses
          split
          · simp [F, hn]
          · simp [F, hn]
        · show F (some _) = F (some b)
          simp [F, hn]
      · constructor
        · show F ((neonSetClauses b.cfg x b.clauses).map _) = F (some b)
          unfold neonSetClauses
          rw [if_neg fun h => hn h.2]
          simp only [Option.map_some, F, Option.bind_some, if_neg hn, List.map_map]
          congr 4
          apply List.map_congr_left
          intro c _
          simp only [Function.comp, neonSetClause]
          split <;> (try split) <;> (try split) <;> rfl
        · show F (some { b with clauses := neonEvalClauses b.cfg x false b.clauses, votes := _ }) = F (some b)
          simp only [F, Option.bind_some, if_neg hn, he]
  have hk : (blockAt (FExec.run neonBackend smp cs e).1 j).map F = (blockAt e j).map F := by
    rcases h with ⟨h1, h2⟩ | ⟨h1, h2⟩
    · exact C88_frozen_keeps neonBackend smp F hF cs e hw j h1 h2
    · exact C88_late_enabling_ignored neonBackend smp F hF cs e hw j h1 h2
  rw [hb] at hk
  simp only [Option.map_some, F, Option.bind_some, if_neg hbud] at hk
  obtain ⟨ob, q1, q2⟩ := Option.map_eq_some_iff.mp hk
  obtain ⟨b', rfl, q3⟩ := Option.bind_eq_some_iff.mp q2
  split at q3
  · cases q3
  · simp only [Option.some.injEq, Prod.mk.injEq] at q3
    exact ⟨b', q1, q3.1, q3.2.1, q3.2.2.1, q3.2.2.2.1, q3.2.2.2.2⟩

/-! ### Two blocks, the first one frozen -/

/-- The blocks of `exExec`, the first one made untrainable before the executor is made. -/
def exFrozen : FExec DBlock := FExec.new exExec.fb (exExec.blocks.mapIdx fun i b => ⟨b, i ≠ 0⟩)

/-- A program that enables it and trains. -/
def exThaw : List (FCall (List Nat)) := [.setTrainable 0 true, .epoch id [([1, 0], 0)]]

/-- **C88 is false of blocks enabled late**: the first block, trainable now, is not changed by an epoch that changes it when another executor is
made first. The second block learns in both cases. -/
theorem C88_enabled_block_does_not_learn :
    flagAt (FExec.run denseBackend (fun _ _ => 1) exThaw exFrozen).1 0 = some true ∧
    ((FExec.run denseBackend (fun _ _ => 1) exThaw exFrozen).1.blocks.map fun b => b.block.clauses.map learned) =
      [[([5, -3], [-2, 0], [4, -1])], [([-5, -2], [-1, -7], [4, 8]), ([0, 0], [0, -1], [-2, 2])]] ∧
    ((FExec.run denseBackend (fun _ _ => 1) (.setTrainable 0 true :: .rebuild exExec.fb :: exThaw) exFrozen).1.blocks.map fun b =>
      b.block.clauses.map learned) = [[([4, -4], [-2, 0], [4, -1])], [([-5, -2], [-1, -7], [4, 8]), ([0, 0], [0, -1], [-2, 2])]] := by
  decide +kernel

example : FWell exFrozen ∧ flagAt exFrozen 0 = some false ∧ ¬ Recorded exFrozen 0 ∧ Learning exFrozen 1 ∧
    (∀ c ∈ exThaw, SameExecutor c) ∧ Ready 2 (DenseBlockOK 2) (plain exFrozen) := by
  refine ⟨Flag.new_well _ _, by decide +kernel, by unfold Recorded; decide +kernel, ⟨by unfold Recorded; decide +kernel, by decide +kernel⟩, ?_, ?_⟩
  · intro c hc fb h
    subst h
    simp [exThaw] at hc
  · have h : plain exFrozen = exExec := by
      show Exec.mk _ _ _ = _
      rfl
    rw [h]
    exact setUp_ready exExec_setUp.1

end GT

import Verif.Props.Pace

/-!
# C106: predictions that some more training cannot change

A machine whose clauses are all settled, and whose vote for an example is clear, keeps its prediction through any training that is short enough.
-/

namespace GT
open Spec

/-- Clauses that fire on the same examples and whose weights are at most `n` apart: their sums are at most `n` per clause apart. -/
theorem Pace.sums_close (n k : Nat) (x : List Nat) {cls cls' : List (List Int × List Int × List Int)}
    (h : List.Forall₂ (fun c c' => (Fires x c' ↔ Fires x c) ∧ (c'.2.2.getD k 0 - c.2.2.getD k 0).natAbs ≤ n) cls cls') :
    (firingSum cls' x k - firingSum cls x k).natAbs ≤ cls.length * n := by
  induction h with
  | nil => simp [firingSum]
  | cons h _ ih =>
    rename_i c c' l l' _
    obtain ⟨h1, h2⟩ := h
    unfold firingSum at ih ⊢
    simp only [List.filter_cons, List.length_cons, Nat.add_mul, Nat.one_mul]
    by_cases hf : Fires x c
    · simp only [h1.2 hf, hf, decide_true, if_true, List.map_cons, List.sum_cons]; omega
    · simp only [mt h1.1 hf, hf, decide_false, Bool.false_eq_true, if_false]; omega

theorem Pace.rows_at {n bound : Nat} {w w' : List Int} (h : List.Forall₂ (fun w w' => w.natAbs + n ≤ 32767 → (w' - w).natAbs ≤ n) w w')
    (hw : ∀ v ∈ w, v.natAbs ≤ bound) (hb : bound + n ≤ 32767) (k : Nat) : (w'.getD k 0 - w.getD k 0).natAbs ≤ n := by
  induction h generalizing k with
  | nil => simp
  | cons h _ ih =>
    rename_i v v' _ _ _
    cases k with
    | zero => have := hw v (by simp); simp only [List.getD_cons_zero]; exact h (by omega)
    | succ k => simp only [List.getD_cons_succ]; exact ih (fun v hv => hw v (by simp [hv])) k

theorem Pace.fires_iff {x : List Nat} {c c' : List Int × List Int × List Int} (h1 : ∀ i, Included c'.1 i ↔ Included c.1 i)
    (h2 : ∀ i, Included c'.2.1 i ↔ Included c.2.1 i) : Fires x c' ↔ Fires x c := by
  unfold Fires EmptyClause Satisfied
  simp only [h1, h2]

/-- A state so far from the border between included and excluded that `n` examples cannot take it across. -/
def Pace.Far (n : Nat) (v : Int) : Prop := -128 ≤ v ∧ v ≤ 127 ∧ (2 * (n : Int) ≤ v ∨ v < -2 * (n : Int))

theorem Pace.clauses_close {n bound k : Nat} {x : List Nat} (hb : bound + n ≤ 32767) {cs cs' : List Clause}
    (h : List.Forall₂ (fun c c' : Clause => StatesMovedAtMost (2 * n) c.pos c'.pos ∧ StatesMovedAtMost (2 * n) c.neg c'.neg) cs cs')
    (hm : MovedAtMost n (cs.map fun c => c.w) (cs'.map fun c => c.w))
    (hf : ∀ c ∈ cs, (∀ v, v ∈ c.pos ∨ v ∈ c.neg → Far n v) ∧ ∀ w ∈ c.w, w.natAbs ≤ bound) :
    List.Forall₂ (fun c c' => (Fires x c' ↔ Fires x c) ∧ (c'.2.2.getD k 0 - c.2.2.getD k 0).natAbs ≤ n) (cs.map learned) (cs'.map learned) := by
  induction h with
  | nil => exact .nil
  | cons h _ ih =>
    rename_i c c' l l' _
    obtain ⟨h1, h2⟩ := h
    simp only [List.map_cons] at hm ⊢
    cases hm with
    | cons hm0 hms =>
      obtain ⟨f1, f2⟩ := hf c (by simp)
      refine .cons ⟨Pace.fires_iff (Pace.included_kept h1 fun v hv => ?_) (Pace.included_kept h2 fun v hv => ?_), Pace.rows_at hm0 f2 hb k⟩
        (ih hms fun c hc => hf c (by simp [hc]))
      · obtain ⟨p, q, r⟩ := f1 v (.inl hv)
        exact ⟨p, q, by push_cast; omega⟩
      · obtain ⟨p, q, r⟩ := f1 v (.inr hv)
        exact ⟨p, q, by push_cast; omega⟩

/-- C106: a machine with weights between `-bound` and `bound` is used at will, training on `examplesShown us` examples. All its states are at least
two steps per example away from the border between included and excluded, and on `x` class `k` is ahead of every other class by more than two votes
per clause and example. Then afterwards it predicts `k` for `x`. (`hs`, `hb`: the training is short enough for no sum to leave 16 bits.) -/
theorem C106_same_prediction (m n bound : Nat) (e : Exec DBlock) (h : SetUp m n e) (hw : WeightsWithin bound (e.blocks.flatMap weightsOf))
    (smp : List Rat → Rat → Nat) (us : List (TMUse (List Nat)))
    (hs : (e.blocks.flatMap (·.clauses)).length * (bound + examplesShown us) ≤ 32767) (hb : bound + examplesShown us ≤ 32767)
    (hv : ∀ b ∈ e.blocks, ∀ c ∈ b.clauses, ∀ v, v ∈ c.pos ∨ v ∈ c.neg →
      -128 ≤ v ∧ v ≤ 127 ∧ (2 * (examplesShown us : Int) ≤ v ∨ v < -2 * (examplesShown us : Int)))
    (x : List Nat) (hx : Binary x ∧ x.length = m) (k : Nat) (hk : k < n)
    (hahead : ∀ j, j < n → j ≠ k →
      firingSum (model e) x j + 2 * ((e.blocks.flatMap (·.clauses)).length * examplesShown us : Nat) < firingSum (model e) x k) :
    (Exec.evalPredict denseBackend [x] 1 (afterUses denseBackend smp us e)).2 = some [k] := by
  obtain ⟨-, ks, h1, h2, h3⟩ := C106_votes_partial m n bound e h hw smp us hs hb [x] (by simpa using hx)
  simp only [List.length_cons, List.length_nil, Nat.zero_add] at h1 h2
  obtain ⟨j, rfl⟩ := List.length_eq_one_iff.1 h2
  obtain ⟨v, hv1, hv2⟩ := h3 0 x j rfl rfl
  have hclose : ∀ k, (firingSum (model (afterUses denseBackend smp us e)) x k - firingSum (model e) x k).natAbs ≤
      (e.blocks.flatMap (·.clauses)).length * examplesShown us := by
    intro k
    have := Pace.sums_close (examplesShown us) k x (cls := model e) (cls' := model (afterUses denseBackend smp us e)) ?_
    · simpa [model] using this
    · unfold model
      rw [List.map_flatMap, List.map_flatMap]
      have hlit := C106_literals e smp us
      have hwt := C106_portable e smp us
      revert hlit hwt
      generalize (afterUses denseBackend smp us e).blocks = bs'
      intro hlit hwt
      clear hahead h1 h3 hs h
      generalize e.blocks = bs at *
      induction hlit with
      | nil => exact .nil
      | cons hl _ ih =>
        rename_i b b' l l' _
        cases hwt with
        | cons hw0 hws =>
          simp only [List.flatMap_cons] at hw ⊢
          refine List.rel_append (Pace.clauses_close hb hl hw0 fun c hc => ⟨fun v hvm => hv b (by simp) c hc v hvm, fun w hwm => ?_⟩)
            (ih (fun r hr => hw r (by simp [hr])) (fun b hb => hv b (by simp [hb])) hws)
          exact hw c.w (List.mem_append_left _ (List.mem_map.2 ⟨c, hc, rfl⟩)) w hwm
  have hjn : j < n := by
    have := (List.getElem?_eq_some_iff.1 hv1).1
    simpa [trueVotes] using this
  have hj : v = firingSum (model (afterUses denseBackend smp us e)) x j := by
    simpa [trueVotes, hjn] using hv1.symm
  by_cases hjk : j = k
  · subst hjk; exact h1
  · exfalso
    have h4 := (hv2 k (firingSum (model (afterUses denseBackend smp us e)) x k) (by simp [trueVotes, hk])).1
    have h5 := hahead j hjn hjk
    have h6 := hclose j
    have h7 := hclose k
    omega

/-- The clauses in a row of memory move as its bytes do. -/
theorem Pace.unpad_moved (m n : Nat) {c c' : VClause} (h : BytesMovedAtMost n c.row c'.row) :
    StatesMovedAtMost n (unpad m c).pos (unpad m c').pos ∧ StatesMovedAtMost n (unpad m c).neg (unpad m c').neg := by
  have one : ∀ f : Nat → Nat, StatesMovedAtMost n ((List.range m).map fun i => (c.row (f i)).toInt) ((List.range m).map fun i => (c'.row (f i)).toInt) := by
    intro f
    unfold StatesMovedAtMost
    rw [List.forall₂_map_left_iff, List.forall₂_map_right_iff, List.forall₂_same]
    intro i _ _ _
    exact ⟨h (f i), BitVec.le_toInt (c'.row (f i)), by have := BitVec.toInt_lt (x := c'.row (f i)); norm_num at this; omega⟩
  exact ⟨one id, one fun i => avxMem m + i⟩

/-- C106: the same for AVX2 machines; only the bytes of the literals have to be far from the border, the padding can hold anything. -/
theorem C106_avx2_same_prediction (m n bound : Nat) (e : Exec VBlock) (h : AvxSetUp m n e) (hw : WeightsWithin bound (e.blocks.flatMap avxWeightsOf))
    (smp : List Rat → Rat → Nat) (us : List (TMUse Mem))
    (hs : (e.blocks.flatMap (·.clauses)).length * (bound + examplesShown us) ≤ 32767) (hb : bound + examplesShown us ≤ 32767)
    (hv : ∀ b ∈ e.blocks, ∀ c ∈ b.clauses, ∀ v, v ∈ (unpad m c).pos ∨ v ∈ (unpad m c).neg →
      2 * (examplesShown us : Int) ≤ v ∨ v < -2 * (examplesShown us : Int))
    (x : Mem) (hx : Binary (unpadExample m x)) (k : Nat) (hk : k < n)
    (hahead : ∀ j, j < n → j ≠ k →
      firingSum (avxModel e) (unpadExample m x) j + 2 * ((e.blocks.flatMap (·.clauses)).length * examplesShown us : Nat) <
        firingSum (avxModel e) (unpadExample m x) k) :
    (Exec.evalPredict avxBackend [x] 1 (afterUses avxBackend smp us e)).2 = some [k] := by
  obtain ⟨-, ks, h1, h2, h3⟩ := C106_avx2_votes_partial m n bound e h hw smp us hs hb [x] (by simpa using hx)
  simp only [List.length_cons, List.length_nil, Nat.zero_add] at h1 h2
  obtain ⟨j, rfl⟩ := List.length_eq_one_iff.1 h2
  obtain ⟨v, hv1, hv2⟩ := h3 0 x j rfl rfl
  have hset : AvxSetUp m n (afterUses avxBackend smp us e) :=
    (avxSetUp_iff_ready m n h.lits _).2 (Pace.after_ready (avx_keeps_shape m n h.lits) smp us e ((avxSetUp_iff_ready m n h.lits e).1 h))
  have hclose : ∀ k, (firingSum (avxModel (afterUses avxBackend smp us e)) (unpadExample m x) k - firingSum (avxModel e) (unpadExample m x) k).natAbs ≤
      (e.blocks.flatMap (·.clauses)).length * examplesShown us := by
    intro k
    have := Pace.sums_close (examplesShown us) k (unpadExample m x) (cls := avxModel e) (cls' := avxModel (afterUses avxBackend smp us e)) ?_
    · simpa [avxModel, List.length_flatMap] using this
    · unfold avxModel
      have hlit := C106_avx2_literals e smp us
      have hwt := C106_avx2 e smp us
      have hl1 : ∀ b ∈ e.blocks, b.cfg.nLits = m := fun b hb => (h.blocks b hb).2.1
      have hl2 : ∀ b ∈ (afterUses avxBackend smp us e).blocks, b.cfg.nLits = m := fun b hb => (hset.blocks b hb).2.1
      revert hlit hwt hl2
      generalize (afterUses avxBackend smp us e).blocks = bs'
      intro hlit hwt hl2
      clear hahead h1 h3 hs h hset
      generalize e.blocks = bs at *
      induction hlit with
      | nil => exact .nil
      | cons hl _ ih =>
        rename_i b b' l l' _
        cases hwt with
        | cons hw0 hws =>
          simp only [List.flatMap_cons] at hw ⊢
          refine List.rel_append ?_
            (ih (fun b hb => hl2 b (by simp [hb])) (fun r hr => hw r (by simp [hr])) (fun b hb => hv b (by simp [hb]))
              (fun b hb => hl1 b (by simp [hb])) hws)
          rw [hl1 b (by simp), hl2 b' (by simp)]
          have := Pace.clauses_close (x := unpadExample m x) (k := k) hb (cs := b.clauses.map (unpad m)) (cs' := b'.clauses.map (unpad m))
            (by rw [List.forall₂_map_left_iff, List.forall₂_map_right_iff]; exact hl.imp fun c c' h => Pace.unpad_moved m _ h)
            (by simp only [List.map_map]; exact hw0) ?_
          · simpa only [List.map_map, Function.comp_def] using this
          · intro d hd
            obtain ⟨c, hc, rfl⟩ := List.mem_map.1 hd
            refine ⟨fun v hvm => ?_, fun w hwm => hw c.w (List.mem_append_left _ (List.mem_map.2 ⟨c, hc, rfl⟩)) w hwm⟩
            have hr : -128 ≤ v ∧ v ≤ 127 := by
              have byte : ∀ y : BitVec 8, -128 ≤ y.toInt ∧ y.toInt ≤ 127 := by
                intro y
                have h1 := BitVec.le_toInt y
                have h2 := BitVec.toInt_lt (x := y)
                norm_num at h1 h2
                omega
              rcases hvm with hvm | hvm
              all_goals
                obtain ⟨i, -, rfl⟩ := List.mem_map.1 hvm
                exact byte _
            exact ⟨hr.1, hr.2, hv b (by simp) c hc v hvm⟩
  have hjn : j < n := by
    have := (List.getElem?_eq_some_iff.1 hv1).1
    simpa [trueVotes] using this
  have hj : v = firingSum (avxModel (afterUses avxBackend smp us e)) (unpadExample m x) j := by
    simpa [trueVotes, hjn] using hv1.symm
  by_cases hjk : j = k
  · subst hjk; exact h1
  · exfalso
    have h4 := (hv2 k (firingSum (avxModel (afterUses avxBackend smp us e)) (unpadExample m x) k) (by simp [trueVotes, hk])).1
    have h5 := hahead j hjn hjk
    have h6 := hclose j
    have h7 := hclose k
    omega

/-! ### The hypotheses are met -/

/-- A machine of two settled clauses, which say "the first feature is on" and "the first feature is off". -/
def exFarApart : Exec DBlock :=
  ⟨exFB, [⟨2, 2, exCfg, [⟨[100, -90], [-60, -41], [300, -300], 0, 0⟩, ⟨[-70, -80], [100, -50], [-200, 300], 1, 0⟩], [0, 0], exRng, exRng⟩], []⟩

/-- On `[1, 0]` it votes 300 for class 0 and -300 for class 1; twenty examples can move this by at most 40 each. -/
example : SetUp 2 2 exFarApart ∧ WeightsWithin 300 (exFarApart.blocks.flatMap weightsOf) ∧
    (exFarApart.blocks.flatMap (·.clauses)).length * (300 + 20) ≤ 32767 ∧
    examplesShown [TMUse.epoch List.reverse (List.replicate 12 (([0, 1] : List Nat), 0)), .predict [[1, 1]],
      .epoch id (List.replicate 8 ([1, 0], 1))] = 20 ∧
    (∀ b ∈ exFarApart.blocks, ∀ c ∈ b.clauses, ∀ v, v ∈ c.pos ∨ v ∈ c.neg → -128 ≤ v ∧ v ≤ 127 ∧ (2 * ((20 : Nat) : Int) ≤ v ∨ v < -2 * ((20 : Nat) : Int))) ∧
    ∀ j, j < 2 → j ≠ 0 → firingSum (model exFarApart) [1, 0] j + 2 * ((exFarApart.blocks.flatMap (·.clauses)).length * 20 : Nat) <
      firingSum (model exFarApart) [1, 0] 0 := by
  have f1 : Fires [1, 0] ([100, -90], [-60, -41], [300, -300]) := by
    refine ⟨fun h => h.1 0 ⟨100, rfl, by decide⟩, ?_, ?_⟩
    · rintro (_ | _ | i) ⟨v, hv, h0⟩
      · rfl
      · simp at hv; omega
      · simp at hv
    · rintro (_ | _ | i) ⟨v, hv, h0⟩
      · simp at hv; omega
      · rfl
      · simp at hv
  have f2 : ¬ Fires [1, 0] ([-70, -80], [100, -50], [-200, 300]) := by
    intro h
    have := h.2.2 0 ⟨100, rfl, by decide⟩
    simp at this
  refine ⟨⟨by decide, rfl, rfl, by simp [exFarApart, Shaped]⟩, by unfold WeightsWithin; decide, by decide, rfl, ?_, ?_⟩
  · simp [exFarApart]
    constructor <;> omega
  · intro j hj hj0
    obtain rfl : j = 1 := by omega
    simp [firingSum, model, exFarApart, learned, f1, f2]

/-- The first clause in an AVX2 block, the padding lanes near the border. -/
def exAvxFarApart : Exec VBlock :=
  ⟨exFB, [⟨2, { nLits := 2, budget := some 3, boost := true, cmpS := 0 }, [⟨fun a => if a = 0 then 100#8 else if a = 1 ∨ a = 32 ∨ a = 33 then 0x9C#8 else 1#8, [300, -300], 0, 0⟩],
    [0, 0], exRng, ⟨fun _ _ => 0, 0⟩⟩], []⟩

example : AvxSetUp 2 2 exAvxFarApart ∧ WeightsWithin 300 (exAvxFarApart.blocks.flatMap avxWeightsOf) ∧
    (∀ b ∈ exAvxFarApart.blocks, ∀ c ∈ b.clauses, ∀ v, v ∈ (unpad 2 c).pos ∨ v ∈ (unpad 2 c).neg →
      2 * ((20 : Nat) : Int) ≤ v ∨ v < -2 * ((20 : Nat) : Int)) ∧
    unpadExample 2 (fun a => if a = 0 then 1#8 else 0#8) = [1, 0] ∧
    ∀ j, j < 2 → j ≠ 0 → firingSum (avxModel exAvxFarApart) [1, 0] j + 2 * ((exAvxFarApart.blocks.flatMap (·.clauses)).length * 20 : Nat) <
      firingSum (avxModel exAvxFarApart) [1, 0] 0 := by
  have hm : avxModel exAvxFarApart = [([100, -100], [-100, -100], [300, -300])] := by decide +kernel
  have f1 : Fires [1, 0] ([100, -100], [-100, -100], [300, -300]) := by
    refine ⟨fun h => h.1 0 ⟨100, rfl, by decide⟩, ?_, ?_⟩
    · rintro (_ | _ | i) ⟨v, hv, h0⟩
      · rfl
      · simp at hv; omega
      · simp at hv
    · rintro (_ | _ | i) ⟨v, hv, h0⟩
      · simp at hv; omega
      · rfl
      · simp at hv
  refine ⟨⟨by decide, by decide, rfl, rfl, by simp [exAvxFarApart]⟩, ?_, ?_, by decide, ?_⟩
  · unfold WeightsWithin
    simp only [exAvxFarApart, avxWeightsOf, List.flatMap_cons, List.flatMap_nil, List.map_cons, List.map_nil, List.append_nil]
    decide
  · intro b hb c hc
    simp only [exAvxFarApart, List.mem_singleton] at hb
    subst hb
    simp only [List.mem_singleton] at hc
    subst hc
    intro v hv
    have : v = 100 ∨ v = -100 := by
      rcases hv with hv | hv
      · revert v; decide
      · revert v; decide
    omega
  · intro j hj hj0
    obtain rfl : j = 1 := by omega
    rw [hm]
    simp [firingSum, f1, exAvxFarApart]

end GT

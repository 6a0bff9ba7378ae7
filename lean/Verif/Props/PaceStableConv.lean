import Verif.Props.PaceStable
import Verif.Props.PaceVotes

/-!
# C106: predictions of convolutional machines that some more training cannot change
-/

namespace GT
open Spec

/-- Clauses that hold somewhere in the same examples and whose weights are at most `n` apart: their sums are at most `n` per clause apart. -/
theorem Pace.conv_sums_close (m np n k : Nat) (x : List Nat) {cls cls' : List (List Int × List Int × List Int)}
    (h : List.Forall₂ (fun c c' => (∀ y, Fires y c' ↔ Fires y c) ∧ (c'.2.2.getD k 0 - c.2.2.getD k 0).natAbs ≤ n) cls cls') :
    (convFiringSum m np cls' x k - convFiringSum m np cls x k).natAbs ≤ cls.length * n := by
  have somewhere : ∀ c, FiresSomewhere m np x c ↔ ∃ i, i < np ∧ Fires (patchLits m x i) c := by
    intro c
    exact ⟨fun ⟨a, i, b, d⟩ => ⟨i, b, a, d⟩, fun ⟨i, b, a, d⟩ => ⟨a, i, b, d⟩⟩
  induction h with
  | nil => simp [convFiringSum]
  | cons h _ ih =>
    rename_i c c' l l' _
    obtain ⟨h1, h2⟩ := h
    have h1 : FiresSomewhere m np x c' ↔ FiresSomewhere m np x c := by simp only [somewhere, h1]
    unfold convFiringSum at ih ⊢
    simp only [List.filter_cons, List.length_cons, Nat.add_mul, Nat.one_mul]
    by_cases hf : FiresSomewhere m np x c
    · simp only [h1.2 hf, hf, decide_true, if_true, List.map_cons, List.sum_cons]; omega
    · simp only [mt h1.1 hf, hf, decide_false, Bool.false_eq_true, if_false]; omega

theorem Pace.clauses_close_all {n bound k : Nat} (hb : bound + n ≤ 32767) {cs cs' : List Clause}
    (h : List.Forall₂ (fun c c' : Clause => StatesMovedAtMost (2 * n) c.pos c'.pos ∧ StatesMovedAtMost (2 * n) c.neg c'.neg) cs cs')
    (hm : MovedAtMost n (cs.map fun c => c.w) (cs'.map fun c => c.w))
    (hf : ∀ c ∈ cs, (∀ v, v ∈ c.pos ∨ v ∈ c.neg → Far n v) ∧ ∀ w ∈ c.w, w.natAbs ≤ bound) :
    List.Forall₂ (fun c c' => (∀ y, Fires y c' ↔ Fires y c) ∧ (c'.2.2.getD k 0 - c.2.2.getD k 0).natAbs ≤ n) (cs.map learned) (cs'.map learned) := by
  rw [List.forall₂_iff_get]
  have one := fun y => List.forall₂_iff_get.1 (Pace.clauses_close (x := y) (k := k) hb h hm hf)
  refine ⟨(one []).1, fun i h1 h2 => ⟨fun y => ((one y).2 i h1 h2).1, ((one []).2 i h1 h2).2⟩⟩

/-- C106: `C106_same_prediction` for portable convolutional machines. How many patches the examples have plays no part. -/
theorem C106_conv_same_prediction (m np n bound : Nat) (e : Exec ConvBlock) (h : Ready n (ConvBlockOK m np n) e)
    (hw : WeightsWithin bound (e.blocks.flatMap convWeightsOf)) (smp : List Rat → Rat → Nat) (us : List (TMUse (List Nat)))
    (hs : (e.blocks.flatMap (·.clauses)).length * (bound + examplesShown us) ≤ 32767) (hb : bound + examplesShown us ≤ 32767)
    (hv : ∀ b ∈ e.blocks, ∀ c ∈ b.clauses, ∀ v, v ∈ c.base.pos ∨ v ∈ c.base.neg →
      -128 ≤ v ∧ v ≤ 127 ∧ (2 * (examplesShown us : Int) ≤ v ∨ v < -2 * (examplesShown us : Int)))
    (x : List Nat) (hx : Binary x ∧ x.length = np * m) (k : Nat) (hk : k < n)
    (hahead : ∀ j, j < n → j ≠ k →
      convFiringSum m np (convModel e) x j + 2 * ((e.blocks.flatMap (·.clauses)).length * examplesShown us : Nat) <
        convFiringSum m np (convModel e) x k) :
    (Exec.evalPredict convBackend [x] 1 (afterUses convBackend smp us e)).2 = some [k] := by
  obtain ⟨ks, h1, h2, h3⟩ := C106_conv_votes_partial m np n bound e h hw smp us hs hb [x] (by simpa using hx)
  simp only [List.length_cons, List.length_nil, Nat.zero_add] at h1 h2
  obtain ⟨j, rfl⟩ := List.length_eq_one_iff.1 h2
  obtain ⟨v, hv1, hv2⟩ := h3 0 x j rfl rfl
  have hclose : ∀ k, (convFiringSum m np (convModel (afterUses convBackend smp us e)) x k - convFiringSum m np (convModel e) x k).natAbs ≤
      (e.blocks.flatMap (·.clauses)).length * examplesShown us := by
    intro k
    have := Pace.conv_sums_close m np (examplesShown us) k x (cls := convModel e) (cls' := convModel (afterUses convBackend smp us e)) ?_
    · simpa [convModel, List.length_flatMap] using this
    · unfold convModel
      have hlit := C106_conv_literals e smp us
      have hwt := C106_conv e smp us
      revert hlit hwt
      generalize (afterUses convBackend smp us e).blocks = bs'
      intro hlit hwt
      clear hahead h1 h3 hs h
      generalize e.blocks = bs at *
      induction hlit with
      | nil => exact .nil
      | cons hl _ ih =>
        rename_i b b' l l' _
        cases hwt with
        | cons hw0 hws =>
          simp only [List.flatMap_cons] at hw ⊢
          refine List.rel_append ?_ (ih (fun r hr => hw r (by simp [hr])) (fun b hb => hv b (by simp [hb])) hws)
          have := Pace.clauses_close_all (k := k) hb (cs := b.clauses.map (·.base)) (cs' := b'.clauses.map (·.base))
            (by rw [List.forall₂_map_left_iff, List.forall₂_map_right_iff]; exact hl)
            (by simp only [List.map_map]; exact hw0) ?_
          · simpa only [List.map_map, Function.comp_def] using this
          · intro d hd
            obtain ⟨c, hc, rfl⟩ := List.mem_map.1 hd
            exact ⟨fun v hvm => hv b (by simp) c hc v hvm, fun w hwm => hw c.base.w (List.mem_append_left _ (List.mem_map.2 ⟨c, hc, rfl⟩)) w hwm⟩
  have hjn : j < n := by
    have := (List.getElem?_eq_some_iff.1 hv1).1
    simpa [trueConvVotes] using this
  have hj : v = convFiringSum m np (convModel (afterUses convBackend smp us e)) x j := by
    simpa [trueConvVotes, hjn] using hv1.symm
  by_cases hjk : j = k
  · subst hjk; exact h1
  · exfalso
    have h4 := (hv2 k (convFiringSum m np (convModel (afterUses convBackend smp us e)) x k) (by simp [trueConvVotes, hk])).1
    have h5 := hahead j hjn hjk
    have h6 := hclose j
    have h7 := hclose k
    omega

/-- C106: the same for AVX2 convolutional machines; the padding can hold anything. -/
theorem C106_avx2_conv_same_prediction (m np n bound : Nat) (e : Exec VConvBlock) (h : Ready n (AvxConvBlockOK m np n) e)
    (hw : WeightsWithin bound (e.blocks.flatMap avxConvWeightsOf)) (smp : List Rat → Rat → Nat) (us : List (TMUse Mem))
    (hs : (e.blocks.flatMap (·.clauses)).length * (bound + examplesShown us) ≤ 32767) (hb : bound + examplesShown us ≤ 32767)
    (hv : ∀ b ∈ e.blocks, ∀ c ∈ b.clauses, ∀ v, v ∈ (unpad m c.base).pos ∨ v ∈ (unpad m c.base).neg →
      2 * (examplesShown us : Int) ≤ v ∨ v < -2 * (examplesShown us : Int))
    (x : Mem) (hx : Binary (unpadExample (np * m) x)) (k : Nat) (hk : k < n)
    (hahead : ∀ j, j < n → j ≠ k →
      convFiringSum m np (avxConvModel e) (unpadExample (np * m) x) j + 2 * ((e.blocks.flatMap (·.clauses)).length * examplesShown us : Nat) <
        convFiringSum m np (avxConvModel e) (unpadExample (np * m) x) k) :
    (Exec.evalPredict avxConvBackend [x] 1 (afterUses avxConvBackend smp us e)).2 = some [k] := by
  obtain ⟨ks, h1, h2, h3⟩ := C106_avx2_conv_votes_partial m np n bound e h hw smp us hs hb [x] (by simpa using hx)
  simp only [List.length_cons, List.length_nil, Nat.zero_add] at h1 h2
  obtain ⟨j, rfl⟩ := List.length_eq_one_iff.1 h2
  obtain ⟨v, hv1, hv2⟩ := h3 0 x j rfl rfl
  have hset := Pace.after_ready (CE.avxConv_keeps m np n) smp us e h
  have hclose : ∀ k, (convFiringSum m np (avxConvModel (afterUses avxConvBackend smp us e)) (unpadExample (np * m) x) k -
      convFiringSum m np (avxConvModel e) (unpadExample (np * m) x) k).natAbs ≤ (e.blocks.flatMap (·.clauses)).length * examplesShown us := by
    intro k
    have := Pace.conv_sums_close m np (examplesShown us) k (unpadExample (np * m) x) (cls := avxConvModel e)
      (cls' := avxConvModel (afterUses avxConvBackend smp us e)) ?_
    · simpa [avxConvModel, List.length_flatMap] using this
    · unfold avxConvModel
      have hlit := C106_avx2_conv_literals e smp us
      have hwt := C106_avx2_conv e smp us
      have hl1 : ∀ b ∈ e.blocks, b.cfg.nLits = m := fun b hb => (h.blocks b hb).2.1
      have hl2 : ∀ b ∈ (afterUses avxConvBackend smp us e).blocks, b.cfg.nLits = m := fun b hb => (hset.blocks b hb).2.1
      revert hlit hwt hl2
      generalize (afterUses avxConvBackend smp us e).blocks = bs'
      intro hlit hwt hl2
      clear hahead h1 h3 hs h hset
      generalize e.blocks = bs at *
      induction hlit with
      | nil => exact .nil
      | cons hl _ ih =>
        rename_i b b' l l' _
        cases hwt with
        | cons hw0 hws =>
          simp only [List.flatMap_cons] at hw ⊢
          refine List.rel_append ?_
            (ih (fun b hb => hl2 b (by simp [hb])) (fun r hr => hw r (by simp [hr])) (fun b hb => hv b (by simp [hb]))
              (fun b hb => hl1 b (by simp [hb])) hws)
          rw [hl1 b (by simp), hl2 b' (by simp)]
          have := Pace.clauses_close_all (k := k) hb (cs := b.clauses.map fun c => unpad m c.base) (cs' := b'.clauses.map fun c => unpad m c.base)
            (by rw [List.forall₂_map_left_iff, List.forall₂_map_right_iff]; exact hl.imp fun c c' h => Pace.unpad_moved m _ h)
            (by simp only [List.map_map]; exact hw0) ?_
          · simpa only [List.map_map, Function.comp_def] using this
          · intro d hd
            obtain ⟨c, hc, rfl⟩ := List.mem_map.1 hd
            refine ⟨fun v hvm => ?_, fun w hwm => hw c.base.w (List.mem_append_left _ (List.mem_map.2 ⟨c, hc, rfl⟩)) w hwm⟩
            have hr : -128 ≤ v ∧ v ≤ 127 := by
              have byte : ∀ y : BitVec 8, -128 ≤ y.toInt ∧ y.toInt ≤ 127 := by
                intro y
                have h1 := BitVec.le_toInt y
                have h2 := BitVec.toInt_lt (x := y)
                norm_num at h1 h2
                omega
              rcases hvm with hvm | hvm
              all_goals
                obtain ⟨i, -, rfl⟩ := List.mem_map.1 hvm
                exact byte _
            exact ⟨hr.1, hr.2, hv b (by simp) c hc v hvm⟩
  have hjn : j < n := by
    have := (List.getElem?_eq_some_iff.1 hv1).1
    simpa [trueConvVotes] using this
  have hj : v = convFiringSum m np (avxConvModel (afterUses avxConvBackend smp us e)) (unpadExample (np * m) x) j := by
    simpa [trueConvVotes, hjn] using hv1.symm
  by_cases hjk : j = k
  · subst hjk; exact h1
  · exfalso
    have h4 := (hv2 k (convFiringSum m np (avxConvModel (afterUses avxConvBackend smp us e)) (unpadExample (np * m) x) k)
      (by simp [trueConvVotes, hk])).1
    have h5 := hahead j hjn hjk
    have h6 := hclose j
    have h7 := hclose k
    omega

/-! ### The hypotheses are met -/

/-- One clause, "the first feature of some patch is on", with settled states. -/
def exConvFarApart : Exec ConvBlock :=
  ⟨exFB, [⟨2, 2, 2, exConvCfg, [⟨⟨[100, -90], [-60, -41], [300, -300], 0, 0⟩, 1⟩], fun _ => 9, [0, 0], exRng, exRng⟩], []⟩

/-- It holds in the second patch of `[0, 1, 1, 0]`; twenty examples can move its weights by at most 20 each. -/
example : Ready 2 (ConvBlockOK 2 2 2) exConvFarApart ∧ WeightsWithin 300 (exConvFarApart.blocks.flatMap convWeightsOf) ∧
    (∀ b ∈ exConvFarApart.blocks, ∀ c ∈ b.clauses, ∀ v, v ∈ c.base.pos ∨ v ∈ c.base.neg →
      -128 ≤ v ∧ v ≤ 127 ∧ (2 * ((20 : Nat) : Int) ≤ v ∨ v < -2 * ((20 : Nat) : Int))) ∧
    ∀ j, j < 2 → j ≠ 0 → convFiringSum 2 2 (convModel exConvFarApart) [0, 1, 1, 0] j +
      2 * ((exConvFarApart.blocks.flatMap (·.clauses)).length * 20 : Nat) < convFiringSum 2 2 (convModel exConvFarApart) [0, 1, 1, 0] 0 := by
  have f1 : FiresSomewhere 2 2 [0, 1, 1, 0] ([100, -90], [-60, -41], [300, -300]) := by
    have hp : patchLits 2 [0, 1, 1, 0] 1 = [1, 0] := by decide
    refine ⟨fun h => h.1 0 ⟨100, rfl, by decide⟩, 1, by decide, ?_⟩
    rw [hp]
    constructor
    · rintro (_ | _ | i) ⟨v, hv, h0⟩
      · rfl
      · simp at hv; omega
      · simp at hv
    · rintro (_ | _ | i) ⟨v, hv, h0⟩
      · simp at hv; omega
      · rfl
      · simp at hv
  refine ⟨⟨by decide, rfl, rfl, by simp [exConvFarApart, ConvBlockOK, Shaped]⟩, by unfold WeightsWithin; decide, ?_, ?_⟩
  · simp [exConvFarApart]
    omega
  · intro j hj hj0
    obtain rfl : j = 1 := by omega
    simp [convFiringSum, convModel, exConvFarApart, learned, f1]

/-- The same clause in an AVX2 block, the padding lanes near the border. -/
def exVConvFarApart : Exec VConvBlock :=
  ⟨exFB, [⟨2, 2, ⟨2, some 1, false, 0x80#8⟩, [⟨⟨fun a => if a = 0 then 100#8 else if a = 1 ∨ a = 32 ∨ a = 33 then 0x9C#8 else 1#8, [300, -300], 0, 0⟩, 1⟩],
    fun _ => 9, [0, 0], exRng, exRng, ⟨fun _ _ => 0#8, 0⟩⟩], []⟩

example : Ready 2 (AvxConvBlockOK 2 2 2) exVConvFarApart ∧ avxConvModel exVConvFarApart = [([100, -100], [-100, -100], [300, -300])] ∧
    ∀ b ∈ exVConvFarApart.blocks, ∀ c ∈ b.clauses, ∀ v, v ∈ (unpad 2 c.base).pos ∨ v ∈ (unpad 2 c.base).neg →
      2 * ((20 : Nat) : Int) ≤ v ∨ v < -2 * ((20 : Nat) : Int) := by
  refine ⟨⟨by decide, rfl, rfl, by simp [exVConvFarApart, AvxConvBlockOK]⟩, by decide +kernel, ?_⟩
  intro b hb c hc
  simp only [exVConvFarApart, List.mem_singleton] at hb
  subst hb
  simp only [List.mem_singleton] at hc
  subst hc
  intro v hv
  have : v = 100 ∨ v = -100 := by
    rcases hv with hv | hv
    · revert v; decide
    · revert v; decide
  omega

end GT

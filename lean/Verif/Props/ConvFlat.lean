import Verif.Lemmas.ConvFlat

/-!
# C76: the AVX2 convolutional block reads its examples inside the example buffer, at aligned addresses
-/

namespace GT
open Spec CF AvxMem

/-- C76, partial: for a single patch, or when the number of literals of a patch is a multiple of 32, every load of literals of every training
step and evaluation of any history is aligned and inside the buffer that the input block allocated for the example, whatever the example, the
clauses, the patches chosen before and the random streams. What is missing is every other shape of the patches, for which see the two theorems
below. -/
theorem C76_aligned_patches_partial (steps : List BufStep) (b : VConvBlock) (hn : 0 < b.cfg.nLits) (hp : b.nPatches ≤ 1 ∨ b.cfg.nLits % 32 = 0)
    (hs : exampleMem (b.nPatches * b.cfg.nLits) * 2 < 2147483648)
    (hx : ∀ s ∈ steps, s.buf.length = exampleMem (b.nPatches * b.cfg.nLits)) :
    convStepsOn b steps = some (steps.foldl convStep b) := by
  induction steps generalizing b with
  | nil => rfl
  | cons s steps ih =>
    have hf : Fine b.cfg.nLits b.nPatches s.buf := by
      have hl := hx s (by simp)
      have key : ∀ k, k < b.nPatches → k * b.cfg.nLits % 32 = 0 ∧ k * b.cfg.nLits + avxMem b.cfg.nLits ≤ exampleMem (b.nPatches * b.cfg.nLits) := by
        intro k hk
        rcases hp with hp | hp
        · have h0 : k = 0 := by omega
          have h1 : b.nPatches = 1 := by omega
          subst h0
          rw [h1, Nat.one_mul, Nat.zero_mul, Nat.zero_add]
          exact ⟨rfl, avxMem_le_example _⟩
        · obtain ⟨q, hq⟩ := Nat.dvd_of_mod_eq_zero hp
          have e1 : k * b.cfg.nLits = 32 * (k * q) := by rw [hq, Nat.mul_left_comm]
          have e2 : b.nPatches * b.cfg.nLits = 32 * (b.nPatches * q) := by rw [hq, Nat.mul_left_comm]
          have e3 : (k + 1) * q ≤ b.nPatches * q := Nat.mul_le_mul_right _ hk
          have e4 : avxMem b.cfg.nLits = 32 * q := by unfold avxMem; rw [if_pos hp, hq]
          rw [e1, e2, e4]
          unfold exampleMem
          rw [Nat.succ_mul] at e3
          omega
      refine ⟨hn, fun k hk => ?_, fun k hk => ?_⟩
      · have := (key k hk).2
        omega
      · have := key k hk
        exact good_of this.1 (by rw [hl]; exact this.2) (by omega)
    obtain ⟨hc, hnp⟩ := step_shape b s
    show (convStepOn b s).bind _ = _
    rw [step_eq hf, Option.bind_some, List.foldl_cons]
    exact ih (convStep b s) (by rw [hc]; exact hn) (by rw [hc, hnp]; exact hp) (by rw [hc, hnp]; exact hs)
      (fun t ht => by rw [hc, hnp]; exact hx t (by simp [ht]))

/-- C76 fails: with two or more patches of a size that is not a multiple of 32, the first training step faults, whatever the clauses, the example,
the buffer and the random streams: the second patch is loaded from an address that is not a multiple of 32. -/
theorem C76_training_faults (b : VConvBlock) (hne : b.clauses ≠ []) (hp : 2 ≤ b.nPatches) (hm : b.cfg.nLits % 32 ≠ 0) (x : List Byte)
    (fb : Feedback) (steps : List BufStep) : convStepsOn b (.train x fb :: steps) = none := by
  obtain ⟨c, cs, hcs⟩ := List.exists_cons_of_ne_nil hne
  have : b.applyOn (.trainExample x) = none := by
    show (ckSetClauses b.cfg b.nPatches x b.clauses b.counts b.rng).bind _ = none
    rw [hcs, setClauses_none b.cfg b.nPatches x hp hm]
    rfl
  show ((b.applyOn (.trainExample x)).bind _).bind _ = none
  rw [this]
  rfl

/-- C76 fails: with such patches an evaluation gets through exactly when every clause is non-empty and holds in the first patch, so that no
second patch is loaded. -/
theorem C76_evaluation_faults (b : VConvBlock) (hp : 2 ≤ b.nPatches) (hm : b.cfg.nLits % 32 ≠ 0) (x : List Byte)
    (hl : x.length = exampleMem (b.nPatches * b.cfg.nLits)) (hs : exampleMem (b.nPatches * b.cfg.nLits) * 2 < 2147483648)
    (hx : Binary (bufLits b.cfg.nLits x)) :
    convStepsOn b [.eval x] ≠ none ↔ AllHoldInFirst b.cfg.nLits b x := by
  have h1 : avxMem b.cfg.nLits ≤ exampleMem (b.nPatches * b.cfg.nLits) := by
    refine Nat.le_trans (avxMem_le_example _) ?_
    have : b.cfg.nLits ≤ b.nPatches * b.cfg.nLits := Nat.le_mul_of_pos_left _ (by omega)
    unfold exampleMem
    have := Nat.div_le_div_right (c := 32) this
    omega
  have hg : Good b.cfg.nLits x 0 := good_of rfl (by omega) (by omega)
  have he := evalClauses_iff b.cfg b.nPatches x hp hm hg b.clauses
  have : convStepsOn b [.eval x] ≠ none ↔ ckEvalClauses b.cfg b.nPatches x b.clauses ≠ none := by
    show ((ckEvalClauses b.cfg b.nPatches x b.clauses).bind _).bind _ ≠ none ↔ _
    cases ckEvalClauses b.cfg b.nPatches x b.clauses with
    | none => simp
    | some cs => simp [convStepsOn]
  rw [this, he]
  unfold AllHoldInFirst
  have h0 : 0 < b.cfg.nLits := by omega
  exact forall_congr' fun c => imp_congr_right fun _ => evalPatch_fires b.cfg h0 _ hx c

/-! Two patches of 32 literals, and two patches of 3 literals. -/

def exWideConv : VConvBlock :=
  ⟨2, 2, ⟨32, some 9, false, 0x80#8⟩, [⟨⟨fun a => if a = 3 then 5#8 else 0xFF#8, [1, -2], 0, 0⟩, 7⟩], fun _ => 0, [0, 0], ⟨fun _ => 0, 0⟩, ⟨fun _ => 0, 0⟩,
    ⟨fun _ _ => 0#8, 0⟩⟩

def exNarrowConv : VConvBlock := { exWideConv with cfg := ⟨3, some 9, false, 0x80#8⟩, clauses := [⟨⟨fun a => if a = 1 then 5#8 else 0xFF#8, [1, -2], 0, 0⟩, 7⟩] }

/-- The clause of the first block holds in the second patch only; it gets its votes in evaluation and feedback in training. -/
example : ((convStepsOn exWideConv [.eval ((List.range 96).map fun a => if a = 35 then 1#8 else 0#8),
      .train ((List.range 96).map fun a => if a = 35 then 1#8 else 0#8) ⟨0, 1, 1, 1⟩]).map fun b =>
      (b.votes, b.clauses.map fun c => (c.patch, c.base.w, c.base.row 3))) = some ([1, -2], [(1, [2, -3], 7#8)]) := by decide +kernel

/-- The second block faults on an example in which the clause holds in the second patch only, and not when it holds in the first. -/
example : (convStepsOn exNarrowConv [.eval ((List.range 32).map fun a => if a = 4 then 1#8 else 0#8)]).isNone = true ∧
    (convStepsOn exNarrowConv [.eval ((List.range 32).map fun a => if a = 1 then 1#8 else 0#8)]).isSome = true := by decide +kernel

end GT

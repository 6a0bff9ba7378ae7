import Verif.Spec.Trainable
import Verif.Lemmas.ExecutorDense

namespace GT
open Spec

namespace Flag

variable {B E : Type}

theorem recordLoop_mem (bs : List (Flagged B)) (k : Nat) (acc : List Nat) (j : Nat) :
    j ∈ recordLoop bs k acc ↔ j ∈ acc ∨ k ≤ j ∧ (bs[j - k]?).map (·.flag) = some true := by
  induction bs generalizing k acc with
  | nil => simp [recordLoop]
  | cons b bs ih =>
    rw [recordLoop, ih]
    rcases Nat.lt_trichotomy j k with h | rfl | h
    · have h1 : ¬ k + 1 ≤ j := by omega
      have h2 : ¬ k ≤ j := by omega
      cases b.flag
      · simp [h1, h2]
      · simp [h1, h2]; omega
    · have h1 : ¬ j + 1 ≤ j := by omega
      cases hb : b.flag <;> simp [hb]
    · obtain ⟨d, rfl⟩ : ∃ d, j = k + 1 + d := ⟨j - (k + 1), by omega⟩
      have e1 : k + 1 + d - (k + 1) = d := by omega
      have e2 : k + 1 + d - k = d + 1 := by omega
      have h3 : k + 1 + d ≠ k := by omega
      have h4 : k + 1 ≤ k + 1 + d ∧ k ≤ k + 1 + d := by omega
      rw [e1, e2, List.getElem?_cons_succ]
      cases b.flag <;> simp [h3, h4.1, h4.2]

theorem recordLoop_nodup (bs : List (Flagged B)) (k : Nat) (acc : List Nat) (h : acc.Nodup) (ha : ∀ a ∈ acc, a < k) :
    (recordLoop bs k acc).Nodup := by
  induction bs generalizing k acc with
  | nil => exact h
  | cons b bs ih =>
    rw [recordLoop]
    apply ih
    · split
      · rw [List.nodup_append]
        refine ⟨h, by simp, ?_⟩
        intro a h1 c h2
        have := ha a h1
        simp at h2
        omega
      · exact h
    · intro a h1
      split at h1
      · rcases List.mem_append.mp h1 with h1 | h1
        · have := ha a h1; omega
        · simp at h1; omega
      · have := ha a h1; omega

theorem new_recorded (fb : FB) (bs : List (Flagged B)) (i : Nat) : i ∈ (FExec.new fb bs).recorded ↔ (bs[i]?).map (·.flag) = some true := by
  show i ∈ recordLoop bs 0 [] ↔ _
  rw [recordLoop_mem]
  simp

theorem new_well (fb : FB) (bs : List (Flagged B)) : FWell (FExec.new fb bs) := by
  refine ⟨recordLoop_nodup bs 0 [] (by simp) (by simp), fun i hi => ?_⟩
  rw [new_recorded] at hi
  show i < bs.length
  rcases Nat.lt_or_ge i bs.length with h | h
  · exact h
  · rw [List.getElem?_eq_none h] at hi; cases hi

theorem updateLoop_length (f : B → B) (is : List Nat) (bs : List (Flagged B)) : (updateLoop f is bs).length = bs.length := by
  induction is generalizing bs with
  | nil => rfl
  | cons i is ih =>
    rw [updateLoop]
    cases bs[i]? with
    | none => exact ih bs
    | some b =>
      dsimp only
      split
      · rw [ih, List.length_set]
      · exact ih bs

/-- What the update loop does to each position. -/
theorem updateLoop_get (f : B → B) (is : List Nat) (hn : is.Nodup) (bs : List (Flagged B)) (j : Nat) :
    (updateLoop f is bs)[j]? = bs[j]?.map fun b => if is.contains j && b.flag then b.on f else b := by
  induction is generalizing bs with
  | nil => simp [updateLoop]
  | cons i is ih =>
    rw [List.nodup_cons] at hn
    rw [updateLoop]
    cases hi : bs[i]? with
    | none =>
      dsimp only
      rw [ih hn.2]
      by_cases hj : j = i
      · subst hj; rw [hi]; rfl
      · simp [hj]
    | some b =>
      dsimp only
      by_cases hj : j = i
      · subst hj
        have hc : is.contains j = false := by simpa using hn.1
        split
        · rename_i hf
          rw [ih hn.2, List.getElem?_set_self (by
            rcases Nat.lt_or_ge j bs.length with h | h
            · exact h
            · rw [List.getElem?_eq_none h] at hi; cases hi), hi]
          simp only [Option.map_some, hc, hf]
          simp
        · rename_i hf
          rw [ih hn.2, hi]
          simp [hf]
      · have hc : (i :: is).contains j = is.contains j := by simp [hj]
        rw [hc]
        split
        · rw [ih hn.2, List.getElem?_set_ne (Ne.symm hj)]
        · exact ih hn.2 bs

theorem exampleLoop_plain (f : B → B) (v : B → List Int) (bs : List (Flagged B)) (fb : FB) :
    (exampleLoop (Flagged.on f) (fun b => v b.block) bs fb).2 = (exampleLoop f v (bs.map (·.block)) fb).2 := by
  induction bs generalizing fb with
  | nil => rfl
  | cons b bs ih => rw [exampleLoop, List.map_cons, exampleLoop]; exact ih _

theorem exampleLoop_marked (f : B → B) (v : B → List Int) (g : Nat → Bool) (bs : List (Flagged B)) (k : Nat) (fb : FB) :
    (exampleLoop (fun b : Bool × Flagged B => (b.1, b.2.on f)) (fun b => v b.2.block) (bs.mapIdx fun i b => (g (i + k), b)) fb).2 =
      (exampleLoop (Flagged.on f) (fun b => v b.block) bs fb).2 := by
  induction bs generalizing fb k with
  | nil => rfl
  | cons b bs ih =>
    rw [List.mapIdx_cons, exampleLoop, exampleLoop]
    have := ih (k + 1) (fb.register (v (f b.block)))
    simp only [Nat.add_right_comm _ 1 k, Nat.add_assoc] at this ⊢
    exact this

theorem trainOne_fb (be : Backend B E) (smp : List Rat → Rat → Nat) (e : FExec B) (x : E) (l : Nat) :
    (e.trainOne be smp x l).fb = ((plain e).trainOne be smp x l).fb := by
  unfold FExec.trainOne Exec.trainOne plain
  dsimp only
  rw [exampleLoop_plain]

theorem trainOne_get (be : Backend B E) (smp : List Rat → Rat → Nat) (e : FExec B) (hw : FWell e) (x : E) (l : Nat) (j : Nat) :
    (e.trainOne be smp x l).blocks[j]? = e.blocks[j]?.map fun b =>
      if e.recorded.contains j && b.flag then (b.on (be.trainExample · x)).on (be.trainUpdate · x (e.trainOne be smp x l).fb.feedback)
      else b.on (be.trainExample · x) := by
  unfold FExec.trainOne
  dsimp only
  rw [updateLoop_get _ _ hw.1, exampleLoop_blocks]
  rw [List.getElem?_map, Option.map_map]
  rfl

theorem trainOne_rest (be : Backend B E) (smp : List Rat → Rat → Nat) (e : FExec B) (x : E) (l : Nat) :
    (e.trainOne be smp x l).recorded = e.recorded ∧ (e.trainOne be smp x l).index = e.index ∧
    (e.trainOne be smp x l).blocks.length = e.blocks.length := by
  refine ⟨rfl, rfl, ?_⟩
  show (updateLoop _ _ _).length = _
  rw [updateLoop_length, exampleLoop_blocks, List.length_map]

/-- What every call of the executor on the blocks has in common: the recorded list and the flags stay, and each block changes by calls. -/
structure Moves (P : FExec B → FExec B → Prop) : Prop where
  refl : ∀ e, P e e
  trans : ∀ a b c, P a b → P b c → P a c

theorem trainIndices_rel (be : Backend B E) (smp : List Rat → Rat → Nat) {P : FExec B → FExec B → Prop} (hm : Moves P)
    (h1 : ∀ e x l, FWell e → P e (e.trainOne be smp x l)) (data : List (E × Nat)) (is : List Nat) (e : FExec B) (hw : FWell e) :
    P e (FExec.trainIndices be smp data is e) ∧ FWell (FExec.trainIndices be smp data is e) := by
  induction is generalizing e with
  | nil => exact ⟨hm.refl e, hw⟩
  | cons i is ih =>
    rw [FExec.trainIndices]
    cases data[i]? with
    | none => exact ih e hw
    | some d =>
      obtain ⟨r1, r2, r3⟩ := trainOne_rest be smp e d.1 d.2
      have hw' : FWell (e.trainOne be smp d.1 d.2) := ⟨hw.1, fun i hi => by rw [r3]; exact hw.2 i hi⟩
      exact ⟨hm.trans _ _ _ (h1 e d.1 d.2 hw) (ih _ hw').1, (ih _ hw').2⟩

theorem evalOne_get (be : Backend B E) (e : FExec B) (x : E) :
    (e.evalOne be x).1.blocks = e.blocks.map (Flagged.on (be.evalExample · x)) ∧ (e.evalOne be x).1.recorded = e.recorded := by
  refine ⟨?_, rfl⟩
  show (exampleLoop _ _ _ _).1 = _
  rw [exampleLoop_blocks]

theorem evalLoop_rel (be : Backend B E) {P : FExec B → FExec B → Prop} (hm : Moves P)
    (h1 : ∀ e x, FWell e → P e (e.evalOne be x).1) (xs : List E) (e : FExec B) (hw : FWell e) :
    P e (FExec.evalLoop be xs e).1 ∧ FWell (FExec.evalLoop be xs e).1 := by
  induction xs generalizing e with
  | nil => exact ⟨hm.refl e, hw⟩
  | cons x xs ih =>
    rw [FExec.evalLoop]
    obtain ⟨r1, r2⟩ := evalOne_get be e x
    have hw' : FWell (e.evalOne be x).1 := ⟨hw.1, fun i hi => by rw [r1, List.length_map]; exact hw.2 i hi⟩
    exact ⟨hm.trans _ _ _ (h1 e x hw) (ih _ hw').1, (ih _ hw').2⟩

theorem evalLoop_plain (be : Backend B E) (xs : List E) (e : FExec B) :
    plain (FExec.evalLoop be xs e).1 = (Exec.evalLoop be xs (plain e)).1 ∧ (FExec.evalLoop be xs e).2 = (Exec.evalLoop be xs (plain e)).2 ∧
    (FExec.evalLoop be xs e).1.recorded = e.recorded ∧ (FExec.evalLoop be xs e).1.blocks.map (·.flag) = e.blocks.map (·.flag) := by
  induction xs generalizing e with
  | nil => exact ⟨rfl, rfl, rfl, rfl⟩
  | cons x xs ih =>
    rw [FExec.evalLoop, Exec.evalLoop]
    have h : plain (e.evalOne be x).1 = ((plain e).evalOne be x).1 := by
      unfold FExec.evalOne Exec.evalOne plain
      dsimp only
      rw [exampleLoop_plain, exampleLoop_blocks, exampleLoop_blocks]
      simp [Flagged.on]
    have h2 : (e.evalOne be x).2 = ((plain e).evalOne be x).2 := by
      unfold FExec.evalOne Exec.evalOne plain
      dsimp only
      rw [exampleLoop_plain]
    obtain ⟨i1, i2, i3, i4⟩ := ih (e.evalOne be x).1
    refine ⟨?_, ?_, i3.trans rfl, ?_⟩
    · dsimp only; rw [i1, h]
    · dsimp only; rw [i2, h, h2]
    · dsimp only
      rw [i4, (evalOne_get be e x).1]
      simp [Flagged.on]

end Flag
end GT

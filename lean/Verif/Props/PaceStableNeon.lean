import Verif.Props.PaceStableConv

/-!
# C106: predictions of NEON machines that some more training cannot change

NEON machines treat clauses without literals differently (C42), so the machine must not have one to begin with. Settled clauses keep their literals, so
it has none afterwards.
-/

namespace GT
open Spec

/-- What a clause has learned before and after: the same literals are included, and no weight moved by more than `n`. -/
def Pace.Kept (n : Nat) (c c' : List Int × List Int × List Int) : Prop :=
  (∀ i, Included c'.1 i ↔ Included c.1 i) ∧ (∀ i, Included c'.2.1 i ↔ Included c.2.1 i) ∧
    List.Forall₂ (fun w w' => w.natAbs + n ≤ 32767 → (w' - w).natAbs ≤ n) c.2.2 c'.2.2

theorem Pace.neon_unpad_moved (m n : Nat) {c c' : VClause} (h : BytesMovedAtMost n c.row c'.row) :
    StatesMovedAtMost n (neonUnpad m c).pos (neonUnpad m c').pos ∧ StatesMovedAtMost n (neonUnpad m c).neg (neonUnpad m c').neg := by
  have one : ∀ f : Nat → Nat, StatesMovedAtMost n ((List.range m).map fun i => (c.row (f i)).toInt) ((List.range m).map fun i => (c'.row (f i)).toInt) := by
    intro f
    unfold StatesMovedAtMost
    rw [List.forall₂_map_left_iff, List.forall₂_map_right_iff, List.forall₂_same]
    intro i _ _ _
    exact ⟨h (f i), BitVec.le_toInt (c'.row (f i)), by have := BitVec.toInt_lt (x := c'.row (f i)); norm_num at this; omega⟩
  exact ⟨one id, one fun i => neonMem m + i⟩

theorem Pace.neon_clauses_kept (m n : Nat) {cs cs' : List VClause} (h : List.Forall₂ (fun c c' => BytesMovedAtMost (2 * n) c.row c'.row) cs cs')
    (hm : MovedAtMost n (cs.map fun c => c.w) (cs'.map fun c => c.w))
    (hf : ∀ c ∈ cs, ∀ v, v ∈ (neonUnpad m c).pos ∨ v ∈ (neonUnpad m c).neg → 2 * (n : Int) ≤ v ∨ v < -2 * (n : Int)) :
    List.Forall₂ (Pace.Kept n) (cs.map fun c => learned (neonUnpad m c)) (cs'.map fun c => learned (neonUnpad m c)) := by
  have byte : ∀ y : BitVec 8, -128 ≤ y.toInt ∧ y.toInt ≤ 127 := by
    intro y
    have h1 := BitVec.le_toInt y
    have h2 := BitVec.toInt_lt (x := y)
    norm_num at h1 h2
    omega
  induction h with
  | nil => exact .nil
  | cons h _ ih =>
    rename_i c c' l l' _
    simp only [List.map_cons] at hm ⊢
    cases hm with
    | cons hm0 hms =>
      obtain ⟨h1, h2⟩ := Pace.neon_unpad_moved m _ h
      refine .cons ⟨Pace.included_kept h1 fun v hv => ?_, Pace.included_kept h2 fun v hv => ?_, hm0⟩ (ih hms fun c hc => hf c (by simp [hc]))
      · have hr : -128 ≤ v ∧ v ≤ 127 := by obtain ⟨i, -, rfl⟩ := List.mem_map.1 hv; exact byte _
        have := hf c (by simp) v (.inl hv)
        exact ⟨hr.1, hr.2, by push_cast; omega⟩
      · have hr : -128 ≤ v ∧ v ≤ 127 := by obtain ⟨i, -, rfl⟩ := List.mem_map.1 hv; exact byte _
        have := hf c (by simp) v (.inr hv)
        exact ⟨hr.1, hr.2, by push_cast; omega⟩

theorem Pace.neon_kept (m n N : Nat) {bs bs' : List (Option NBlock)}
    (hlit : List.Forall₂ (fun b b' => ∀ d', b' = some d' → ∃ d, b = some d ∧
        List.Forall₂ (fun c c' : VClause => BytesMovedAtMost (2 * N) c.row c'.row) d.clauses d'.clauses) bs bs')
    (hwt : List.Forall₂ (fun b b' => ∀ d', b' = some d' → ∃ d, b = some d ∧ MovedAtMost N (neonWeightsOf d) (neonWeightsOf d')) bs bs')
    (hbs : ∀ b ∈ bs, NeonBlockOK m n b) (hbs' : ∀ b ∈ bs', NeonBlockOK m n b)
    (hv : ∀ c ∈ bs.flatMap fun b => (b.map fun b => b.clauses.map fun c => learned (neonUnpad b.cfg.nLits c)).getD [],
      ∀ v, v ∈ c.1 ∨ v ∈ c.2.1 → 2 * (N : Int) ≤ v ∨ v < -2 * (N : Int)) :
    List.Forall₂ (Pace.Kept N) (bs.flatMap fun b => (b.map fun b => b.clauses.map fun c => learned (neonUnpad b.cfg.nLits c)).getD [])
      (bs'.flatMap fun b => (b.map fun b => b.clauses.map fun c => learned (neonUnpad b.cfg.nLits c)).getD []) := by
  induction hlit with
  | nil => exact .nil
  | cons hl _ ih =>
    rename_i b b' l l' _
    cases hwt with
    | cons hw0 hws =>
      simp only [List.flatMap_cons] at hv ⊢
      refine List.rel_append ?_ (ih hws (fun b hb => hbs b (by simp [hb])) (fun b hb => hbs' b (by simp [hb]))
        fun c hc => hv c (List.mem_append_right _ hc))
      obtain ⟨d', rfl, -, hl', -, -⟩ := hbs' b' (by simp)
      obtain ⟨d, rfl, hl3⟩ := hl d' rfl
      obtain ⟨d1, h1, hw0⟩ := hw0 d' rfl
      obtain rfl := Option.some.inj h1
      obtain ⟨d2, h2, -, hl2, -, -⟩ := hbs (some d) (by simp)
      obtain rfl := Option.some.inj h2
      simp only [Option.map_some, Option.getD_some, hl', hl2] at hv ⊢
      exact Pace.neon_clauses_kept m N hl3 hw0 fun c hc => hv _ (List.mem_append_left _ (List.mem_map.2 ⟨c, hc, rfl⟩))

/-- C106: `C106_same_prediction` for NEON machines with a literal budget that have no clause without literals to begin with; the padding can hold
anything. -/
theorem C106_neon_same_prediction (m n bound : Nat) (e : Exec (Option NBlock)) (h : Ready n (NeonBudgetOK m n) e)
    (hne : ∀ c ∈ neonModel e, ¬ EmptyClause c.1 c.2.1)
    (hw : WeightsWithin bound ((neonModel e).map fun c => c.2.2)) (smp : List Rat → Rat → Nat) (us : List (TMUse Mem))
    (hs : (neonModel e).length * (bound + examplesShown us) ≤ 32767) (hb : bound + examplesShown us ≤ 32767)
    (hv : ∀ c ∈ neonModel e, ∀ v, v ∈ c.1 ∨ v ∈ c.2.1 → 2 * (examplesShown us : Int) ≤ v ∨ v < -2 * (examplesShown us : Int))
    (x : Mem) (hx : Binary (unpadExample m x)) (k : Nat) (hk : k < n)
    (hahead : ∀ j, j < n → j ≠ k →
      firingSum (neonModel e) (unpadExample m x) j + 2 * ((neonModel e).length * examplesShown us : Nat) <
        firingSum (neonModel e) (unpadExample m x) k) :
    (Exec.evalPredict neonBackend [x] 1 (afterUses neonBackend smp us e)).2 = some [k] := by
  have hset := Pace.after_ready (CE.neon_keeps m n) smp us e h
  have hkept : List.Forall₂ (Pace.Kept (examplesShown us)) (neonModel e) (neonModel (afterUses neonBackend smp us e)) :=
    Pace.neon_kept m n _ (C106_neon_literals e smp us) (C106_neon e smp us) (fun b hb => (h.blocks b hb).1) (fun b hb => (hset.blocks b hb).1) hv
  have hset' : Ready n (NeonBlockOK m n) (afterUses neonBackend smp us e) :=
    ⟨hset.classes, hset.fbClasses, hset.fbVotes, fun b hb => (hset.blocks b hb).1⟩
  have hrows : MovedAtMost (examplesShown us) ((neonModel e).map fun c => c.2.2) ((neonModel (afterUses neonBackend smp us e)).map fun c => c.2.2) := by
    unfold MovedAtMost
    rw [List.forall₂_map_left_iff, List.forall₂_map_right_iff]
    exact hkept.imp fun _ _ h => h.2.2
  have hw' := C106_bound_grows _ _ _ _ hrows hw hb
  have hlen := hkept.length_eq
  generalize hm' : neonModel (afterUses neonBackend smp us e) = cls' at *
  have hne' : ∀ c ∈ cls', ¬ EmptyClause c.1 c.2.1 := by
    intro c' hc'
    obtain ⟨c, hc, h1, h2, -⟩ := C106_bound_grows.forall₂_right hkept c' hc'
    have := hne c hc
    unfold EmptyClause at this ⊢
    simpa only [h1, h2] using this
  obtain ⟨ks, h1, h2, h3⟩ := C17_neon_votes_without_empty_clauses m n _ [x] hset' (by rw [hm']; exact hne') (by simpa using hx)
  simp only [List.length_cons, List.length_nil, Nat.zero_add] at h1 h2
  obtain ⟨j, rfl⟩ := List.length_eq_one_iff.1 h2
  have hl := h3 0 x j rfl rfl
  rw [hm', show modelVotes n cls' (unpadExample m x) = trueVotes n cls' (unpadExample m x) from
    List.map_congr_left fun k _ => by
      unfold firingSum
      exact Pace.wrap_sum (fun c : List Int × List Int × List Int => c.2.2) _ _ k _ hw' (by rw [← hlen]; exact hs)] at hl
  obtain ⟨v, hv1, hv2⟩ := hl
  have hclose : ∀ k, (firingSum cls' (unpadExample m x) k - firingSum (neonModel e) (unpadExample m x) k).natAbs ≤
      (neonModel e).length * examplesShown us := by
    intro k
    refine Pace.sums_close (examplesShown us) k (unpadExample m x) ?_
    rw [List.forall₂_iff_get] at hkept ⊢
    refine ⟨hkept.1, fun i i1 i2 => ⟨Pace.fires_iff (hkept.2 i i1 i2).1 (hkept.2 i i1 i2).2.1, Pace.rows_at (hkept.2 i i1 i2).2.2 ?_ hb k⟩⟩
    exact hw _ (List.mem_map.2 ⟨_, List.get_mem _ _, rfl⟩)
  have hjn : j < n := by
    have := (List.getElem?_eq_some_iff.1 hv1).1
    simpa [trueVotes] using this
  have hj : v = firingSum cls' (unpadExample m x) j := by
    simpa [trueVotes, hjn] using hv1.symm
  by_cases hjk : j = k
  · subst hjk; exact h1
  · exfalso
    have h4 := (hv2 k (firingSum cls' (unpadExample m x) k) (by simp [trueVotes, hk])).1
    have h5 := hahead j hjn hjk
    have h6 := hclose j
    have h7 := hclose k
    omega

/-! ### The hypotheses are met -/

/-- A block of one clause of three literals, "the first feature is on", the padding lanes near the border. -/
def exNeonFarApart : Exec (Option NBlock) :=
  exNExec [[⟨fun a => if a = 0 then 100#8 else if a < 3 ∨ (16 ≤ a ∧ a < 19) then 0x9C#8 else 1#8, [300, -300], 0, 0⟩]]

example : Ready 2 (NeonBudgetOK 3 2) exNeonFarApart ∧ neonModel exNeonFarApart = [([100, -100, -100], [-100, -100, -100], [300, -300])] ∧
    (∀ c ∈ neonModel exNeonFarApart, ¬ EmptyClause c.1 c.2.1) ∧ WeightsWithin 300 ((neonModel exNeonFarApart).map fun c => c.2.2) ∧
    (∀ c ∈ neonModel exNeonFarApart, ∀ v, v ∈ c.1 ∨ v ∈ c.2.1 → 2 * ((20 : Nat) : Int) ≤ v ∨ v < -2 * ((20 : Nat) : Int)) ∧
    ∀ j, j < 2 → j ≠ 0 → firingSum (neonModel exNeonFarApart) [1, 0, 1] j + 2 * ((neonModel exNeonFarApart).length * 20 : Nat) <
      firingSum (neonModel exNeonFarApart) [1, 0, 1] 0 := by
  have hm : neonModel exNeonFarApart = [([100, -100, -100], [-100, -100, -100], [300, -300])] := by decide +kernel
  have f1 : Fires [1, 0, 1] ([100, -100, -100], [-100, -100, -100], [300, -300]) := by
    refine ⟨fun h => h.1 0 ⟨100, rfl, by decide⟩, ?_, ?_⟩
    · rintro (_ | _ | _ | i) ⟨v, hv, h0⟩
      · rfl
      all_goals simp at hv
      all_goals omega
    · rintro (_ | _ | _ | i) ⟨v, hv, h0⟩
      all_goals simp at hv
      all_goals omega
  rw [hm]
  refine ⟨⟨by decide, rfl, rfl, ?_⟩, rfl, ?_, by unfold WeightsWithin; decide, ?_, ?_⟩
  · intro b hb
    simp only [exNeonFarApart, exNExec, List.map_cons, List.map_nil, List.mem_singleton] at hb
    subst hb
    exact ⟨⟨_, rfl, by decide, rfl, rfl, by simp [exNBlock]⟩, fun d hd => by obtain rfl := Option.some.inj hd; simp [exNBlock]⟩
  · intro c hc
    obtain rfl := List.mem_singleton.1 hc
    exact f1.1
  · intro c hc v hv
    obtain rfl := List.mem_singleton.1 hc
    simp at hv
    omega
  · intro j hj hj0
    obtain rfl : j = 1 := by omega
    simp [firingSum, f1]

end GT

import Verif.Lemmas.Sparse

/-!
# Lemmas about sparse feedback: which literals are tracked, and in what order
-/

namespace GT
open Spec

/-! ## The state updates keep the literals -/

theorem updFirst_lits (f : Int → Rng → Int × Rng) (l : Nat) (h : Half) (g : Rng) :
    (updFirst f l h g).1.map (·.1) = h.map (·.1) := by
  induction h with
  | nil => rfl
  | cons e h ih => unfold updFirst; split <;> simp [ih]

theorem updFirst_found (f : Int → Rng → Int × Rng) (l : Nat) (h : Half) (g : Rng) :
    (updFirst f l h g).2.2 = true ↔ l ∈ h.map (·.1) := by
  induction h with
  | nil => simp [updFirst]
  | cons e h ih =>
    unfold updFirst
    split
    · rename_i he; simp [he]
    · rename_i he
      simp only [ih, List.map_cons, List.mem_cons]
      exact ⟨Or.inr, fun h => h.resolve_left (fun h => he h.symm)⟩

theorem updAll_lits (p : Nat → Bool) (f : Int → Rng → Int × Rng) (h : Half) (g : Rng) :
    (updAll p f h g).1.map (·.1) = h.map (·.1) := by
  induction h generalizing g with
  | nil => rfl
  | cons e h ih => unfold updAll; split <;> simp [ih]

theorem t1aLits_lits (cfg : SCfg) (x : List Nat) (pos neg : Half) (al : List Nat × Nat) (g : Rng) :
    (t1aLits cfg x pos neg al g).1.map (·.1) = pos.map (·.1) ∧
    (t1aLits cfg x pos neg al g).2.1.map (·.1) = neg.map (·.1) := by
  induction x generalizing pos neg al g with
  | nil => exact ⟨rfl, rfl⟩
  | cons l ls ih =>
    unfold t1aLits
    have := ih (updFirst (stepUp cfg) l pos g).1
      (updFirst (stepDown cfg) l neg (updFirst (stepUp cfg) l pos g).2.1).1
      (if (updFirst (stepUp cfg) l pos g).2.2 then al else updateAL cfg al l)
      (updFirst (stepDown cfg) l neg (updFirst (stepUp cfg) l pos g).2.1).2.1
    rw [updFirst_lits, updFirst_lits] at this
    exact this

theorem sT1a_lits (cfg : SCfg) (x : List Nat) (pos neg : Half) (al : List Nat × Nat) (g : Rng) :
    (sT1a cfg x pos neg al g).1.map (·.1) = pos.map (·.1) ∧
    (sT1a cfg x pos neg al g).2.1.map (·.1) = neg.map (·.1) := by
  have := t1aLits_lits cfg x pos neg al g
  unfold sT1a
  simp only [updAll_lits]
  exact this

theorem sT1b_lits (cfg : SCfg) (pos neg : Half) (g : Rng) :
    (sT1b cfg pos neg g).1.map (·.1) = pos.map (·.1) ∧ (sT1b cfg pos neg g).2.1.map (·.1) = neg.map (·.1) := by
  unfold sT1b
  simp only [updAll_lits, and_self]

theorem sortedHalf_lits (h : Half) : SortedHalf h ↔ (h.map (·.1)).Pairwise (· < ·) := by
  unfold SortedHalf
  rw [List.pairwise_map]

theorem sortedHalf_congr (h h' : Half) (he : h'.map (·.1) = h.map (·.1)) : SortedHalf h' ↔ SortedHalf h := by
  rw [sortedHalf_lits, sortedHalf_lits, he]

/-! ## Pruning -/

theorem prune_cons (t : Int) (e : Nat × Int) (h : Half) :
    prune t (e :: h) = if e.2 < t then (match h with | [] => [] | e' :: h' => e' :: prune t h')
      else e :: prune t h := by
  rw [prune.eq_def]
  rfl

theorem prune_spec (t : Int) (n : Nat) (h : Half) (hn : h.length ≤ n) :
    (prune t h).Sublist h ∧ (∀ e ∈ h, t ≤ e.2 → e ∈ prune t h) := by
  induction n generalizing h with
  | zero =>
    have := List.length_eq_zero_iff.mp (Nat.le_zero.mp hn)
    subst this
    simp [prune]
  | succ n ih =>
    match h with
    | [] => simp [prune]
    | [e] =>
      rw [prune_cons]
      split
      · rename_i he
        refine ⟨by simp, ?_⟩
        intro e' h' ht
        simp at h'
        subst h'
        omega
      · simp [prune]
    | e :: e' :: h =>
      have h1 := ih (e' :: h) (by simp at hn ⊢; omega)
      have h2 := ih h (by simp at hn ⊢; omega)
      rw [prune_cons]
      split
      · rename_i he
        refine ⟨List.Sublist.cons _ (List.Sublist.cons_cons _ h2.1), ?_⟩
        intro a ha ht
        rcases List.mem_cons.mp ha with ha | ha
        · subst ha; omega
        · rcases List.mem_cons.mp ha with ha | ha
          · subst ha; simp
          · exact List.mem_cons_of_mem _ (h2.2 a ha ht)
      · refine ⟨List.Sublist.cons_cons _ h1.1, ?_⟩
        intro a ha ht
        rcases List.mem_cons.mp ha with ha | ha
        · subst ha; simp
        · exact List.mem_cons_of_mem _ (h1.2 a ha ht)

theorem prune_sublist (t : Int) (h : Half) : (prune t h).Sublist h := (prune_spec t _ h (Nat.le_refl _)).1

theorem prune_keeps (t : Int) (h : Half) (e : Nat × Int) (he : e ∈ h) (ht : t ≤ e.2) : e ∈ prune t h :=
  (prune_spec t _ h (Nat.le_refl _)).2 e he ht

/-! ## Sorting -/

theorem bubblePass_zero (h : Half) (sw : Bool) : bubblePass 0 h sw = (h, sw) := by
  cases h <;> rfl

theorem bubblePass_cons (m : Nat) (a b : Nat × Int) (h : Half) (sw : Bool) :
    bubblePass (m + 1) (a :: b :: h) sw =
      if a.1 > b.1 then (b :: (bubblePass m (a :: h) true).1, (bubblePass m (a :: h) true).2)
      else (a :: (bubblePass m (b :: h) sw).1, (bubblePass m (b :: h) sw).2) := by
  rw [bubblePass]

theorem bubblePass_spec (m : Nat) (h : Half) (sw : Bool) (hm : m + 1 ≤ h.length) :
    ∃ pre mx, (bubblePass m h sw).1 = pre ++ mx :: h.drop (m + 1) ∧ pre.length = m ∧
      (pre ++ [mx]).Perm (h.take (m + 1)) ∧ ∀ e ∈ pre, e.1 ≤ mx.1 := by
  induction m generalizing h sw with
  | zero =>
    match h, hm with
    | a :: t, _ =>
      exact ⟨[], a, by simp [bubblePass_zero], rfl, by simp, by simp⟩
  | succ m ih =>
    match h, hm with
    | a :: b :: t, hm =>
      rw [bubblePass_cons]
      split
      · rename_i hab
        obtain ⟨pre, mx, h1, h2, h3, h4⟩ := ih (a :: t) true (by simp at hm ⊢; omega)
        refine ⟨b :: pre, mx, ?_, by simp [h2], ?_, ?_⟩
        · rw [h1]; simp
        · have : (b :: (pre ++ [mx])).Perm (b :: (a :: t).take (m + 1)) := h3.cons b
          refine this.trans ?_
          simp only [List.take_succ_cons]
          exact List.Perm.swap _ _ _
        · intro e he
          rcases List.mem_cons.mp he with he | he
          · subst he
            have ha : a ∈ pre ++ [mx] := h3.symm.subset (by simp)
            rcases List.mem_append.mp ha with ha | ha
            · have := h4 a ha; omega
            · simp at ha; subst ha; omega
          · exact h4 e he
      · rename_i hab
        obtain ⟨pre, mx, h1, h2, h3, h4⟩ := ih (b :: t) sw (by simp at hm ⊢; omega)
        refine ⟨a :: pre, mx, ?_, by simp [h2], ?_, ?_⟩
        · rw [h1]; simp
        · have : (a :: (pre ++ [mx])).Perm (a :: (b :: t).take (m + 1)) := h3.cons a
          exact this
        · intro e he
          rcases List.mem_cons.mp he with he | he
          · subst he
            have hb : b ∈ pre ++ [mx] := h3.symm.subset (by simp)
            rcases List.mem_append.mp hb with hb | hb
            · have := h4 b hb; omega
            · simp at hb; subst hb; omega
          · exact h4 e he

theorem bubblePass_flag (m : Nat) (h : Half) : (bubblePass m h true).2 = true := by
  induction m generalizing h with
  | zero => rw [bubblePass_zero]
  | succ m ih =>
    match h with
    | [] => rfl
    | [a] => rfl
    | a :: b :: t => rw [bubblePass_cons]; split <;> exact ih _

theorem bubblePass_noswap (m : Nat) (h : Half) (hf : (bubblePass m h false).2 = false) :
    (bubblePass m h false).1 = h ∧ (h.take (m + 1)).Pairwise (fun a b => a.1 ≤ b.1) := by
  induction m generalizing h with
  | zero =>
    rw [bubblePass_zero]
    refine ⟨rfl, ?_⟩
    cases h <;> simp
  | succ m ih =>
    match h with
    | [] => simp [bubblePass]
    | [a] => simp [bubblePass]
    | a :: b :: t =>
      rw [bubblePass_cons] at hf ⊢
      split at hf
      · rw [bubblePass_flag] at hf; simp at hf
      · rename_i hab
        rw [if_neg hab]
        obtain ⟨h1, h2⟩ := ih (b :: t) hf
        refine ⟨by rw [h1], ?_⟩
        rw [List.take_succ_cons, List.pairwise_cons]
        refine ⟨?_, h2⟩
        intro e he
        rw [List.take_succ_cons] at he h2
        rcases List.mem_cons.mp he with he | he
        · subst he; omega
        · have := (List.pairwise_cons.mp h2).1 e he; omega

theorem bubbleLoop_sorted (r : Nat) (h : Half) (hr : r ≤ h.length)
    (hs : (h.drop r).Pairwise (fun a b => a.1 ≤ b.1))
    (hle : ∀ a ∈ h.take r, ∀ b ∈ h.drop r, a.1 ≤ b.1) :
    (bubbleLoop r h true).Perm h ∧ (bubbleLoop r h true).Pairwise (fun a b => a.1 ≤ b.1) := by
  induction r generalizing h with
  | zero => exact ⟨List.Perm.refl _, by simpa [bubbleLoop] using hs⟩
  | succ r ih =>
    unfold bubbleLoop
    simp only [bubblePass_flag, Bool.true_eq_false, if_false]
    obtain ⟨pre, mx, h1, h2, h3, h4⟩ := bubblePass_spec r h true hr
    have hperm : (bubblePass r h true).1.Perm h := by
      rw [h1]
      have : (pre ++ mx :: h.drop (r + 1)).Perm (h.take (r + 1) ++ h.drop (r + 1)) := by
        have := h3.append_right (h.drop (r + 1))
        simpa using this
      rwa [List.take_append_drop] at this
    have hdrop : (bubblePass r h true).1.drop r = mx :: h.drop (r + 1) := by
      rw [h1, List.drop_append_of_le_length (by omega), List.drop_of_length_le (by omega)]; rfl
    have htake : (bubblePass r h true).1.take r = pre := by
      rw [h1, List.take_append_of_le_length (by omega), List.take_of_length_le (by omega)]
    have hin : ∀ a ∈ pre ++ [mx], a ∈ h.take (r + 1) := fun a ha => h3.subset ha
    have := ih (bubblePass r h true).1 (by rw [hperm.length_eq]; omega)
      (by
        rw [hdrop, List.pairwise_cons]
        exact ⟨fun b hb => hle mx (hin mx (by simp)) b hb, hs⟩)
      (by
        rw [hdrop, htake]
        intro a ha b hb
        rcases List.mem_cons.mp hb with hb | hb
        · subst hb; exact h4 a ha
        · exact hle a (hin a (by simp [ha])) b hb)
    exact ⟨this.1.trans hperm, this.2⟩

theorem sortHalf_spec (h : Half) :
    (sortHalf h).Perm h ∧ (sortHalf h).Pairwise (fun a b => a.1 ≤ b.1) := by
  have key : ∀ h : Half, (bubbleLoop h.length h false).Perm h ∧
      (bubbleLoop h.length h false).Pairwise (fun a b => a.1 ≤ b.1) := by
    intro h
    match hl : h.length with
    | 0 =>
      have := List.length_eq_zero_iff.mp hl
      subst this
      simp [bubbleLoop]
    | r + 1 =>
      unfold bubbleLoop
      by_cases hf : (bubblePass r h false).2 = false
      · simp only [hf, if_true]
        obtain ⟨h1, h2⟩ := bubblePass_noswap r h hf
        rw [h1]
        rw [List.take_of_length_le (by omega)] at h2
        exact ⟨List.Perm.refl _, h2⟩
      · rw [if_neg hf]
        have hf : (bubblePass r h false).2 = true := by simpa using hf
        rw [hf]
        obtain ⟨pre, mx, h1, h2, h3, h4⟩ := bubblePass_spec r h false (by omega)
        have hd : h.drop (r + 1) = [] := List.drop_of_length_le (by omega)
        rw [hd] at h1
        rw [List.take_of_length_le (by omega)] at h3
        have := bubbleLoop_sorted r (bubblePass r h false).1 (by rw [h1]; simp; omega)
          (by rw [h1, List.drop_append_of_le_length (by omega), List.drop_of_length_le (by omega)]; simp)
          (by
            rw [h1, List.drop_append_of_le_length (by omega), List.drop_of_length_le (by omega),
              List.take_append_of_le_length (by omega), List.take_of_length_le (by omega)]
            intro a ha b hb
            simp at hb
            subst hb
            exact h4 a ha)
        refine ⟨this.1.trans ?_, this.2⟩
        rw [h1]
        exact h3
  match h with
  | [] => exact key []
  | [a] => simp [sortHalf]
  | [a, b] =>
    unfold sortHalf
    dsimp only
    split
    · exact ⟨List.Perm.swap _ _ _, by simp; omega⟩
    · exact ⟨List.Perm.refl _, by simp; omega⟩
  | a :: b :: c :: h => exact key _

theorem sortHalf_sorted (h : Half) (hn : (h.map (·.1)).Nodup) : SortedHalf (sortHalf h) := by
  obtain ⟨h1, h2⟩ := sortHalf_spec h
  have hn' : ((sortHalf h).map (·.1)).Nodup := (h1.map _).nodup_iff.mpr hn
  unfold SortedHalf
  rw [List.nodup_iff_pairwise_ne, List.pairwise_map] at hn'
  exact (h2.and hn').imp (fun h => by omega)

/-! ## Tracking new literals -/

theorem track_lits (cfg : SCfg) (l : Nat) (h : Half) :
    ((h.map (·.1)).Nodup → ((track cfg l h).map (·.1)).Nodup) ∧
    (h.length ≤ cfg.clauseSize → (track cfg l h).length ≤ cfg.clauseSize) ∧
    (∀ e ∈ track cfg l h, e ∈ h ∨ e = (l, wrap8 (cfg.lowerTA + 5))) ∧ h.Sublist (track cfg l h) := by
  unfold track
  split
  · exact ⟨id, id, fun e he => Or.inl he, List.Sublist.refl _⟩
  · rename_i hm
    split
    · refine ⟨fun hn => ?_, fun _ => by simp; omega, ?_, List.sublist_append_left _ _⟩
      · rw [List.map_append, List.nodup_append]
        refine ⟨hn, by simp, ?_⟩
        intro a ha b hb
        simp at hb
        subst hb
        intro hab
        exact hm (hab ▸ ha)
      · intro e he
        rcases List.mem_append.mp he with he | he
        · exact Or.inl he
        · exact Or.inr (by simpa using he)
    · exact ⟨id, id, fun e he => Or.inl he, List.Sublist.refl _⟩

theorem t2Active_spec (cfg : SCfg) (x as : List Nat) (pos neg : Half) :
    (((pos.map (·.1)).Nodup → ((t2Active cfg x as pos neg).1.map (·.1)).Nodup) ∧
     ((neg.map (·.1)).Nodup → ((t2Active cfg x as pos neg).2.map (·.1)).Nodup)) ∧
    ((pos.length ≤ cfg.clauseSize → (t2Active cfg x as pos neg).1.length ≤ cfg.clauseSize) ∧
     (neg.length ≤ cfg.clauseSize → (t2Active cfg x as pos neg).2.length ≤ cfg.clauseSize)) ∧
    ((∀ e ∈ (t2Active cfg x as pos neg).1,
        e ∈ pos ∨ (e.1 ∈ as ∧ e.1 ∉ x ∧ e.2 = wrap8 (cfg.lowerTA + 5))) ∧
     (∀ e ∈ (t2Active cfg x as pos neg).2,
        e ∈ neg ∨ (e.1 ∈ as ∧ e.1 ∈ x ∧ e.2 = wrap8 (cfg.lowerTA + 5)))) ∧
    (pos.Sublist (t2Active cfg x as pos neg).1 ∧ neg.Sublist (t2Active cfg x as pos neg).2) := by
  induction as generalizing pos neg with
  | nil =>
    exact ⟨⟨id, id⟩, ⟨id, id⟩, ⟨fun e he => Or.inl he, fun e he => Or.inl he⟩,
      List.Sublist.refl _, List.Sublist.refl _⟩
  | cons a as ih =>
    unfold t2Active
    split
    · rename_i hx
      obtain ⟨t1, t2, t3, t4⟩ := track_lits cfg a neg
      obtain ⟨⟨n1, n2⟩, ⟨l1, l2⟩, ⟨m1, m2⟩, s1, s2⟩ := ih pos (track cfg a neg)
      refine ⟨⟨n1, fun h => n2 (t1 h)⟩, ⟨l1, fun h => l2 (t2 h)⟩, ⟨?_, ?_⟩, s1, t4.trans s2⟩
      · intro e he
        rcases m1 e he with h | ⟨h, h'⟩
        · exact Or.inl h
        · exact Or.inr ⟨List.mem_cons_of_mem _ h, h'⟩
      · intro e he
        rcases m2 e he with h | ⟨h, h'⟩
        · rcases t3 e h with h | h
          · exact Or.inl h
          · subst h; exact Or.inr ⟨by simp, hx, rfl⟩
        · exact Or.inr ⟨List.mem_cons_of_mem _ h, h'⟩
    · rename_i hx
      obtain ⟨t1, t2, t3, t4⟩ := track_lits cfg a pos
      obtain ⟨⟨n1, n2⟩, ⟨l1, l2⟩, ⟨m1, m2⟩, s1, s2⟩ := ih (track cfg a pos) neg
      refine ⟨⟨fun h => n1 (t1 h), n2⟩, ⟨fun h => l1 (t2 h), l2⟩, ⟨?_, ?_⟩, t4.trans s1, s2⟩
      · intro e he
        rcases m1 e he with h | ⟨h, h'⟩
        · rcases t3 e h with h | h
          · exact Or.inl h
          · subst h; exact Or.inr ⟨by simp, hx, rfl⟩
        · exact Or.inr ⟨List.mem_cons_of_mem _ h, h'⟩
      · intro e he
        rcases m2 e he with h | ⟨h, h'⟩
        · exact Or.inl h
        · exact Or.inr ⟨List.mem_cons_of_mem _ h, h'⟩

/-! ## Active literals -/

/-- The invariant of the active literals of one class. -/
def ALOk (cfg : SCfg) (al : List Nat × Nat) : Prop :=
  al.1.Nodup ∧ al.1.length ≤ cfg.alSize ∧ (cfg.alSize = 0 ∨ al.2 < cfg.alSize)

theorem updateAL_ok (cfg : SCfg) (al : List Nat × Nat) (l : Nat) (h : ALOk cfg al) :
    ALOk cfg (updateAL cfg al l) ∧ ∀ a ∈ (updateAL cfg al l).1, a ∈ al.1 ∨ a = l := by
  obtain ⟨h1, h2, h3⟩ := h
  unfold updateAL
  split
  · split
    · exact ⟨⟨h1, h2, h3⟩, fun a ha => Or.inl ha⟩
    · rename_i hl hm
      refine ⟨⟨?_, by simp; omega, h3⟩, ?_⟩
      · rw [List.nodup_append]
        refine ⟨h1, by simp, ?_⟩
        intro a ha b hb hab
        simp at hb
        subst hb; subst hab
        exact hm ha
      · intro a ha
        rcases List.mem_append.mp ha with h | h
        · exact Or.inl h
        · exact Or.inr (by simpa using h)
  · split
    · split
      · exact ⟨⟨h1, h2, h3⟩, fun a ha => Or.inl ha⟩
      · rename_i hl _ hm
        refine ⟨⟨?_, by simpa using h2, ?_⟩, ?_⟩
        · rw [List.nodup_iff_pairwise_ne, List.pairwise_iff_getElem]
          intro i j hi hj hij
          simp only [List.length_set] at hi hj
          rw [List.getElem_set, List.getElem_set]
          have hne : ∀ k (hk : k < al.1.length), al.1[k] ≠ l := fun k hk he => hm (he ▸ List.getElem_mem hk)
          split
          · split
            · omega
            · exact (hne j hj).symm
          · split
            · exact hne i hi
            · intro he
              exact absurd ((List.getElem_inj h1).mp he) (by omega)
        · rcases h3 with h3 | h3
          · exact Or.inl h3
          · right
            dsimp only
            split <;> omega
        · intro a ha
          exact List.mem_or_eq_of_mem_set ha
    · exact ⟨⟨h1, h2, h3⟩, fun a ha => Or.inl ha⟩

theorem t1aLits_al (cfg : SCfg) (x : List Nat) (pos neg : Half) (al : List Nat × Nat) (g : Rng)
    (h : ALOk cfg al) :
    ALOk cfg (t1aLits cfg x pos neg al g).2.2.1 ∧
      ∀ a ∈ (t1aLits cfg x pos neg al g).2.2.1.1, a ∈ al.1 ∨ (a ∈ x ∧ a ∉ pos.map (·.1)) := by
  induction x generalizing pos neg al g with
  | nil => exact ⟨h, fun a ha => Or.inl ha⟩
  | cons l ls ih =>
    unfold t1aLits
    dsimp only
    have hal : ALOk cfg (if (updFirst (stepUp cfg) l pos g).2.2 then al else updateAL cfg al l) ∧
        ∀ a ∈ (if (updFirst (stepUp cfg) l pos g).2.2 then al else updateAL cfg al l).1,
          a ∈ al.1 ∨ (a = l ∧ l ∉ pos.map (·.1)) := by
      split
      · exact ⟨h, fun a ha => Or.inl ha⟩
      · rename_i hf
        rw [updFirst_found] at hf
        have := updateAL_ok cfg al l h
        exact ⟨this.1, fun a ha => (this.2 a ha).imp_right (fun h => ⟨h, hf⟩)⟩
    obtain ⟨h1, h2⟩ := ih (updFirst (stepUp cfg) l pos g).1
      (updFirst (stepDown cfg) l neg (updFirst (stepUp cfg) l pos g).2.1).1
      (if (updFirst (stepUp cfg) l pos g).2.2 then al else updateAL cfg al l)
      (updFirst (stepDown cfg) l neg (updFirst (stepUp cfg) l pos g).2.1).2.1 hal.1
    refine ⟨h1, fun a ha => ?_⟩
    rcases h2 a ha with h | ⟨h, h'⟩
    · rcases hal.2 a h with h | ⟨h, h'⟩
      · exact Or.inl h
      · subst h; exact Or.inr ⟨by simp, h'⟩
    · rw [updFirst_lits] at h'
      exact Or.inr ⟨List.mem_cons_of_mem _ h, h'⟩

/-! ## One clause update -/

theorem tidy_of_sublist (n : Nat) (h h' : Half) (hs : SortedHalf h) (hl : h.length ≤ n)
    (he : h'.map (·.1) = h.map (·.1)) (t : Int) :
    SortedHalf (prune t h') ∧ (prune t h').length ≤ n ∧ ∀ e ∈ prune t h', e.1 ∈ h.map (·.1) := by
  have hsub := prune_sublist t h'
  refine ⟨List.Pairwise.sublist hsub ((sortedHalf_congr h h' he).mpr hs), ?_, ?_⟩
  · have : h'.length = h.length := by
      have := congrArg List.length he
      simpa using this
    have := hsub.length_le
    omega
  · intro e hm
    rw [← he]
    exact List.mem_map_of_mem (hsub.subset hm)

theorem sT2_spec (cfg : SCfg) (x : List Nat) (pos neg : Half) (al : List Nat) (g : Rng)
    (hp : SortedHalf pos) (hq : SortedHalf neg) (hlp : pos.length ≤ cfg.clauseSize)
    (hlq : neg.length ≤ cfg.clauseSize) :
    SortedHalf (sortHalf (sT2 cfg x pos neg al g).1) ∧ SortedHalf (sortHalf (sT2 cfg x pos neg al g).2) ∧
    (sortHalf (sT2 cfg x pos neg al g).1).length ≤ cfg.clauseSize ∧
    (sortHalf (sT2 cfg x pos neg al g).2).length ≤ cfg.clauseSize ∧
    (∀ e ∈ sortHalf (sT2 cfg x pos neg al g).1, e.1 ∈ pos.map (·.1) ∨ e.1 ∈ al) ∧
    (∀ e ∈ sortHalf (sT2 cfg x pos neg al g).2, e.1 ∈ neg.map (·.1) ∨ e.1 ∈ al) := by
  unfold sT2
  dsimp only
  have e1 := updAll_lits (fun l => !decide (l ∈ x)) stepReject pos g
  have e2 := updAll_lits (fun l => decide (l ∈ x)) stepReject neg g
  generalize (updAll (fun l => !decide (l ∈ x)) stepReject pos g).1 = p at e1 ⊢
  generalize (updAll (fun l => decide (l ∈ x)) stepReject neg g).1 = q at e2 ⊢
  obtain ⟨⟨n1, n2⟩, ⟨l1, l2⟩, ⟨m1, m2⟩, _⟩ := t2Active_spec cfg x al p q
  have hnd : ∀ h : Half, SortedHalf h → (h.map (·.1)).Nodup := by
    intro h hs
    rw [sortedHalf_lits] at hs
    exact hs.imp (fun h => by omega)
  have lp : p.length = pos.length := by simpa using congrArg List.length e1
  have lq : q.length = neg.length := by simpa using congrArg List.length e2
  refine ⟨sortHalf_sorted _ (n1 (e1 ▸ hnd _ hp)), sortHalf_sorted _ (n2 (e2 ▸ hnd _ hq)), ?_, ?_, ?_, ?_⟩
  · rw [(sortHalf_spec _).1.length_eq]; exact l1 (by omega)
  · rw [(sortHalf_spec _).1.length_eq]; exact l2 (by omega)
  · intro e he
    rcases m1 e ((sortHalf_spec _).1.subset he) with h | h
    · left; rw [← e1]; exact List.mem_map_of_mem h
    · right; exact h.1
  · intro e he
    rcases m2 e ((sortHalf_spec _).1.subset he) with h | h
    · left; rw [← e2]; exact List.mem_map_of_mem h
    · right; exact h.1

theorem sClauseUpdate_tidy (cfg : SCfg) (x : List Nat) (j : Nat) (target : Int) (c : SClause)
    (al : List Nat × Nat) (g : Rng) (hc : Tidy cfg c) (ha : ALOk cfg al) :
    Tidy cfg (sClauseUpdate cfg x j target c al g).1 ∧
    ALOk cfg (sClauseUpdate cfg x j target c al g).2.1 ∧
    (∀ e ∈ (sClauseUpdate cfg x j target c al g).1.pos, e.1 ∈ c.pos.map (·.1) ∨ e.1 ∈ al.1) ∧
    (∀ e ∈ (sClauseUpdate cfg x j target c al g).1.neg, e.1 ∈ c.neg.map (·.1) ∨ e.1 ∈ al.1) ∧
    (∀ l ∈ (sClauseUpdate cfg x j target c al g).2.1.1, l ∈ al.1 ∨ l ∈ x) := by
  obtain ⟨hp, hq, hlp, hlq⟩ := hc
  have triv : Tidy cfg c ∧ ALOk cfg al ∧ (∀ e ∈ c.pos, e.1 ∈ c.pos.map (·.1) ∨ e.1 ∈ al.1) ∧
      (∀ e ∈ c.neg, e.1 ∈ c.neg.map (·.1) ∨ e.1 ∈ al.1) ∧ (∀ l ∈ al.1, l ∈ al.1 ∨ l ∈ x) :=
    ⟨⟨hp, hq, hlp, hlq⟩, ha, fun e he => Or.inl (List.mem_map_of_mem he),
      fun e he => Or.inl (List.mem_map_of_mem he), fun l hl => Or.inl hl⟩
  unfold sClauseUpdate
  dsimp only
  generalize (if c.w.getD j 0 ≥ 0 then (1 : Int) else -1) = sign
  by_cases h1 : target * sign > 0
  · simp only [h1, if_true]
    by_cases h2 : c.out = 1
    · simp only [h2, if_true]
      have e := sT1a_lits cfg x c.pos c.neg al g
      have a := tidy_of_sublist _ _ _ hp hlp e.1 cfg.lowerTA
      have b := tidy_of_sublist _ _ _ hq hlq e.2 cfg.lowerTA
      have hal := t1aLits_al cfg x c.pos c.neg al g ha
      refine ⟨⟨a.1, b.1, a.2.1, b.2.1⟩, ?_, fun e he => Or.inl (a.2.2 e he),
        fun e he => Or.inl (b.2.2 e he), ?_⟩
      · unfold sT1a; exact hal.1
      · intro l hl
        exact (hal.2 l (by unfold sT1a at hl; exact hl)).imp_right (fun h => h.1)
    · by_cases h3 : c.out = 0
      · simp only [h3, if_true]
        have e := sT1b_lits cfg c.pos c.neg g
        have a := tidy_of_sublist _ _ _ hp hlp e.1 cfg.lowerTA
        have b := tidy_of_sublist _ _ _ hq hlq e.2 cfg.lowerTA
        exact ⟨⟨a.1, b.1, a.2.1, b.2.1⟩, ha, fun e he => Or.inl (a.2.2 e he),
          fun e he => Or.inl (b.2.2 e he), fun l hl => Or.inl hl⟩
      · simp only [h2, h3, if_false]
        exact triv
  · simp only [h1, if_false]
    by_cases h2 : target * sign < 0 ∧ c.out = 1
    · simp only [h2, and_self, if_true]
      obtain ⟨a, b, d, e, f, i⟩ := sT2_spec cfg x c.pos c.neg al.1 g hp hq hlp hlq
      exact ⟨⟨a, b, d, e⟩, ha, f, i, fun l hl => Or.inl hl⟩
    · simp only [h2, if_false]
      exact triv

/-! ## A training update of the block -/

/-- The invariant of the active literals of all classes, with `Q k l` saying where the literals may come from. -/
def ALAll (cfg : SCfg) (Q : Nat → Nat → Prop) (al : AL) : Prop :=
  ∀ (k : Nat) (a : List Nat × Nat), al[k]? = some a → ALOk cfg a ∧ ∀ l ∈ a.1, Q k l

/-- The invariant of a clause, with `P l` saying where the literals may come from. -/
def ClauseOk (cfg : SCfg) (P : Nat → Prop) (c : SClause) : Prop :=
  Tidy cfg c ∧ (∀ e ∈ c.pos, P e.1) ∧ (∀ e ∈ c.neg, P e.1)

theorem sUpdateWith_ok (cfg : SCfg) (P : Nat → Prop) (Q : Nat → Nat → Prop) (hPQ : ∀ k l, Q k l → P l)
    (x : List Nat) (j : Nat) (target : Int) (c : SClause) (al : AL) (g : Rng)
    (hx : ∀ l ∈ x, Q j l) (hc : ClauseOk cfg P c) (ha : ALAll cfg Q al) :
    ClauseOk cfg P (sUpdateWith cfg x j target c al g).1 ∧ ALAll cfg Q (sUpdateWith cfg x j target c al g).2.1 ∧
    (sUpdateWith cfg x j target c al g).2.1.length = al.length := by
  have hj : ALOk cfg (al.getD j ([], 0)) ∧ ∀ l ∈ (al.getD j ([], 0)).1, Q j l := by
    rw [List.getD_eq_getElem?_getD]
    cases h : al[j]? with
    | none => exact ⟨⟨by simp, by simp, by simp only [Option.getD_none]; omega⟩, by simp⟩
    | some a => exact ha j a h
  unfold sUpdateWith
  dsimp only
  obtain ⟨h1, h2, h3, h4, h5⟩ := sClauseUpdate_tidy cfg x j target c (al.getD j ([], 0)) g hc.1 hj.1
  refine ⟨⟨h1, ?_, ?_⟩, ?_, by simp⟩
  · intro e he
    rcases h3 e he with h | h
    · obtain ⟨e', he', h⟩ := List.mem_map.mp h
      rw [← h]; exact hc.2.1 e' he'
    · exact hPQ j _ (hj.2 _ h)
  · intro e he
    rcases h4 e he with h | h
    · obtain ⟨e', he', h⟩ := List.mem_map.mp h
      rw [← h]; exact hc.2.2 e' he'
    · exact hPQ j _ (hj.2 _ h)
  · intro k a hk
    rw [List.getElem?_set] at hk
    split at hk
    · rename_i hjk
      subst hjk
      split at hk
      · cases hk
        exact ⟨h2, fun l hl => (h5 l hl).elim (hj.2 l) (hx l)⟩
      · simp at hk
    · exact ha k a hk

theorem sBudgetGate_rows (cfg : SCfg) (c : SClause) :
    (sBudgetGate cfg c).pos = c.pos ∧ (sBudgetGate cfg c).neg = c.neg ∧ (sBudgetGate cfg c).w = c.w := by
  unfold sBudgetGate
  split
  · split <;> exact ⟨rfl, rfl, rfl⟩
  · exact ⟨rfl, rfl, rfl⟩

theorem clauseOk_congr (cfg : SCfg) (P : Nat → Prop) (c c' : SClause) (hp : c'.pos = c.pos) (hq : c'.neg = c.neg)
    (h : ClauseOk cfg P c) : ClauseOk cfg P c' := by
  unfold ClauseOk Tidy at *
  rw [hp, hq]
  exact h

theorem sTrainClause_ok (cfg : SCfg) (P : Nat → Prop) (Q : Nat → Nat → Prop) (hPQ : ∀ k l, Q k l → P l)
    (x : List Nat) (fb : Feedback) (c : SClause) (al : AL) (g : Rng)
    (hx : ∀ l ∈ x, Q fb.posClass l ∧ Q fb.negClass l) (hc : ClauseOk cfg P c) (ha : ALAll cfg Q al) :
    ClauseOk cfg P (sTrainClause cfg x fb c al g).1 ∧ ALAll cfg Q (sTrainClause cfg x fb c al g).2.1 ∧
    (sTrainClause cfg x fb c al g).2.1.length = al.length := by
  have hg := sBudgetGate_rows cfg c
  have hc' := clauseOk_congr cfg P c (sBudgetGate cfg c) hg.1 hg.2.1 hc
  unfold sTrainClause
  dsimp only
  have step : ClauseOk cfg P (if g.next.1 < fb.posProb then
        sUpdateWith cfg x fb.posClass 1 (sBudgetGate cfg c) al g.next.2 else (sBudgetGate cfg c, al, g.next.2)).1 ∧
      ALAll cfg Q (if g.next.1 < fb.posProb then
        sUpdateWith cfg x fb.posClass 1 (sBudgetGate cfg c) al g.next.2
          else (sBudgetGate cfg c, al, g.next.2)).2.1 ∧
      (if g.next.1 < fb.posProb then
        sUpdateWith cfg x fb.posClass 1 (sBudgetGate cfg c) al g.next.2
          else (sBudgetGate cfg c, al, g.next.2)).2.1.length = al.length := by
    split
    · exact sUpdateWith_ok cfg P Q hPQ x _ _ _ al _ (fun l hl => (hx l hl).1) hc' ha
    · exact ⟨hc', ha, rfl⟩
  generalize (if g.next.1 < fb.posProb then
        sUpdateWith cfg x fb.posClass 1 (sBudgetGate cfg c) al g.next.2
          else (sBudgetGate cfg c, al, g.next.2)) = a at step ⊢
  obtain ⟨s1, s2, s3⟩ := step
  split
  · obtain ⟨t1, t2, t3⟩ :=
      sUpdateWith_ok cfg P Q hPQ x fb.negClass (-1) a.1 a.2.1 a.2.2.next.2 (fun l hl => (hx l hl).2) s1 s2
    exact ⟨t1, t2, t3.trans s3⟩
  · exact ⟨s1, s2, s3⟩

theorem sTrainClauses_ok (cfg : SCfg) (P : Nat → Prop) (Q : Nat → Nat → Prop) (hPQ : ∀ k l, Q k l → P l)
    (x : List Nat) (fb : Feedback) (cs : List SClause) (al : AL) (g : Rng)
    (hx : ∀ l ∈ x, Q fb.posClass l ∧ Q fb.negClass l) (hc : ∀ c ∈ cs, ClauseOk cfg P c) (ha : ALAll cfg Q al) :
    (∀ c ∈ (sTrainClauses cfg x fb cs al g).1, ClauseOk cfg P c) ∧
    ALAll cfg Q (sTrainClauses cfg x fb cs al g).2.1 ∧
    (sTrainClauses cfg x fb cs al g).2.1.length = al.length ∧
    (sTrainClauses cfg x fb cs al g).1.length = cs.length := by
  induction cs generalizing al g with
  | nil => exact ⟨by simp [sTrainClauses], ha, rfl, rfl⟩
  | cons c cs ih =>
    unfold sTrainClauses
    dsimp only
    obtain ⟨s1, s2, s3⟩ := sTrainClause_ok cfg P Q hPQ x fb c al g hx (hc c (by simp)) ha
    obtain ⟨t1, t2, t3, t4⟩ := ih (sTrainClause cfg x fb c al g).2.1 (sTrainClause cfg x fb c al g).2.2
      (fun c hc' => hc c (List.mem_cons_of_mem _ hc')) s2
    refine ⟨?_, t2, t3.trans s3, by simp [t4]⟩
    intro c' hc'
    rcases List.mem_cons.mp hc' with h | h
    · subst h; exact s1
    · exact t1 c' h

theorem sSetClause_rows (cfg : SCfg) (x : List Nat) (c : SClause) :
    (sSetClause cfg x c).pos = c.pos ∧ (sSetClause cfg x c).neg = c.neg ∧ (sSetClause cfg x c).w = c.w := by
  unfold sSetClause
  split <;> exact ⟨rfl, rfl, rfl⟩

theorem sEvalClause_rows (x : List Nat) (c : SClause) :
    (sEvalClause x c).pos = c.pos ∧ (sEvalClause x c).neg = c.neg ∧ (sEvalClause x c).w = c.w ∧
    (sEvalClause x c).cnt = c.cnt := by
  unfold sEvalClause
  split <;> exact ⟨rfl, rfl, rfl, rfl⟩

/-- The block invariant after a history `ops`. -/
def SBlockOk (cfg : SCfg) (ops : List BlockOp) (b : SBlock) : Prop :=
  b.cfg = cfg ∧ (∀ c ∈ b.clauses, ClauseOk cfg (SeenIn ops) c) ∧ ALAll cfg (SeenWith ops) b.al

theorem sBlockOk_mono (cfg : SCfg) (ops : List BlockOp) (op : BlockOp) (b : SBlock) (h : SBlockOk cfg ops b) :
    SBlockOk cfg (ops ++ [op]) b := by
  obtain ⟨h0, h1, h2⟩ := h
  have hm : ∀ l, SeenIn ops l → SeenIn (ops ++ [op]) l := by
    rintro l ⟨x, fb, h, hl⟩
    exact ⟨x, fb, by simp [h], hl⟩
  have hw : ∀ k l, SeenWith ops k l → SeenWith (ops ++ [op]) k l := by
    rintro k l ⟨x, fb, h, hl⟩
    exact ⟨x, fb, by simp [h], hl⟩
  refine ⟨h0, fun c hc => ?_, fun k a hk => ?_⟩
  · obtain ⟨a, b, d⟩ := h1 c hc
    exact ⟨a, fun e he => hm _ (b e he), fun e he => hm _ (d e he)⟩
  · obtain ⟨a, b⟩ := h2 k a hk
    exact ⟨a, fun l hl => hw k l (b l hl)⟩

theorem apply_ok (cfg : SCfg) (ops : List BlockOp) (op : BlockOp) (b : SBlock) (h : SBlockOk cfg ops b) :
    SBlockOk cfg (ops ++ [op]) (b.apply op) := by
  have h' := sBlockOk_mono cfg ops op b h
  obtain ⟨h0, h1, h2⟩ := h'
  cases op with
  | trainExample x =>
    refine ⟨h0, ?_, h2⟩
    intro c hc
    simp only [SBlock.apply] at hc
    obtain ⟨c', hc', rfl⟩ := List.mem_map.mp hc
    have hr := sSetClause_rows b.cfg x c'
    exact clauseOk_congr cfg _ c' _ hr.1 hr.2.1 (h1 c' hc')
  | evalExample x =>
    refine ⟨h0, ?_, h2⟩
    intro c hc
    simp only [SBlock.apply] at hc
    obtain ⟨c', hc', rfl⟩ := List.mem_map.mp hc
    have hr := sEvalClause_rows x c'
    exact clauseOk_congr cfg _ c' _ hr.1 hr.2.1 (h1 c' hc')
  | trainUpdate x fb =>
    subst h0
    have := sTrainClauses_ok b.cfg (SeenIn (ops ++ [.trainUpdate x fb])) (SeenWith (ops ++ [.trainUpdate x fb]))
      (by rintro k l ⟨x, fb, h, hl, _⟩; exact ⟨x, fb, h, hl⟩) x fb b.clauses b.al b.fast
      (fun l hl => ⟨⟨x, fb, by simp, hl, Or.inl rfl⟩, ⟨x, fb, by simp, hl, Or.inr rfl⟩⟩) h1 h2
    exact ⟨rfl, this.1, this.2.1⟩

theorem run_ok (cfg : SCfg) (pre ops : List BlockOp) (b : SBlock) (h : SBlockOk cfg pre b) :
    SBlockOk cfg (pre ++ ops) (sRun b ops) := by
  induction ops generalizing pre b with
  | nil => simpa [sRun] using h
  | cons op ops ih =>
    have := ih (pre ++ [op]) (b.apply op) (apply_ok cfg pre op b h)
    simpa [sRun] using this

theorem initSparse_ok (nLits nClauses nClasses : Nat) (cfg : SCfg) (fastOf : Nat → Rng) (junk : Nat → Nat)
    (seed : Nat) (b : SBlock) (hb : initSparse nLits nClauses nClasses cfg fastOf junk seed = some b) :
    SBlockOk cfg [] b ∧ b.al.length = nClasses := by
  unfold initSparse at hb
  split at hb
  · simp at hb
  · split at hb
    · simp at hb
    · simp only [Option.some.injEq] at hb
      subst hb
      refine ⟨⟨rfl, ?_, ?_⟩, by simp⟩
      · intro c hc
        dsimp only at hc
        obtain ⟨i, hi, rfl⟩ := List.mem_mapIdx.mp hc
        simp [ClauseOk, Tidy, SortedHalf]
      · intro k a hk
        dsimp only at hk
        have := List.mem_of_getElem? hk
        rw [List.mem_replicate] at this
        rw [this.2]
        simp [ALOk]
        omega

end GT

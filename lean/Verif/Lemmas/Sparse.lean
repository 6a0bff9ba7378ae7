import Verif.Spec.Sparse
import Verif.Spec.Dense

/-!
# Lemmas about the sparse clause block
-/

namespace GT
open Spec

/-! ## Scans -/

theorem scanEval_eq (x : List Nat) (t : Nat) : scanEval x t = scanTrain x t := by
  induction x with
  | nil => rfl
  | cons l ls ih =>
    unfold scanEval scanTrain
    rw [ih]
    grind

theorem posEval_eq (last : Nat) (x : List Nat) (h : Half) : posEval last x h = posTrain last x h := by
  induction h with
  | nil => rfl
  | cons e h ih =>
    unfold posEval posTrain
    rw [ih, scanEval_eq]

theorem scanTrain_none (x : List Nat) (t : Nat) : scanTrain x t = none ↔ ∀ l ∈ x, l < t := by
  induction x with
  | nil => simp [scanTrain]
  | cons l ls ih =>
    unfold scanTrain
    rw [List.forall_mem_cons]
    split
    · simp; omega
    · split
      · rename_i h; rw [ih]; exact ⟨fun hh => ⟨h, hh⟩, fun hh => hh.2⟩
      · simp; omega

theorem scanTrain_true (x : List Nat) (t : Nat) (hx : SortedEx x) : scanTrain x t = some true ↔ t ∈ x := by
  induction x with
  | nil => simp [scanTrain]
  | cons l ls ih =>
    have h := List.pairwise_cons.mp hx
    unfold scanTrain
    have := ih h.2
    have h1 := h.1
    rw [List.mem_cons]
    split
    · grind
    · split
      · rw [this]; constructor
        · exact Or.inr
        · rintro (h | h); · omega
          · exact h
      · simp; left; omega

theorem scanNeg_true (x : List Nat) (t : Nat) (hx : SortedEx x) : scanNeg x t = true ↔ t ∈ x := by
  induction x with
  | nil => simp [scanNeg]
  | cons l ls ih =>
    have h := List.pairwise_cons.mp hx
    unfold scanNeg
    have := ih h.2
    have h1 := h.1
    rw [List.mem_cons]
    split
    · grind
    · split
      · rw [this]; grind
      · grind

theorem posTrain_spec (last : Nat) (x : List Nat) (hx : SortedEx x) (h : Half) :
    posTrain last x h = true ↔
      ∀ e ∈ h, 0 ≤ e.2 → e.1 ∈ x ∨ (e.1 ≠ last ∧ ∀ l ∈ x, l < e.1) := by
  induction h with
  | nil => simp [posTrain]
  | cons e h ih =>
    unfold posTrain
    rw [List.forall_mem_cons]
    split
    · rename_i he
      rw [ih]; constructor
      · exact fun hh => ⟨fun h0 => by omega, hh⟩
      · exact fun hh => hh.2
    · rename_i he
      have ht := scanTrain_true x e.1 hx
      have hn := scanTrain_none x e.1
      cases hs : scanTrain x e.1 with
      | none =>
        rw [hs] at ht hn
        have hn := hn.mp rfl
        have hnx : e.1 ∉ x := fun hh => by have := hn _ hh; omega
        dsimp only
        split
        · rename_i hl
          simp only [Bool.false_eq_true, false_iff]
          rintro ⟨h1, _⟩
          rcases h1 (by omega) with h | h
          · exact hnx h
          · exact h.1 hl
        · rename_i hl
          rw [ih]
          exact ⟨fun hh => ⟨fun _ => Or.inr ⟨hl, hn⟩, hh⟩, fun hh => hh.2⟩
      | some v =>
        rw [hs] at ht hn
        cases v with
        | true =>
          dsimp only
          rw [ih]
          exact ⟨fun hh => ⟨fun _ => Or.inl (ht.mp rfl), hh⟩, fun hh => hh.2⟩
        | false =>
          dsimp only
          simp only [Bool.false_eq_true, false_iff]
          rintro ⟨h1, _⟩
          rcases h1 (by omega) with h | h
          · exact absurd (ht.mpr h) (by simp)
          · exact absurd (hn.mpr h.2) (by simp)

theorem negLoop_spec (x : List Nat) (hx : SortedEx x) (h : Half) :
    negLoop x h = true ↔ ∀ e ∈ h, 0 ≤ e.2 → e.1 ∉ x := by
  induction h with
  | nil => simp [negLoop]
  | cons e h ih =>
    unfold negLoop
    rw [List.forall_mem_cons]
    have ht := scanNeg_true x e.1 hx
    split
    · rw [ih]; constructor
      · exact fun hh => ⟨fun h0 => by omega, hh⟩
      · exact fun hh => hh.2
    · split
      · rename_i he hs
        simp only [Bool.false_eq_true, false_iff]
        rintro ⟨h1, _⟩
        exact h1 (by omega) (ht.mp hs)
      · rename_i he hs
        rw [ih]
        exact ⟨fun hh => ⟨fun _ h => hs (ht.mpr h), hh⟩, fun hh => hh.2⟩

theorem countOn_eq (h : Half) : countOn h = (h.filter (fun e => decide (0 ≤ e.2))).length := by
  induction h with
  | nil => rfl
  | cons e h ih =>
    unfold countOn
    rw [List.filter_cons]
    by_cases h0 : 0 ≤ e.2
    · simp [h0, ih]
    · simp [h0, ih]

theorem isLast_iff (h : Half) (t : Nat) (hne : h ≠ []) : backLit h = t ↔ IsLast h t := by
  unfold backLit IsLast
  cases hl : h.getLast? with
  | none => simp_all
  | some v => simp

theorem mem_on (h : Half) (P : Nat → Prop) :
    (∀ e ∈ h, 0 ≤ e.2 → P e.1) ↔ ∀ t, On h t → P t := by
  constructor
  · rintro hh t ⟨v, hm, hv⟩
    exact hh (t, v) hm hv
  · rintro hh ⟨t, v⟩ hm hv
    exact hh t ⟨v, hm, hv⟩

/-! ## The dense view -/

theorem lookup_mem (h : Half) (i : Nat) (v : Int) (hl : h.lookup i = some v) : (i, v) ∈ h := by
  induction h with
  | nil => simp at hl
  | cons e h ih =>
    obtain ⟨a, b⟩ := e
    rw [List.lookup_cons] at hl
    by_cases hi : i = a
    · subst hi
      simp at hl
      simp [hl]
    · rw [beq_false_of_ne hi] at hl
      exact List.mem_cons_of_mem _ (ih hl)

theorem lookup_of_mem (h : Half) (i : Nat) (v : Int) (hs : SortedHalf h) (hm : (i, v) ∈ h) :
    h.lookup i = some v := by
  induction h with
  | nil => simp at hm
  | cons e h ih =>
    obtain ⟨a, b⟩ := e
    have hp := List.pairwise_cons.mp hs
    rw [List.lookup_cons]
    by_cases hi : i = a
    · subst hi
      simp
      rcases List.mem_cons.mp hm with h1 | h1
      · exact (Prod.mk.inj h1).2.symm
      · exact absurd (hp.1 _ h1) (by simp)
    · rw [beq_false_of_ne hi]
      rcases List.mem_cons.mp hm with h1 | h1
      · exact absurd (Prod.mk.inj h1).1 hi
      · exact ih hp.2 h1

theorem included_denseRow (n : Nat) (h : Half) (hs : SortedHalf h) (hn : ∀ e ∈ h, e.1 < n) (i : Nat) :
    Included (denseRow n h) i ↔ On h i := by
  unfold Included denseRow On
  constructor
  · rintro ⟨v, hv, h0⟩
    rw [List.getElem?_map] at hv
    by_cases hi : i < n
    · rw [List.getElem?_range hi] at hv
      simp at hv
      cases hl : h.lookup i with
      | none => rw [hl] at hv; simp at hv; omega
      | some w =>
        rw [hl] at hv
        simp at hv
        exact ⟨w, lookup_mem h i w hl, by omega⟩
    · rw [List.getElem?_eq_none (by simp; omega)] at hv
      simp at hv
  · rintro ⟨v, hm, h0⟩
    refine ⟨v, ?_, h0⟩
    rw [List.getElem?_map, List.getElem?_range (hn _ hm), Option.map_some, lookup_of_mem h i v hs hm]
    rfl

theorem denseEx_one (n : Nat) (x : List Nat) (i : Nat) : (denseEx n x)[i]? = some 1 ↔ i < n ∧ i ∈ x := by
  unfold denseEx
  rw [List.getElem?_map]
  by_cases hi : i < n
  · rw [List.getElem?_range hi]
    simp [hi]
  · rw [List.getElem?_eq_none (by simp; omega)]
    simp [hi]

theorem denseEx_zero (n : Nat) (x : List Nat) (i : Nat) : (denseEx n x)[i]? = some 0 ↔ i < n ∧ i ∉ x := by
  unfold denseEx
  rw [List.getElem?_map]
  by_cases hi : i < n
  · rw [List.getElem?_range hi]
    simp [hi]
  · rw [List.getElem?_eq_none (by simp; omega)]
    simp [hi]

theorem denseEx_binary (n : Nat) (x : List Nat) : Binary (denseEx n x) := by
  intro v hv
  unfold denseEx at hv
  obtain ⟨i, _, rfl⟩ := List.mem_map.mp hv
  split <;> simp

theorem denseEx_length (n : Nat) (x : List Nat) : (denseEx n x).length = n := by simp [denseEx]

theorem denseClause_shaped (n : Nat) (x : List Nat) (c : SClause) :
    Shaped (denseEx n x).length (denseClause n c) := by
  simp [Shaped, denseClause, denseRow, denseEx]

theorem satisfied_dense (n : Nat) (x : List Nat) (c : SClause) (hp : SortedHalf c.pos) (hq : SortedHalf c.neg)
    (hn : LitsBelow n c) :
    Satisfied (denseClause n c).pos (denseClause n c).neg (denseEx n x) ↔ SHolds c x := by
  unfold Satisfied SHolds denseClause
  dsimp only
  constructor
  · rintro ⟨h1, h2⟩
    refine ⟨fun t ht => ?_, fun t ht => ?_⟩
    · exact ((denseEx_one n x t).mp (h1 t ((included_denseRow n _ hp hn.1 t).mpr ht))).2
    · exact ((denseEx_zero n x t).mp (h2 t ((included_denseRow n _ hq hn.2 t).mpr ht))).2
  · rintro ⟨h1, h2⟩
    refine ⟨fun t ht => ?_, fun t ht => ?_⟩
    · have ho := (included_denseRow n _ hp hn.1 t).mp ht
      obtain ⟨v, hm, _⟩ := id ho
      exact (denseEx_one n x t).mpr ⟨hn.1 _ hm, h1 t ho⟩
    · have ho := (included_denseRow n _ hq hn.2 t).mp ht
      obtain ⟨v, hm, _⟩ := id ho
      exact (denseEx_zero n x t).mpr ⟨hn.2 _ hm, h2 t ho⟩

theorem emptyClause_dense (n : Nat) (c : SClause) (hp : SortedHalf c.pos) (hq : SortedHalf c.neg)
    (hn : LitsBelow n c) :
    EmptyClause (denseClause n c).pos (denseClause n c).neg ↔ (∀ t, ¬ On c.pos t) ∧ (∀ t, ¬ On c.neg t) := by
  unfold EmptyClause denseClause
  dsimp only
  simp only [included_denseRow n _ hp hn.1, included_denseRow n _ hq hn.2]

/-! ## Outputs -/

theorem sSetClause_out (cfg : SCfg) (x : List Nat) (c : SClause) (hx : SortedEx x) :
    ((sSetClause cfg x c).out = 1 ↔
      (∀ t, On c.pos t → t ∈ x ∨ (¬ IsLast c.pos t ∧ ∀ l ∈ x, l < t)) ∧ (∀ t, On c.neg t → t ∉ x)) ∧
    ((sSetClause cfg x c).out = 0 ∨ (sSetClause cfg x c).out = 1) := by
  unfold sSetClause
  split
  · rename_i h
    have h1 := List.length_eq_zero_iff.mp h.1
    have h2 := List.length_eq_zero_iff.mp h.2
    simp [h1, h2, On]
  · have hp := posTrain_spec (backLit c.pos) x hx c.pos
    have hq := negLoop_spec x hx c.neg
    rw [mem_on c.pos (fun t => t ∈ x ∨ (t ≠ backLit c.pos ∧ ∀ l ∈ x, l < t))] at hp
    rw [mem_on c.neg (fun t => t ∉ x)] at hq
    have he : ∀ t, On c.pos t → (t ≠ backLit c.pos ↔ ¬ IsLast c.pos t) := by
      rintro t ⟨v, hm, _⟩
      rw [← isLast_iff c.pos t (List.ne_nil_of_mem hm)]
      exact ⟨fun h h' => h h'.symm, fun h h' => h h'.symm⟩
    dsimp only
    constructor
    · have hp' : posTrain (backLit c.pos) x c.pos = true ↔
          ∀ t, On c.pos t → t ∈ x ∨ (¬ IsLast c.pos t ∧ ∀ l ∈ x, l < t) := by
        rw [hp]
        exact ⟨fun h t ho => (h t ho).imp_right (fun hh => ⟨(he t ho).mp hh.1, hh.2⟩),
          fun h t ho => (h t ho).imp_right (fun hh => ⟨(he t ho).mpr hh.1, hh.2⟩)⟩
      rw [← hp', ← hq, ← Bool.and_eq_true_iff]
      split <;> simp_all
    · split <;> simp

theorem sEvalClause_out (x : List Nat) (c : SClause) (hx : SortedEx x) :
    ((sEvalClause x c).out = 1 ↔ c.pos ≠ [] ∧ c.neg ≠ [] ∧
      (∀ t, On c.pos t → t ∈ x ∨ (¬ IsLast c.pos t ∧ ∀ l ∈ x, l < t)) ∧ (∀ t, On c.neg t → t ∉ x)) ∧
    ((sEvalClause x c).out = 0 ∨ (sEvalClause x c).out = 1) := by
  have ht := sSetClause_out ⟨none, false, false, 0, 0, 0, 0, 0⟩ x c hx
  unfold sEvalClause
  unfold sSetClause at ht
  split
  · rename_i h
    refine ⟨?_, by simp⟩
    simp only [Nat.zero_ne_one, false_iff]
    rintro ⟨h1, h2, _⟩
    rcases h with h | h
    · exact h1 (List.length_eq_zero_iff.mp h)
    · exact h2 (List.length_eq_zero_iff.mp h)
  · rename_i h
    rw [not_or] at h
    rw [if_neg (fun hh => h.1 hh.1)] at ht
    rw [posEval_eq]
    dsimp only at ht ⊢
    refine ⟨?_, ht.2⟩
    rw [ht.1]
    exact ⟨fun hh => ⟨fun h' => h.1 (by simp [h']), fun h' => h.2 (by simp [h']), hh⟩, fun hh => hh.2.2⟩

/-- When the scan of the positive half is reliable, the weakened condition is the conjunction. -/
theorem weak_iff (c : SClause) (x : List Nat) (hs : SortedHalf c.pos)
    (hl : ∀ t, IsLast c.pos t → On c.pos t ∨ ∃ l ∈ x, t ≤ l) :
    ((∀ t, On c.pos t → t ∈ x ∨ (¬ IsLast c.pos t ∧ ∀ l ∈ x, l < t)) ∧ (∀ t, On c.neg t → t ∉ x)) ↔
      SHolds c x := by
  unfold SHolds
  refine and_congr_left' ⟨fun h t ht => ?_, fun h t ht => Or.inl (h t ht)⟩
  rcases h t ht with h1 | ⟨h1, h2⟩
  · exact h1
  · exfalso
    obtain ⟨v, hm, hv⟩ := ht
    obtain ⟨e, he⟩ : ∃ e, c.pos.getLast? = some e := by
      cases hg : c.pos.getLast? with
      | none => rw [List.getLast?_eq_none_iff.mp hg] at hm; simp at hm
      | some e => exact ⟨e, rfl⟩
    have hlast : IsLast c.pos e.1 := by simp [IsLast, he]
    obtain ⟨ys, hys⟩ := List.getLast?_eq_some_iff.mp he
    have hlt : t < e.1 := by
      rw [hys] at hm hs
      rcases List.mem_append.mp hm with hm' | hm'
      · exact (List.pairwise_append.mp hs).2.2 _ hm' _ (by simp)
      · simp at hm'
        exact absurd (by rw [← hm'] at hlast; exact hlast) h1
    rcases hl _ hlast with ho | ⟨l, hlx, hle⟩
    · rcases h _ ho with h3 | ⟨h3, _⟩
      · have := h2 _ h3; omega
      · exact h3 hlast
    · have := h2 l hlx; omega

end GT

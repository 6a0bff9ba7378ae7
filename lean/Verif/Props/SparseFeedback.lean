import Verif.Lemmas.SparseRange
import Verif.Props.Sparse

/-!
# C59, C60, C61 and the sparse cases of C11, C12, C13: feedback in the sparse clause block
-/

namespace GT
open Spec

/-! ## C59: steps of the tracked literals -/

/-- C59, rewarding feedback: a clause that fires and should. Every tracked positive literal takes the step the
dense feedback would make - up when the example has it (always with boosting, else with its own draw against
`(s-1)/s`), down with a draw against `1/s` when it does not - and mirrored for the negated half; it then stays in the
clause if its state is not below the threshold, and the clause tracks nothing else. The weight moves one step away
from zero, one draw is used per literal that may move and is not boosted, and the untracked literals of the example
are offered to the active-literal list, in order. -/
theorem C59_reward (cfg : SCfg) (x : List Nat) (j : Nat) (target : Int) (c : SClause) (al : List Nat × Nat) (g : Rng)
    (hw : SRightlyFiring c j target) (hx : SortedEx x) (hp : SortedHalf c.pos) (hq : SortedHalf c.neg)
    (hb : ByteStates c) :
    let c' := (sClauseUpdate cfg x j target c al g).1
    (∀ t v, (t, v) ∈ c.pos → ∃ i, g.pos ≤ i ∧ ∀ v',
      v' = (if t ∈ x then climb cfg.boost cfg.sMin1Inv (g.draw i) v else sink cfg.sInv (g.draw i) v) →
        (∀ u, (t, u) ∈ c'.pos → u = v') ∧ (cfg.lowerTA ≤ v' → (t, v') ∈ c'.pos)) ∧
    (∀ t v, (t, v) ∈ c.neg → ∃ i, g.pos ≤ i ∧ ∀ v',
      v' = (if t ∈ x then sink cfg.sInv (g.draw i) v else climb cfg.boost cfg.sMin1Inv (g.draw i) v) →
        (∀ u, (t, u) ∈ c'.neg → u = v') ∧ (cfg.lowerTA ≤ v' → (t, v') ∈ c'.neg)) ∧
    (∀ e ∈ c'.pos, e.1 ∈ c.pos.map (·.1)) ∧ (∀ e ∈ c'.neg, e.1 ∈ c.neg.map (·.1)) ∧
    c'.w = c.w.set j (wrap16 (c.w.getD j 0 + target)) ∧
    (sClauseUpdate cfg x j target c al g).2.2.pos = g.pos + rewardDraws cfg x c ∧
    (sClauseUpdate cfg x j target c al g).2.1 =
      (x.filter (fun l => !decide (l ∈ c.pos.map (·.1)))).foldl (updateAL cfg) al := by
  have hn : x.Nodup := hx.imp (fun h => by omega)
  have hl := sT1a_lits cfg x c.pos c.neg al g
  dsimp only
  rw [sClauseUpdate_reward cfg x j target c al g hw]
  dsimp only
  have s1 := (sortedHalf_congr c.pos _ hl.1).mpr hp
  have s2 := (sortedHalf_congr c.neg _ hl.2).mpr hq
  refine ⟨?_, ?_, ?_, ?_, rfl, sT1a_pos cfg x hn c al g, ?_⟩
  · intro t v hm
    obtain ⟨i, hi, he⟩ := (sT1a_lookup cfg x hn c.pos c.neg al g t v (hb.1 _ hm).1 (hb.1 _ hm).2).1
      (lookup_of_mem _ _ _ hp hm)
    refine ⟨i, hi, ?_⟩
    rintro v' rfl
    refine ⟨fun u hu => ?_, fun ht => prune_keeps _ _ _ (lookup_mem _ _ _ he) ht⟩
    have := lookup_of_mem _ _ _ s1 ((prune_sublist _ _).subset hu)
    rw [he] at this
    exact (Option.some.inj this).symm
  · intro t v hm
    obtain ⟨i, hi, he⟩ := (sT1a_lookup cfg x hn c.pos c.neg al g t v (hb.2 _ hm).1 (hb.2 _ hm).2).2
      (lookup_of_mem _ _ _ hq hm)
    refine ⟨i, hi, ?_⟩
    rintro v' rfl
    refine ⟨fun u hu => ?_, fun ht => prune_keeps _ _ _ (lookup_mem _ _ _ he) ht⟩
    have := lookup_of_mem _ _ _ s2 ((prune_sublist _ _).subset hu)
    rw [he] at this
    exact (Option.some.inj this).symm
  · intro e he
    rw [← hl.1]
    exact List.mem_map_of_mem ((prune_sublist _ _).subset he)
  · intro e he
    rw [← hl.2]
    exact List.mem_map_of_mem ((prune_sublist _ _).subset he)
  · exact t1aLits_al_eq cfg x c.pos c.neg al g

/-- C59, forgetting feedback: a clause that should fire and does not. The `i`-th tracked literal is pushed down when
the `i`-th draw is at most `1/s` (positive half first); it stays if its state is not below the threshold, and the
clause tracks nothing else. Weights and active literals are unchanged. -/
theorem C59_forget (cfg : SCfg) (x : List Nat) (j : Nat) (target : Int) (c : SClause) (al : List Nat × Nat) (g : Rng)
    (hw : SWronglySilent c j target) (hp : SortedHalf c.pos) (hq : SortedHalf c.neg) (hb : ByteStates c) :
    let c' := (sClauseUpdate cfg x j target c al g).1
    (∀ i t v, c.pos[i]? = some (t, v) → ∀ v', v' = sink cfg.sInv (g.draw (g.pos + i)) v →
        (∀ u, (t, u) ∈ c'.pos → u = v') ∧ (cfg.lowerTA ≤ v' → (t, v') ∈ c'.pos)) ∧
    (∀ i t v, c.neg[i]? = some (t, v) → ∀ v', v' = sink cfg.sInv (g.draw (g.pos + c.pos.length + i)) v →
        (∀ u, (t, u) ∈ c'.neg → u = v') ∧ (cfg.lowerTA ≤ v' → (t, v') ∈ c'.neg)) ∧
    (∀ e ∈ c'.pos, e.1 ∈ c.pos.map (·.1)) ∧ (∀ e ∈ c'.neg, e.1 ∈ c.neg.map (·.1)) ∧
    c'.w = c.w ∧ (sClauseUpdate cfg x j target c al g).2.1 = al ∧
    (sClauseUpdate cfg x j target c al g).2.2 = ⟨g.draw, g.pos + c.pos.length + c.neg.length⟩ := by
  have hl := sT1b_lits cfg c.pos c.neg g
  dsimp only
  rw [sClauseUpdate_forget cfg x j target c al g hw]
  dsimp only
  have s1 := (sortedHalf_congr c.pos _ hl.1).mpr hp
  have s2 := (sortedHalf_congr c.neg _ hl.2).mpr hq
  refine ⟨?_, ?_, ?_, ?_, rfl, rfl, (sT1b_get cfg c.pos c.neg g 0 0 0 (by decide)).2.2⟩
  · rintro i t v hm v' rfl
    have he := List.mem_of_getElem?
      ((sT1b_get cfg c.pos c.neg g i t v (hb.1 _ (List.mem_of_getElem? hm)).2).1 hm)
    refine ⟨fun u hu => ?_, fun ht => prune_keeps _ _ _ he ht⟩
    have a := lookup_of_mem _ _ _ s1 ((prune_sublist _ _).subset hu)
    have b := lookup_of_mem _ _ _ s1 he
    rw [b] at a
    exact (Option.some.inj a).symm
  · rintro i t v hm v' rfl
    have he := List.mem_of_getElem?
      ((sT1b_get cfg c.pos c.neg g i t v (hb.2 _ (List.mem_of_getElem? hm)).2).2.1 hm)
    refine ⟨fun u hu => ?_, fun ht => prune_keeps _ _ _ he ht⟩
    have a := lookup_of_mem _ _ _ s2 ((prune_sublist _ _).subset hu)
    have b := lookup_of_mem _ _ _ s2 he
    rw [b] at a
    exact (Option.some.inj a).symm
  · intro e he
    rw [← hl.1]
    exact List.mem_map_of_mem ((prune_sublist _ _).subset he)
  · intro e he
    rw [← hl.2]
    exact List.mem_map_of_mem ((prune_sublist _ _).subset he)

/-- C59, rejecting feedback: a clause that fires and should not. A tracked literal that the example falsifies and
that is excluded goes up one step, all other tracked literals stay as they are; the only new literals are active
literals that the example falsifies (absent ones on the positive half, present ones on the negated half), with the
starting state `lower_ta_threshold + 5`. No random number is used, the active literals are unchanged and the weight
moves one step. -/
theorem C59_reject (cfg : SCfg) (x : List Nat) (j : Nat) (target : Int) (c : SClause) (al : List Nat × Nat) (g : Rng)
    (hw : SWronglyFiring c j target) (hb : ByteStates c) :
    let c' := (sClauseUpdate cfg x j target c al g).1
    (∀ t v, (t, v) ∈ c.pos → (t, if t ∉ x ∧ v < 0 then v + 1 else v) ∈ c'.pos) ∧
    (∀ t v, (t, v) ∈ c.neg → (t, if t ∈ x ∧ v < 0 then v + 1 else v) ∈ c'.neg) ∧
    (∀ t v, (t, v) ∈ c'.pos → (∃ w, (t, w) ∈ c.pos ∧ v = if t ∉ x ∧ w < 0 then w + 1 else w) ∨
      (t ∉ c.pos.map (·.1) ∧ t ∈ al.1 ∧ t ∉ x ∧ v = wrap8 (cfg.lowerTA + 5))) ∧
    (∀ t v, (t, v) ∈ c'.neg → (∃ w, (t, w) ∈ c.neg ∧ v = if t ∈ x ∧ w < 0 then w + 1 else w) ∨
      (t ∉ c.neg.map (·.1) ∧ t ∈ al.1 ∧ t ∈ x ∧ v = wrap8 (cfg.lowerTA + 5))) ∧
    c'.w = c.w.set j (wrap16 (c.w.getD j 0 + target)) ∧
    (sClauseUpdate cfg x j target c al g).2 = (al, g) := by
  dsimp only
  rw [sClauseUpdate_reject cfg x j target c al g hw]
  obtain ⟨h1, h2, h3, h4⟩ := mem_sT2 cfg x c.pos c.neg al.1 g (fun e he => (hb.1 e he).1) (fun e he => (hb.2 e he).1)
  exact ⟨h1, h2, h3, h4, rfl, rfl⟩

/-- C59: after rejecting feedback every active literal the example falsifies is tracked, or that half is full. -/
theorem C59_reject_tracks_active (cfg : SCfg) (x : List Nat) (j : Nat) (target : Int) (c : SClause)
    (al : List Nat × Nat) (g : Rng) (hw : SWronglyFiring c j target) (a : Nat) (ha : a ∈ al.1) :
    let c' := (sClauseUpdate cfg x j target c al g).1
    (a ∉ x → a ∈ c'.pos.map (·.1) ∨ cfg.clauseSize ≤ c'.pos.length) ∧
    (a ∈ x → a ∈ c'.neg.map (·.1) ∨ cfg.clauseSize ≤ c'.neg.length) := by
  dsimp only
  rw [sClauseUpdate_reject cfg x j target c al g hw]
  dsimp only
  have p1 := (sortHalf_spec (sT2 cfg x c.pos c.neg al.1 g).1).1
  have p2 := (sortHalf_spec (sT2 cfg x c.pos c.neg al.1 g).2).1
  rw [(p1.map _).mem_iff, (p2.map _).mem_iff, p1.length_eq, p2.length_eq]
  exact t2Active_room cfg x al.1 _ _ a ha

/-- C59: a clause that is silent and votes against the target, is not changed at all. -/
theorem C59_no_feedback (cfg : SCfg) (x : List Nat) (j : Nat) (target : Int) (c : SClause) (al : List Nat × Nat)
    (g : Rng) (ho : c.out ≠ 1)
    (h : (target = 1 ∧ c.w.getD j 0 < 0) ∨ (target = -1 ∧ 0 ≤ c.w.getD j 0)) :
    sClauseUpdate cfg x j target c al g = (c, al, g) := by
  rcases h with ⟨rfl, hw⟩ | ⟨rfl, hw⟩
  · have : ¬ (0 ≤ c.w.getD j 0) := by omega
    unfold sClauseUpdate
    simp only [ge_iff_le, this, ho, if_false, and_false]
    rw [if_neg (by decide)]
  · unfold sClauseUpdate
    simp only [ge_iff_le, hw, ho, if_true, if_false, and_false]
    rw [if_neg (by decide)]

/-- C59: from a fresh block, every state stays a byte in every history; with a threshold of at least -132 (the range
the default -40 is in) no state is below -127. -/
theorem C59_states_in_range (nLits nClauses nClasses : Nat) (cfg : SCfg) (fastOf : Nat → Rng)
    (junk : Nat → Nat) (seed : Nat) (b : SBlock)
    (hb : initSparse nLits nClauses nClasses cfg fastOf junk seed = some b) (ops : List BlockOp) :
    ∀ c ∈ (sRun b ops).clauses, ByteStates c ∧
      (-132 ≤ cfg.lowerTA → cfg.lowerTA ≤ 0 → ∀ e ∈ c.pos ++ c.neg, -127 ≤ e.2 ∧ e.2 ≤ 127) := by
  have hcfg : b.cfg = cfg := (initSparse_ok nLits nClauses nClasses cfg fastOf junk seed b hb).1.1
  have hempty : ∀ lo, ∀ c ∈ b.clauses, HIn lo c.pos ∧ HIn lo c.neg := by
    intro lo c hc
    obtain ⟨_, h, _⟩ := (initSparse_ok nLits nClauses nClasses cfg fastOf junk seed b hb).1
    obtain ⟨_, h1, h2⟩ := h c hc
    constructor
    · intro e he
      obtain ⟨x, fb, h, _⟩ := h1 e he
      simp at h
    · intro e he
      obtain ⟨x, fb, h, _⟩ := h2 e he
      simp at h
  intro c hc
  refine ⟨run_in (-128) (by omega) (by omega) b (by unfold wrap8; omega) ops (hempty _) c hc, ?_⟩
  intro h1 h2 e he
  have := run_in (-127) (by omega) (by omega) b (by rw [hcfg]; unfold wrap8; omega) ops (hempty _) c hc
  rcases List.mem_append.mp he with he | he
  · exact this.1 e he
  · exact this.2 e he

example : SRightlyFiring ⟨[(0, 3), (4, -2)], [(1, -1)], [2, -1], 1, 0⟩ 0 1 ∧
    SRightlyFiring ⟨[(0, 3), (4, -2)], [(1, -1)], [2, -1], 1, 0⟩ 1 (-1) ∧
    SWronglyFiring ⟨[(0, 3), (4, -2)], [(1, -1)], [2, -1], 1, 0⟩ 0 (-1) ∧
    SWronglySilent ⟨[(0, 3), (4, -2)], [(1, -1)], [2, -1], 0, 0⟩ 0 1 ∧
    ByteStates ⟨[(0, 3), (4, -2)], [(1, -1)], [2, -1], 1, 0⟩ := by
  refine ⟨⟨rfl, Or.inl ⟨rfl, by decide⟩⟩, ⟨rfl, Or.inr ⟨rfl, by decide⟩⟩, ⟨rfl, Or.inr ⟨rfl, by decide⟩⟩,
    ⟨rfl, Or.inl ⟨rfl, by decide⟩⟩, by unfold ByteStates; decide⟩

/-! ## C60: pruning -/

/-- C60: pruning never drops a literal whose state is at least the threshold, keeps the order, and drops every literal
below it that does not directly follow another one below it. Missing from the full claim: the literal after a dropped
one is skipped (`C60_literal_below_threshold_kept`). -/
theorem C60_prune_partial (t : Int) (h : Half) :
    (prune t h).Sublist h ∧ (∀ e ∈ h, t ≤ e.2 → e ∈ prune t h) ∧
    ((∀ i e e', h[i]? = some e → h[i + 1]? = some e' → e.2 < t → t ≤ e'.2) →
      prune t h = h.filter (fun e => decide (t ≤ e.2))) := by
  refine ⟨prune_sublist t h, fun e he ht => prune_keeps t h e he ht, ?_⟩
  suffices hh : ∀ (n : Nat) (h : Half), h.length ≤ n →
      (∀ (i : Nat) (e e' : Nat × Int), h[i]? = some e → h[i + 1]? = some e' → e.2 < t → t ≤ e'.2) →
      prune t h = h.filter (fun e => decide (t ≤ e.2)) from hh h.length h (Nat.le_refl _)
  intro n
  induction n with
  | zero =>
    intro h hn _
    have := List.length_eq_zero_iff.mp (Nat.le_zero.mp hn)
    subst this
    rfl
  | succ n ih =>
    intro h hn hadj
    match h with
    | [] => rfl
    | [e] =>
      rw [prune_cons, List.filter_cons]
      by_cases he : e.2 < t
      · have : ¬ t ≤ e.2 := by omega
        simp [he, this]
      · have : t ≤ e.2 := by omega
        simp [he, this, prune]
    | e :: e' :: h =>
      have htail : ∀ (i : Nat) (a a' : Nat × Int), (e' :: h)[i]? = some a → (e' :: h)[i + 1]? = some a' →
          a.2 < t → t ≤ a'.2 := fun i a a' h1 h2 => hadj (i + 1) a a' (by simpa using h1) (by simpa using h2)
      rw [prune_cons]
      by_cases he : e.2 < t
      · have h1 : ¬ t ≤ e.2 := by omega
        have h2 := hadj 0 e e' rfl rfl he
        rw [if_pos he, List.filter_cons, List.filter_cons]
        simp only [h1, h2, decide_true, decide_false, if_true]
        rw [ih h (by simp at hn; omega)
          (fun i a a' h1 h2 => htail (i + 1) a a' (by simpa using h1) (by simpa using h2))]
        simp
      · have h1 : t ≤ e.2 := by omega
        rw [if_neg he, List.filter_cons]
        simp only [h1, decide_true, if_true]
        rw [ih (e' :: h) (by simp at hn ⊢; omega) htail]

/-- C60 is false as stated: forgetting feedback takes two neighbouring literals below the threshold, and pruning
drops only the first. -/
theorem C60_literal_below_threshold_kept :
    let c : SClause := ⟨[(0, -6), (1, -6)], [], [1], 0, 0⟩
    Tidy exSCfg3 c ∧ SWronglySilent c 0 1 ∧ (∀ e ∈ c.pos, exSCfg3.lowerTA ≤ e.2) ∧
      (sClauseUpdate exSCfg3 [] 0 1 c ([], 0) exQuarter).1.pos = [(1, -7)] ∧ (-7 : Int) < exSCfg3.lowerTA := by
  refine ⟨by decide, ⟨rfl, Or.inl ⟨rfl, by decide⟩⟩, by decide, by decide +kernel, by decide⟩

example : prune (-6) [(0, -7), (1, 3), (2, -7), (3, -6)] = [(1, 3), (3, -6)] := by decide

/-! ## C61: new literals -/

/-- C61: a literal newly tracked by rejecting feedback starts excluded, five steps above the pruning threshold,
provided the threshold is between -133 and -6. Missing from the full claim: the accepted thresholds outside
(`C61_threshold_near_zero`, `C61_very_low_threshold`). -/
theorem C61_new_literal_excluded_partial (cfg : SCfg) (h1 : -133 ≤ cfg.lowerTA) (h2 : cfg.lowerTA ≤ -6)
    (x : List Nat) (j : Nat) (target : Int) (c : SClause) (al : List Nat × Nat) (g : Rng)
    (hw : SWronglyFiring c j target) (hb : ByteStates c) (t : Nat) (v : Int)
    (hm : (t, v) ∈ (sClauseUpdate cfg x j target c al g).1.pos ∧ t ∉ c.pos.map (·.1) ∨
      (t, v) ∈ (sClauseUpdate cfg x j target c al g).1.neg ∧ t ∉ c.neg.map (·.1)) :
    v < 0 ∧ v = cfg.lowerTA + 5 := by
  obtain ⟨_, _, h3, h4, _⟩ := C59_reject cfg x j target c al g hw hb
  have key : v = wrap8 (cfg.lowerTA + 5) := by
    rcases hm with ⟨hm, hn⟩ | ⟨hm, hn⟩
    · rcases h3 t v hm with ⟨w, hw, _⟩ | h
      · exact absurd (List.mem_map_of_mem (f := (·.1)) hw) hn
      · exact h.2.2.2
    · rcases h4 t v hm with ⟨w, hw, _⟩ | h
      · exact absurd (List.mem_map_of_mem (f := (·.1)) hw) hn
      · exact h.2.2.2
  subst key
  unfold wrap8
  omega

/-- C61: a threshold of -3, which the machine accepts, makes a new literal included at once: the clause that was just
told to stop firing on the example by tracking a literal changes on all examples. -/
theorem C61_threshold_near_zero :
    (sClauseUpdate { exSCfg3 with lowerTA := -3 } [] 0 1 ⟨[], [], [-1], 1, 0⟩ ([4], 0) exQuarter).1.pos =
      [(4, 2)] := by decide +kernel

/-- C61: below -133 the starting state wraps around in its byte: with -200 a new literal starts strongly included. -/
theorem C61_very_low_threshold :
    (sClauseUpdate { exSCfg3 with lowerTA := -200 } [] 0 1 ⟨[], [], [-1], 1, 0⟩ ([4], 0) exQuarter).1.pos =
      [(4, 61)] := by decide +kernel

example : SWronglyFiring ⟨[], [], [-1], 1, 0⟩ 0 1 := ⟨rfl, Or.inl ⟨rfl, by decide⟩⟩

/-! ## C11, C12, C13 for the sparse block -/

/-- C12, sparse block: exact effect of one training step on one weight, as in `C12_training_step`; "fires" is the
training output of `C37_train_exact`. Each clause makes two decisions with draws of the block's generator, the second
after the first. -/
theorem C12_sparse_training_step (b : SBlock) (x : List Nat) (fb : Feedback) (i : Nat) (c : SClause)
    (hc : b.clauses[i]? = some c) (j : Nat) (w : Int) (hw : c.w[j]? = some w) (h1 : -32768 < w) (h2 : w < 32767) :
    ∃ c', (b.trainStep x fb).clauses[i]? = some c' ∧
      ∃ (k k' : Nat) (up down : Int), b.fast.pos ≤ k ∧ k < k' ∧ c'.w[j]? = some (w + up - down) ∧
        (up = 0 ∨ up = 1) ∧ (down = 0 ∨ down = 1) ∧
        (up = 1 ↔ j = fb.posClass ∧ (sSetClause b.cfg x c).out = 1 ∧
          (∀ m, b.cfg.budget = some m →
            (c.pos.filter (fun e => decide (0 ≤ e.2))).length + (c.neg.filter (fun e => decide (0 ≤ e.2))).length ≤ m) ∧
          b.fast.draw k < fb.posProb) ∧
        (down = 1 ↔ j = fb.negClass ∧ (sSetClause b.cfg x c).out = 1 ∧
          (∀ m, b.cfg.budget = some m →
            (c.pos.filter (fun e => decide (0 ≤ e.2))).length + (c.neg.filter (fun e => decide (0 ≤ e.2))).length ≤ m) ∧
          b.fast.draw k' < fb.negProb) := by
  have hc1 : (b.apply (.trainExample x)).clauses[i]? = some (sSetClause b.cfg x c) := by
    simp [SBlock.apply, hc]
  obtain ⟨al', g', hl, he⟩ := sTrainClauses_get b.cfg x fb _ b.al b.fast i _ hc1
  obtain ⟨k', hk, hw'⟩ := sTrainClause_w b.cfg x fb (sSetClause b.cfg x c) al' g'
  have hfire : (sBudgetGate b.cfg (sSetClause b.cfg x c)).out = 1 ↔ (sSetClause b.cfg x c).out = 1 ∧
      (∀ m, b.cfg.budget = some m →
        (c.pos.filter (fun e => decide (0 ≤ e.2))).length + (c.neg.filter (fun e => decide (0 ≤ e.2))).length ≤ m) := by
    rw [sBudgetGate_out]
    refine and_congr_right fun _ => forall_congr' fun m => ?_
    constructor
    · intro h hm
      have := h hm
      rwa [C37_literal_count b.cfg x c (by simp [hm])] at this
    · intro h hm
      rw [C37_literal_count b.cfg x c (by simp [hm])]
      exact h hm
  refine ⟨_, he, g'.pos, k',
    (if j = fb.posClass ∧ (sBudgetGate b.cfg (sSetClause b.cfg x c)).out = 1 ∧ g'.draw g'.pos < fb.posProb then 1 else 0),
    (if j = fb.negClass ∧ (sBudgetGate b.cfg (sSetClause b.cfg x c)).out = 1 ∧ g'.draw k' < fb.negProb then 1 else 0),
    hl.2, hk, ?_, ?_, ?_, ?_, ?_⟩
  · rw [hw', (sSetClause_rows b.cfg x c).2.2]
    exact bump2_get _ j fb.posClass fb.negClass w _ _ hw h1 h2
  · split <;> simp
  · split <;> simp
  · rw [← hl.1]; grind
  · rw [← hl.1]; grind

/-- C11, sparse block: a clause with more included literals than its budget keeps its weights, tracks no new literal
and has no state raised in the training step. -/
theorem C11_sparse_over_budget_only_forgets (b : SBlock) (x : List Nat) (fb : Feedback) (i : Nat) (c : SClause)
    (hc : b.clauses[i]? = some c) (m : Nat) (hm : b.cfg.budget = some m)
    (ho : m < (c.pos.filter (fun e => decide (0 ≤ e.2))).length + (c.neg.filter (fun e => decide (0 ≤ e.2))).length) :
    ∃ c', (b.trainStep x fb).clauses[i]? = some c' ∧ c'.w = c.w ∧
      (∀ t v', (t, v') ∈ c'.pos → ∃ v, (t, v) ∈ c.pos ∧ v' ≤ v) ∧
      (∀ t v', (t, v') ∈ c'.neg → ∃ v, (t, v) ∈ c.neg ∧ v' ≤ v) := by
  have hc1 : (b.apply (.trainExample x)).clauses[i]? = some (sSetClause b.cfg x c) := by
    simp [SBlock.apply, hc]
  obtain ⟨al', g', hl, he⟩ := sTrainClauses_get b.cfg x fb _ b.al b.fast i _ hc1
  have hs : (sBudgetGate b.cfg (sSetClause b.cfg x c)).out ≠ 1 := by
    rw [Ne, sBudgetGate_out]
    rintro ⟨_, h⟩
    have := h m hm
    rw [C37_literal_count b.cfg x c (by simp [hm])] at this
    omega
  obtain ⟨a1, a2, a3, _⟩ := sTrainClause_silent b.cfg x fb (sSetClause b.cfg x c) al' g' hs
  have hr := sSetClause_rows b.cfg x c
  rw [hr.1] at a1
  rw [hr.2.1] at a2
  rw [hr.2.2] at a3
  exact ⟨_, he, a3, a1, a2⟩

/-- C13, sparse block: the votes of a class are the sum of its weights over the firing clauses, modulo 16 bits. -/
theorem C13_sparse_votes (n : Nat) (cs : List SClause) (hw : ∀ c ∈ cs, c.w.length = n) (k : Nat) (hk : k < n) :
    (sCountVotes n cs)[k]? = some (wrap16 (sVoteSum cs k)) := by
  rw [sCountVotes_dense n 0, C13_votes_mod n _ _ k hk, sVoteSum_dense]
  intro c hc
  obtain ⟨c', hc', rfl⟩ := List.mem_map.mp hc
  exact hw c' hc'

example : ∃ c, (exSBlock exSCfg).clauses[0]? = some c ∧ c.w[1]? = some (-1) := ⟨_, rfl, by decide +kernel⟩
example : sCountVotes 2 [⟨[], [], [3, -1], 1, 0⟩, ⟨[], [], [5, 5], 0, 0⟩, ⟨[], [], [-1, 4], 1, 0⟩] = [2, 3] := by
  decide

end GT

import Verif.Spec.Pace
import Verif.Lemmas.PaceOver
import Verif.Lemmas.PaceVec
import Verif.Lemmas.PaceSparse
import Verif.Lemmas.EndToEnd
import Verif.Props.Executor
import Verif.Props.Moved

/-!
# C106: how far training can move a machine

A program trains and predicts in any order. `examplesShown us` examples later no weight has moved by more than that many steps, so none can have left
its 16 bits before, and as long as the clauses are few enough the predictions are those of the true vote sums.
-/

namespace GT
open Spec

/-! ### Weights -/

/-- C106: on the portable backend, whatever is trained and predicted in whatever order, with any generators, no weight moves by more than the
number of examples trained on. -/
theorem C106_portable (e : Exec DBlock) (smp : List Rat → Rat → Nat) (us : List (TMUse (List Nat))) :
    List.Forall₂ (fun b b' => MovedAtMost (examplesShown us) (weightsOf b) (weightsOf b')) e.blocks (afterUses denseBackend smp us e).blocks :=
  Pace.uses_paced Pace.dense_paced smp us e

/-- C106 on the AVX2 backend. -/
theorem C106_avx2 (e : Exec VBlock) (smp : List Rat → Rat → Nat) (us : List (TMUse Mem)) :
    List.Forall₂ (fun b b' => MovedAtMost (examplesShown us) (avxWeightsOf b) (avxWeightsOf b')) e.blocks (afterUses avxBackend smp us e).blocks :=
  Pace.uses_paced Pace.avx_paced smp us e

/-- C106 on the NEON backend, for blocks that did not crash. -/
theorem C106_neon (e : Exec (Option NBlock)) (smp : List Rat → Rat → Nat) (us : List (TMUse Mem)) :
    List.Forall₂ (fun b b' => ∀ d', b' = some d' → ∃ d, b = some d ∧ MovedAtMost (examplesShown us) (neonWeightsOf d) (neonWeightsOf d'))
      e.blocks (afterUses neonBackend smp us e).blocks :=
  Pace.uses_paced Pace.neon_paced smp us e

/-- C106 on the sparse backend. -/
theorem C106_sparse (e : Exec SBlock) (smp : List Rat → Rat → Nat) (us : List (TMUse (List Nat))) :
    List.Forall₂ (fun b b' => MovedAtMost (examplesShown us) (sparseWeightsOf b) (sparseWeightsOf b')) e.blocks
      (afterUses sparseBackend smp us e).blocks :=
  Pace.uses_paced Pace.sparse_paced smp us e

/-- C106 for portable convolutional blocks: the number of patches plays no part. -/
theorem C106_conv (e : Exec ConvBlock) (smp : List Rat → Rat → Nat) (us : List (TMUse (List Nat))) :
    List.Forall₂ (fun b b' => MovedAtMost (examplesShown us) (convWeightsOf b) (convWeightsOf b')) e.blocks (afterUses convBackend smp us e).blocks :=
  Pace.uses_paced Pace.conv_paced smp us e

/-- C106 for AVX2 convolutional blocks. -/
theorem C106_avx2_conv (e : Exec VConvBlock) (smp : List Rat → Rat → Nat) (us : List (TMUse Mem)) :
    List.Forall₂ (fun b b' => MovedAtMost (examplesShown us) (avxConvWeightsOf b) (avxConvWeightsOf b')) e.blocks
      (afterUses avxConvBackend smp us e).blocks :=
  Pace.uses_paced Pace.avxConv_paced smp us e

/-- C106: a bound on all weights grows by at most 1 per example. -/
theorem C106_bound_grows (n bound : Nat) (rows rows' : List (List Int)) (h : MovedAtMost n rows rows') (hw : WeightsWithin bound rows)
    (hn : bound + n ≤ 32767) : WeightsWithin (bound + n) rows' := by
  intro row hrow w hm
  obtain ⟨r, hr, hrr⟩ := forall₂_right h row hrow
  obtain ⟨v, hv, hvw⟩ := forall₂_right hrr w hm
  have h1 := hw r hr v hv
  have h2 := hvw (by omega)
  omega
where
  forall₂_right {α : Type} {R : α → α → Prop} : ∀ {l m : List α}, List.Forall₂ R l m → ∀ y ∈ m, ∃ x ∈ l, R x y := by
    intro l m h
    induction h with
    | nil => intro y hy; cases hy
    | cons r _ ih =>
      intro y hy
      rcases List.mem_cons.1 hy with rfl | hy
      · exact ⟨_, List.mem_cons_self .., r⟩
      · obtain ⟨x, hx, hr⟩ := ih y hy
        exact ⟨x, List.mem_cons_of_mem _ hx, hr⟩

/-- C106: the weights of a fresh portable block are 1 and -1, on every seed and with every generator. -/
theorem C106_fresh_portable (nLits nClauses nClasses : Nat) (cfg : Cfg) (fastOf rngOf : Nat → Rng) (junk : Nat → Nat) (seed : Nat) (b : DBlock)
    (h : initTM nLits nClauses nClasses cfg fastOf rngOf junk seed = some b) : WeightsWithin 1 (weightsOf b) := by
  unfold initTM at h
  split at h
  · cases h
  · cases h
    intro row hrow w hw
    simp only [weightsOf, List.mem_map, List.mem_mapIdx] at hrow
    obtain ⟨c, ⟨i, hi, rfl⟩, rfl⟩ := hrow
    have hm : ((initRows nLits nClauses (rngOf seed)).1.zip (initAllWeights nClasses nClauses (fastOf seed)).1)[i].2 ∈
        (initAllWeights nClasses nClauses (fastOf seed)).1 := (List.of_mem_zip (List.getElem_mem hi)).2
    have := ((initAllWeights_spec nClasses nClauses (fastOf seed)).2 _ hm).2 w hw
    omega

/-- C106: the weights of a fresh AVX2 block are 1 and -1. -/
theorem C106_fresh_avx2 (nClauses nClasses : Nat) (cfg : VCfg) (fastOf : Nat → Rng) (vrngOf : Nat → VRng) (junk : Nat → Mem) (junkCnt : Nat → Nat)
    (seed : Nat) (b : VBlock) (h : avxInit nClauses nClasses cfg fastOf vrngOf junk junkCnt seed = some b) : WeightsWithin 1 (avxWeightsOf b) := by
  unfold avxInit at h
  split at h
  · cases h
  · cases h
    intro row hrow w hw
    simp only [avxWeightsOf, List.mem_map, List.mem_mapIdx] at hrow
    obtain ⟨c, ⟨i, hi, rfl⟩, rfl⟩ := hrow
    have hm := (List.of_mem_zip (List.getElem_mem hi)).2
    have := ((initAllWeights_spec _ _ _).2 _ hm).2 w hw
    omega

/-- C106: the weights of a fresh sparse block are 1 and -1. -/
theorem C106_fresh_sparse (nLits nClauses nClasses : Nat) (cfg : SCfg) (fastOf : Nat → Rng) (junk : Nat → Nat) (seed : Nat) (b : SBlock)
    (h : initSparse nLits nClauses nClasses cfg fastOf junk seed = some b) : WeightsWithin 1 (sparseWeightsOf b) := by
  unfold initSparse at h
  split at h
  · cases h
  · split at h
    · cases h
    · cases h
      intro row hrow w hw
      simp only [sparseWeightsOf, List.mem_map, List.mem_mapIdx] at hrow
      obtain ⟨c, ⟨i, hi, rfl⟩, rfl⟩ := hrow
      have := ((initAllWeights_spec _ _ _).2 _ (List.getElem_mem hi)).2 w hw
      omega

/-- C106: the weights of a fresh NEON block are 1 and -1. -/
theorem C106_fresh_neon (nClauses nClasses : Nat) (cfg : VCfg) (fastOf rngOf : Nat → Rng) (vrngOf : Nat → VRng) (junk : Nat → Mem)
    (junkCnt : Nat → Nat) (seed : Nat) (b : NBlock) (h : neonInit nClauses nClasses cfg fastOf rngOf vrngOf junk junkCnt seed = some b) :
    WeightsWithin 1 (neonWeightsOf b) := by
  have row : ∀ (n : Nat) (g : Rng), ∀ v ∈ (neonInitWeights n g).1, v = 1 ∨ v = -1 := by
    intro n
    induction n with
    | zero => intro g v hv; cases hv
    | succ n ih =>
      intro g v hv
      simp only [neonInitWeights, List.mem_cons] at hv
      rcases hv with rfl | hv
      · split <;> simp
      · exact ih _ v hv
  have rows : ∀ (k : Nat) (g : Rng), ∀ r ∈ (neonInitAllWeights nClasses k g).1, ∀ v ∈ r, v = 1 ∨ v = -1 := by
    intro k
    induction k with
    | zero => intro g r hr; cases hr
    | succ k ih =>
      intro g r hr
      simp only [neonInitAllWeights, List.mem_cons] at hr
      rcases hr with rfl | hr
      · exact row _ _
      · exact ih _ r hr
  unfold neonInit at h
  split at h
  · cases h
  · cases h
    intro r hr w hw
    simp only [neonWeightsOf, List.mem_map, List.mem_mapIdx] at hr
    obtain ⟨c, ⟨i, hi, rfl⟩, rfl⟩ := hr
    have := rows _ _ _ (List.of_mem_zip (List.getElem_mem hi)).2 w hw
    omega

/-! ### Literals -/

/-- C106 for the states of literals, portable backend: each example moves a state by at most 2 (once for the label, once for the negative class). -/
theorem C106_literals (e : Exec DBlock) (smp : List Rat → Rat → Nat) (us : List (TMUse (List Nat))) :
    List.Forall₂ (fun b b' => List.Forall₂ (fun c c' : Clause => StatesMovedAtMost (2 * examplesShown us) c.pos c'.pos ∧
        StatesMovedAtMost (2 * examplesShown us) c.neg c'.neg) b.clauses b'.clauses)
      e.blocks (afterUses denseBackend smp us e).blocks :=
  Pace.uses_paced Pace.dense_states smp us e

/-- C106 for the states of literals of AVX2 blocks: the bytes of the padded rows, the padding with them. -/
theorem C106_avx2_literals (e : Exec VBlock) (smp : List Rat → Rat → Nat) (us : List (TMUse Mem)) :
    List.Forall₂ (fun b b' => List.Forall₂ (fun c c' : VClause => BytesMovedAtMost (2 * examplesShown us) c.row c'.row) b.clauses b'.clauses)
      e.blocks (afterUses avxBackend smp us e).blocks := by
  refine List.Forall₂.imp (fun b b' h => ?_) (Pace.uses_paced Pace.avx_rows smp us e)
  exact (List.forall₂_map_right_iff.1 (List.forall₂_map_left_iff.1 h))

/-- C106 for the states of literals of NEON blocks that did not crash. -/
theorem C106_neon_literals (e : Exec (Option NBlock)) (smp : List Rat → Rat → Nat) (us : List (TMUse Mem)) :
    List.Forall₂ (fun b b' => ∀ d', b' = some d' → ∃ d, b = some d ∧
        List.Forall₂ (fun c c' : VClause => BytesMovedAtMost (2 * examplesShown us) c.row c'.row) d.clauses d'.clauses)
      e.blocks (afterUses neonBackend smp us e).blocks := by
  refine List.Forall₂.imp (fun b b' h d' hd => ?_) (Pace.uses_paced Pace.neon_rows smp us e)
  obtain ⟨d, h1, h2⟩ := h d' hd
  exact ⟨d, h1, (List.forall₂_map_right_iff.1 (List.forall₂_map_left_iff.1 h2))⟩

/-- C106 for the states of literals of portable convolutional blocks. -/
theorem C106_conv_literals (e : Exec ConvBlock) (smp : List Rat → Rat → Nat) (us : List (TMUse (List Nat))) :
    List.Forall₂ (fun b b' => List.Forall₂ (fun c c' : ConvClause => StatesMovedAtMost (2 * examplesShown us) c.base.pos c'.base.pos ∧
        StatesMovedAtMost (2 * examplesShown us) c.base.neg c'.base.neg) b.clauses b'.clauses)
      e.blocks (afterUses convBackend smp us e).blocks := by
  refine List.Forall₂.imp (fun b b' h => ?_) (Pace.uses_paced Pace.conv_states smp us e)
  exact (List.forall₂_map_right_iff.1 (List.forall₂_map_left_iff.1 h))

/-- C106 for the states of literals of AVX2 convolutional blocks. -/
theorem C106_avx2_conv_literals (e : Exec VConvBlock) (smp : List Rat → Rat → Nat) (us : List (TMUse Mem)) :
    List.Forall₂ (fun b b' => List.Forall₂ (fun c c' : VConvClause => BytesMovedAtMost (2 * examplesShown us) c.base.row c'.base.row)
        b.clauses b'.clauses)
      e.blocks (afterUses avxConvBackend smp us e).blocks := by
  refine List.Forall₂.imp (fun b b' h => ?_) (Pace.uses_paced Pace.avxConv_rows smp us e)
  exact (List.forall₂_map_right_iff.1 (List.forall₂_map_left_iff.1 h))

/-- C106 for the states of literals of sparse blocks, on examples that name no literal twice: clauses drop and take up literals, and one taken up
starts five steps above the threshold for dropping (in a byte). -/
theorem C106_sparse_literals (e : Exec SBlock) (smp : List Rat → Rat → Nat) (us : List (TMUse (List Nat))) (hu : ∀ u ∈ us, u.All List.Nodup) :
    List.Forall₂ (fun b b' => List.Forall₂ (fun c c' : SClause =>
        EntriesMovedAtMost (2 * examplesShown us) (wrap8 (b.cfg.lowerTA + 5)) c.pos c'.pos ∧
        EntriesMovedAtMost (2 * examplesShown us) (wrap8 (b.cfg.lowerTA + 5)) c.neg c'.neg) b.clauses b'.clauses)
      e.blocks (afterUses sparseBackend smp us e).blocks :=
  List.Forall₂.imp (fun _ _ h => h.2) (Pace.on_uses Pace.sparse_entries smp us hu e)

theorem Pace.forall₂_at {α : Type} {R : α → α → Prop} {l m : List α} (h : List.Forall₂ R l m) : ∀ (i : Nat) (x : α), l[i]? = some x →
    ∃ y, m[i]? = some y ∧ R x y := by
  induction h with
  | nil => intro i x hx; simp at hx
  | cons h _ ih =>
    intro i x hx
    cases i with
    | zero => simp only [List.getElem?_cons_zero, Option.some.injEq] at hx; subst hx; exact ⟨_, rfl, h⟩
    | succ i => exact ih i x (by simpa using hx)

/-- C106: a literal that a sparse clause does not track cannot be demanded by that clause before the training has shown enough examples: with the
default threshold of -40, not within 17 examples. The two parts are the literal and its negation. -/
theorem C106_sparse_new_literal (e : Exec SBlock) (smp : List Rat → Rat → Nat) (us : List (TMUse (List Nat))) (hu : ∀ u ∈ us, u.All List.Nodup)
    (i j : Nat) (b : SBlock) (c : SClause) (hb : e.blocks[i]? = some b) (hc : b.clauses[j]? = some c)
    (hs : ∀ e, e ∈ c.pos ∨ e ∈ c.neg → -128 ≤ e.2 ∧ e.2 ≤ 127) (hn : 2 * (examplesShown us : Int) < -wrap8 (b.cfg.lowerTA + 5)) (l : Nat) :
    ∃ b' c', (afterUses sparseBackend smp us e).blocks[i]? = some b' ∧ b'.clauses[j]? = some c' ∧
      ((∀ e ∈ c.pos, e.1 ≠ l) → ∀ e ∈ c'.pos, e.1 = l → e.2 < 0) ∧ ((∀ e ∈ c.neg, e.1 ≠ l) → ∀ e ∈ c'.neg, e.1 = l → e.2 < 0) := by
  have late : ∀ h h' : List (Nat × Int), EntriesMovedAtMost (2 * examplesShown us) (wrap8 (b.cfg.lowerTA + 5)) h h' →
      (∀ e ∈ h, -128 ≤ e.2 ∧ e.2 ≤ 127) → (∀ e ∈ h, e.1 ≠ l) → ∀ e ∈ h', e.1 = l → e.2 < 0 := by
    rintro h h' hm hb hl e he rfl
    obtain ⟨-, h1⟩ := hm hb e he
    rcases h1 with ⟨d, hd, h2, -⟩ | h1
    · exact absurd h2 (hl d hd)
    · omega
  obtain ⟨b', hb', h1⟩ := Pace.forall₂_at (C106_sparse_literals e smp us hu) i b hb
  obtain ⟨c', hc', h2, h3⟩ := Pace.forall₂_at h1 j c hc
  exact ⟨b', c', hb', hc', late _ _ h2 fun e he => hs e (.inl he), late _ _ h3 fun e he => hs e (.inr he)⟩

/-- The default threshold with 17 examples, none of which repeats a literal. -/
example : ∀ us, us = [TMUse.epoch id (List.replicate 9 (([3, 5] : List Nat), 0)), .predict [[3]], .epoch List.reverse (List.replicate 8 ([9], 1))] →
    2 * (examplesShown us : Int) < -wrap8 (-40 + 5) ∧ ∀ u ∈ us, u.All List.Nodup := by
  rintro us rfl
  refine ⟨by decide, ?_⟩
  simp only [List.forall_mem_cons]
  exact ⟨by unfold TMUse.All; decide, by unfold TMUse.All; decide, by unfold TMUse.All; decide, by simp⟩

theorem Pace.included_kept {n : Nat} {l l' : List Int} (h : StatesMovedAtMost n l l')
    (hl : ∀ v ∈ l, -128 ≤ v ∧ v ≤ 127 ∧ ((n : Int) ≤ v ∨ v < -(n : Int))) : ∀ i, Included l' i ↔ Included l i := by
  induction h with
  | nil => intro i; exact Iff.rfl
  | cons h _ ih =>
    rename_i v v' _ _ _
    intro i
    obtain ⟨a, b, c⟩ := hl v (List.mem_cons_self ..)
    obtain ⟨d, -, -⟩ := h a b
    cases i with
    | zero =>
      simp only [Included, List.getElem?_cons_zero, Option.some.injEq, exists_eq_left']
      omega
    | succ i => exact ih (fun v hv => hl v (List.mem_cons_of_mem _ hv)) i

/-- C106: a clause all of whose states are at least two steps per example away from the border between included and excluded says after the
training what it said before. -/
theorem C106_same_conjunction (e : Exec DBlock) (smp : List Rat → Rat → Nat) (us : List (TMUse (List Nat))) (i j : Nat) (b : DBlock) (c : Clause)
    (hb : e.blocks[i]? = some b) (hc : b.clauses[j]? = some c)
    (hv : ∀ v, v ∈ c.pos ∨ v ∈ c.neg → -128 ≤ v ∧ v ≤ 127 ∧ (2 * (examplesShown us : Int) ≤ v ∨ v < -2 * (examplesShown us : Int))) :
    ∃ b' c', (afterUses denseBackend smp us e).blocks[i]? = some b' ∧ b'.clauses[j]? = some c' ∧
      (∀ k, Included c'.pos k ↔ Included c.pos k) ∧ ∀ k, Included c'.neg k ↔ Included c.neg k := by
  obtain ⟨b', hb', h1⟩ := Pace.forall₂_at (C106_literals e smp us) i b hb
  obtain ⟨c', hc', h2, h3⟩ := Pace.forall₂_at h1 j c hc
  refine ⟨b', c', hb', hc', Pace.included_kept h2 fun v h => ?_, Pace.included_kept h3 fun v h => ?_⟩
  · obtain ⟨p, q, r⟩ := hv v (.inl h)
    exact ⟨p, q, by push_cast; omega⟩
  · obtain ⟨p, q, r⟩ := hv v (.inr h)
    exact ⟨p, q, by push_cast; omega⟩

/-! ### Predictions by the true votes -/

/-- What `C106_votes_partial` needs of the clauses. -/
theorem Pace.sum_le (bound : Nat) : ∀ (cls : List (List Int × List Int × List Int)), WeightsWithin bound (cls.map fun c => c.2.2) → ∀ k,
    (cls.map fun c => (c.2.2.getD k 0).natAbs).sum ≤ cls.length * bound := by
  intro cls
  induction cls with
  | nil => intro _ k; simp
  | cons c cls ih =>
    intro h k
    have h1 := ih (fun r hr => h r (List.mem_cons_of_mem _ hr)) k
    have h2 : (c.2.2.getD k 0).natAbs ≤ bound := by
      rw [List.getD_eq_getElem?_getD]
      cases hk : c.2.2[k]? with
      | none => simp
      | some w => exact h c.2.2 (by simp) w (List.mem_of_getElem? hk)
    simp only [List.map_cons, List.sum_cons, List.length_cons, Nat.add_mul, Nat.one_mul]
    omega

theorem Pace.modelVotes_true (m n : Nat) (cls : List (List Int × List Int × List Int)) (data : List (List Nat)) (h : Fits16 m n cls data)
    (x : List Nat) (hx : x ∈ data) : modelVotes n cls x = trueVotes n cls x := by
  unfold modelVotes trueVotes
  refine List.map_congr_left fun k hk => ?_
  have := h.2 x hx k (List.mem_range.1 hk)
  exact Pace.wrap16_small this.1 this.2

theorem Pace.after_ready {B E : Type} {be : Backend B E} {n : Nat} {P : B → Prop} (hk : Keeps be n P) (smp : List Rat → Rat → Nat) :
    ∀ (us : List (TMUse E)) (e : Exec B), Ready n P e → Ready n P (afterUses be smp us e) := by
  intro us
  induction us with
  | nil => intro e h; exact h
  | cons u us ih =>
    intro e h
    refine ih _ ?_
    cases u with
    | epoch sh data => exact ready_trainEpoch hk smp sh data e h
    | predict data => exact ready_evalPredict hk data _ e h

theorem Pace.clauses_forall₂ {B : Type} {n : Nat} (rows : B → List (List Int)) {bs ds : List B}
    (h : List.Forall₂ (fun b d => MovedAtMost n (rows b) (rows d)) bs ds) : MovedAtMost n (bs.flatMap rows) (ds.flatMap rows) := by
  induction h with
  | nil => exact .nil
  | cons h _ ih => simp only [List.flatMap_cons]; exact List.rel_append h ih

/-- C106, part: a machine with weights between `-bound` and `bound` may be used at will; while its number of clauses times (`bound` + examples
trained on) is at most 32767, no sum of its weights needs more than 16 bits, so it can be exported, and it predicts by the true sums of the votes.
Missing: longer training, for which this is false (`C106_overflow`). -/
theorem C106_votes_partial (m n bound : Nat) (e : Exec DBlock) (h : SetUp m n e) (hw : WeightsWithin bound (e.blocks.flatMap weightsOf))
    (smp : List Rat → Rat → Nat) (us : List (TMUse (List Nat)))
    (hs : (e.blocks.flatMap (·.clauses)).length * (bound + examplesShown us) ≤ 32767) (hb : bound + examplesShown us ≤ 32767)
    (data : List (List Nat)) (hx : ∀ x ∈ data, Binary x ∧ x.length = m) :
    Fits16 m n (model (afterUses denseBackend smp us e)) data ∧
    ∃ ks, (Exec.evalPredict denseBackend data data.length (afterUses denseBackend smp us e)).2 = some ks ∧ ks.length = data.length ∧
      ∀ (i : Nat) (x : List Nat) (k : Nat), data[i]? = some x → ks[i]? = some k →
        LowestMax (trueVotes n (model (afterUses denseBackend smp us e)) x) k := by
  have hmv := Pace.clauses_forall₂ weightsOf (C106_portable e smp us)
  have hw' := C106_bound_grows _ _ _ _ hmv hw hb
  have rows : ∀ e : Exec DBlock, ((model e).map fun c => c.2.2) = e.blocks.flatMap weightsOf := by
    intro e
    simp only [model, List.map_flatMap, List.map_map]
    rfl
  have hlen : (model (afterUses denseBackend smp us e)).length = (e.blocks.flatMap (·.clauses)).length := by
    have h1 := hmv.length_eq
    rw [← rows, ← rows, List.length_map, List.length_map] at h1
    rw [← h1]
    simp [model]
  have hfit : Fits16 m n (model (afterUses denseBackend smp us e)) data := by
    refine C98_small_weights_suffice m n _ (fun k _ => ?_) data
    have := Pace.sum_le (bound + examplesShown us) (model (afterUses denseBackend smp us e)) (by rw [rows]; exact hw') k
    rw [hlen] at this
    omega
  refine ⟨hfit, ?_⟩
  have hset : SetUp m n (afterUses denseBackend smp us e) :=
    (setUp_iff_ready m n _).2 (Pace.after_ready (dense_keeps_shape m n) smp us e ((setUp_iff_ready m n e).1 h))
  obtain ⟨ks, a, b, c⟩ := C17_batch_predictions m n _ data hset hx
  refine ⟨ks, a, b, fun i x k hi hk => ?_⟩
  rw [← Pace.modelVotes_true m n _ data hfit x (List.mem_of_getElem? hi)]
  exact c i x k hi hk

/-- C106, part, on the AVX2 backend. -/
theorem C106_avx2_votes_partial (m n bound : Nat) (e : Exec VBlock) (h : AvxSetUp m n e)
    (hw : WeightsWithin bound (e.blocks.flatMap avxWeightsOf)) (smp : List Rat → Rat → Nat) (us : List (TMUse Mem))
    (hs : (e.blocks.flatMap (·.clauses)).length * (bound + examplesShown us) ≤ 32767) (hb : bound + examplesShown us ≤ 32767)
    (data : List Mem) (hx : ∀ x ∈ data, Binary (unpadExample m x)) :
    Fits16 m n (avxModel (afterUses avxBackend smp us e)) (data.map (unpadExample m)) ∧
    ∃ ks, (Exec.evalPredict avxBackend data data.length (afterUses avxBackend smp us e)).2 = some ks ∧ ks.length = data.length ∧
      ∀ (i : Nat) (x : Mem) (k : Nat), data[i]? = some x → ks[i]? = some k →
        LowestMax (trueVotes n (avxModel (afterUses avxBackend smp us e)) (unpadExample m x)) k := by
  have hmv := Pace.clauses_forall₂ avxWeightsOf (C106_avx2 e smp us)
  have hw' := C106_bound_grows _ _ _ _ hmv hw hb
  have rows : ∀ e : Exec VBlock, ((avxModel e).map fun c => c.2.2) = e.blocks.flatMap avxWeightsOf := by
    intro e
    simp only [avxModel, List.map_flatMap, List.map_map]
    rfl
  have hlen : (avxModel (afterUses avxBackend smp us e)).length = (e.blocks.flatMap (·.clauses)).length := by
    have h1 := hmv.length_eq
    rw [← rows, ← rows, List.length_map, List.length_map] at h1
    rw [← h1]
    simp [avxModel, List.length_flatMap]
  have hfit : Fits16 m n (avxModel (afterUses avxBackend smp us e)) (data.map (unpadExample m)) := by
    refine C98_small_weights_suffice m n _ (fun k _ => ?_) _
    have := Pace.sum_le (bound + examplesShown us) (avxModel (afterUses avxBackend smp us e)) (by rw [rows]; exact hw') k
    rw [hlen] at this
    omega
  refine ⟨hfit, ?_⟩
  have hset : AvxSetUp m n (afterUses avxBackend smp us e) :=
    (avxSetUp_iff_ready m n h.lits _).2 (Pace.after_ready (avx_keeps_shape m n h.lits) smp us e ((avxSetUp_iff_ready m n h.lits e).1 h))
  obtain ⟨ks, a, b, c⟩ := C17_avx2_batch_predictions m n _ data hset hx
  refine ⟨ks, a, b, fun i x k hi hk => ?_⟩
  rw [← Pace.modelVotes_true m n _ _ hfit _ (List.mem_map_of_mem (List.mem_of_getElem? hi))]
  exact c i x k hi hk

/-! ### The hypotheses are met -/

/-- A machine that has learned something, with four uses of it: training on 10 examples in all. -/
example : SetUp 2 2 exExec ∧ WeightsWithin 9 (exExec.blocks.flatMap weightsOf) ∧
    ∀ us, us = [TMUse.epoch id (List.replicate 4 (([1, 0] : List Nat), 0)), .predict [[1, 1]], .epoch List.reverse (List.replicate 6 ([0, 1], 1)),
      .predict []] →
      examplesShown us = 10 ∧ (exExec.blocks.flatMap (·.clauses)).length * (9 + examplesShown us) ≤ 32767 ∧ 9 + examplesShown us ≤ 32767 := by
  refine ⟨exExec_setUp.1, by unfold WeightsWithin; decide, ?_⟩
  rintro us rfl
  exact ⟨rfl, by decide, by decide⟩

/-- A fresh block. -/
example : ∃ b, initTM 2 3 2 ⟨some 2, false, 1 / 10, 9 / 10⟩ (fun s => ⟨fun k => ((s + k) % 5 : Nat) / 5, 0⟩) (fun s => ⟨fun k => ((s + k) % 7 : Nat) / 7, 0⟩)
    (fun _ => 5) 3 = some b := ⟨_, rfl⟩

/-- A clause with settled states, and training on 20 examples. -/
example : ∀ v, v ∈ ([100, -90] : List Int) ∨ v ∈ ([-60, -41] : List Int) →
    -128 ≤ v ∧ v ≤ 127 ∧ (2 * ((examplesShown [TMUse.epoch id (List.replicate 20 (([1, 0] : List Nat), 0))] : Nat) : Int) ≤ v ∨
      v < -2 * ((examplesShown [TMUse.epoch id (List.replicate 20 (([1, 0] : List Nat), 0))] : Nat) : Int)) := by
  simp only [examplesShown, TMUse.size, List.length_replicate, List.map_cons, List.map_nil, List.sum_cons, List.sum_nil, List.mem_cons,
    List.not_mem_nil, or_false]
  omega

/-- C106 fails for long training. A fresh machine (one clause, one literal, two classes) is shown the same example with label 0 again and again.
After 32766 times it predicts class 0, as it should; the next time the weight for class 0 leaves its 16 bits, and the machine predicts class 1, a
class it has never been shown. -/
theorem C106_overflow : ∃ (b : DBlock) (fastOf rngOf : Nat → Rng) (rng : Rng),
    initTM 1 1 2 ⟨none, false, 1 / 10, 9 / 10⟩ fastOf rngOf (fun _ => 0) 1 = some b ∧
    ∀ u, u = TMUse.epoch id [(([1] : List Nat), 0)] →
      (Exec.evalPredict denseBackend [[1]] 1 (afterUses denseBackend discreteSample (List.replicate 32766 u) ⟨FB.new 2 40000 rng, [b], []⟩)).2 =
        some [0] ∧
      (Exec.evalPredict denseBackend [[1]] 1 (afterUses denseBackend discreteSample (List.replicate 32767 u) ⟨FB.new 2 40000 rng, [b], []⟩)).2 =
        some [1] := by
  refine ⟨⟨1, 2, Pace.overCfg, [⟨[0], [-1], [1, -1], 0, 0⟩], [0, 0], ⟨Pace.overFast, 2⟩, ⟨Pace.overRng, 2⟩⟩,
    fun _ => ⟨Pace.overFast, 0⟩, fun _ => ⟨Pace.overRng, 0⟩, ⟨fun _ => 1 / 2, 0⟩, ?_, ?_⟩
  · have h1 : initRows 1 1 ⟨Pace.overRng, 0⟩ = ([([0], [-1])], ⟨Pace.overRng, 2⟩) := by
      simp [initRows, initHalf, Rng.next, Pace.overRng]; norm_num
    have h2 : initAllWeights 2 1 ⟨Pace.overFast, 0⟩ = ([[1, -1]], ⟨Pace.overFast, 2⟩) := by
      simp [initAllWeights, initWeights, Rng.next, Pace.overFast]; norm_num
    simp only [initTM, h1, h2]
    rfl
  · rintro u rfl
    have step : ∀ n : Nat, n + 2 ≤ 32767 → Pace.Over (n + 2) (-(n + 1))
        (afterUses denseBackend discreteSample (List.replicate (n + 1) (.epoch id [([1], 0)])) Pace.overStart) := by
      intro n hn
      rw [List.replicate_succ, afterUses, List.foldl_cons]
      exact Pace.over_uses n hn Pace.over_first
    have both : ∀ n : Nat, n + 2 = 32767 →
        (Exec.evalPredict denseBackend [[1]] 1 (afterUses denseBackend discreteSample (List.replicate (n + 1) (.epoch id [([1], 0)]))
          Pace.overStart)).2 = some [0] ∧
        (Exec.evalPredict denseBackend [[1]] 1 (afterUses denseBackend discreteSample (List.replicate (n + 2) (.epoch id [([1], 0)]))
          Pace.overStart)).2 = some [1] := by
      intro n hn
      have h1 := step n (by omega)
      refine ⟨?_, ?_⟩
      · have := Pace.over_predict (by omega) (by omega) (by omega) (by omega) h1
        rwa [if_neg (by omega)] at this
      · have h2 := Pace.over_use (by omega) (by omega) (by omega) (by omega) h1
        have e1 : wrap16 ((n : Int) + 2 + 1) = -32768 := by unfold wrap16; omega
        have e2 : wrap16 (-((n : Int) + 1) - 1) = -32767 := by unfold wrap16; omega
        rw [e1, e2] at h2
        have := Pace.over_predict (by omega) (by omega) (by omega) (by omega) h2
        rw [if_pos (by omega)] at this
        rw [show List.replicate (n + 2) (TMUse.epoch id [(([1] : List Nat), 0)]) = List.replicate (n + 1) (.epoch id [([1], 0)]) ++
          [.epoch id [([1], 0)]] from List.replicate_succ', afterUses, List.foldl_append]
        exact this
    exact both 32765 rfl

end GT

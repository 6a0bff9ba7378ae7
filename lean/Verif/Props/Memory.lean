import Verif.Spec.Memory
import Verif.Lemmas.Memory
import Mathlib.Tactic.FinCases

/-!
# C72: the memory of clause blocks

The claim: whatever calls Python code makes, memory is never released twice, never used after its release, and all of it
is released by `cleanup()`. The last part is false: no `cleanup` releases the array of clause outputs.
-/

namespace GT
open Spec

theorem reached_sound {p : CbHeap} (h : Reached p) : Sound p := by
  obtain ⟨cs, hcs⟩ := h
  exact sound_start.calls cs p hcs

theorem allocated_released (k : CbKind) (f : Fld) (hf : f ≠ .outputs)
    (h : f ∈ k.allocates ∨ (k.hasPatches = true ∧ f = .patchCounts)) : f ∈ k.releases := by
  revert hf h
  obtain ⟨fam, b⟩ := k
  cases fam <;> cases b <;> cases f <;> decide

/-- In every process, every call is defined (no memory is released twice, and none is touched that is not allocated), if the
arrays of a block are only used while `is_init()` holds. -/
theorem C72_calls_defined_partial (p : CbHeap) (h : Reached p) (c : CbCall) (hu : ∀ b u, c = .use b u → p.isInit b = true) :
    ∃ q, p.call c = some q ∧ Reached q := by
  obtain ⟨q, h1, -⟩ := (reached_sound h).call c hu
  obtain ⟨cs, hcs⟩ := h
  refine ⟨q, h1, cs ++ [c], ?_⟩
  rw [calls_append, hcs]
  simp [CbHeap.calls, h1]

/-- Two arrays, of one block or of two, never share memory. -/
theorem C72_arrays_disjoint (p : CbHeap) (h : Reached p) (b b' : Nat) (f f' : Fld) (a : Nat)
    (h1 : p.ptr b f = some a) (h2 : p.ptr b' f' = some a) : b = b' ∧ f = f' :=
  (reached_sound h).owned.inj b f b' f' a h1 h2

/-- What a block points to is allocated. -/
theorem C72_pointers_live (p : CbHeap) (h : Reached p) (b : Nat) (f : Fld) (a : Nat) (h1 : p.ptr b f = some a) : a ∈ p.live :=
  (reached_sound h).owned.live b f a h1

/-- `initialize` succeeds exactly if it is accepted, and then `is_init()` holds. -/
theorem C72_initialize_result (p : CbHeap) (b seed : Nat) (o : Bool) (hb : b < p.count) :
    ∃ q, p.call (.initialize b seed o) = some q ∧ (q.isInit b = true ↔ Accepted p b seed o) := by
  refine ⟨_, if_pos hb, ?_⟩
  have hn : ∀ fs : List Fld, ∀ p : CbHeap, (fs.foldl (fun p f => p.alloc b f) p).nPatches = p.nPatches := by
    intro fs
    induction fs with
    | nil => intro p; rfl
    | cons f fs ih => intro p; rw [List.foldl_cons, ih, (alloc_frame p b f).2.2.2.1]
  unfold CbHeap.initialize Accepted
  simp only
  split
  · next hg =>
    simp only [if_true, Bool.false_eq_true, false_iff]
    rintro ⟨h1, h2, -⟩
    rcases hg with hg | ⟨g1, g2, g3⟩
    · exact h1 hg
    · rw [h2 g1 g2] at g3; simp at g3
  · next hg =>
    rw [not_or] at hg
    have h2 : (p.kind b).fam = .sparse → (p.kind b).budget = true → o = true := by
      intro g1 g2
      cases o with
      | true => rfl
      | false => exact absurd ⟨g1, g2, rfl⟩ hg.2
    split
    · next hp =>
      rw [hn]
      split
      · next hpos => simp only [if_true, true_iff]; exact ⟨hg.1, h2, fun _ => hpos⟩
      · next hpos =>
        simp only [if_true, Bool.false_eq_true, false_iff]
        rintro ⟨-, -, h3⟩
        exact hpos (h3 hp)
    · next hp => simp only [if_true, true_iff]; exact ⟨hg.1, h2, fun h => absurd h hp⟩

/-- `cleanup()` is always defined; it releases all arrays of the block but the clause outputs, touches no other block, and
can be called again without effect on the heap. -/
theorem C72_cleanup_releases_partial (p : CbHeap) (h : Reached p) (b : Nat) (hb : b < p.count) :
    ∃ q, p.call (.cleanup b) = some q ∧ Empty q b ∧ q.isInit b = false ∧ q.ptr b .outputs = p.ptr b .outputs ∧
      (∀ b' f, b' ≠ b → q.ptr b' f = p.ptr b' f) ∧
      (∀ a, a ∈ q.live ↔ a ∈ p.live ∧ ∀ f, f ≠ .outputs → p.ptr b f ≠ some a) ∧
      ∃ q', q.call (.cleanup b) = some q' ∧ q'.live.Perm q.live := by
  obtain ⟨q, r1, r2, r3, r4, r5, r6, r7, r8⟩ := (reached_sound h).cleanup b
  have hout : Fld.outputs ∉ (p.kind b).releases := by
    obtain ⟨f, b⟩ := p.kind b
    cases f <;> cases b <;> decide
  have hrest : ∀ f, f ≠ .outputs → f ∉ (p.kind b).releases → p.ptr b f = none := by
    intro f hf hr
    by_contra hne
    exact hr (allocated_released _ f hf ((reached_sound h).only b f hne))
  have hemp : Empty q b := by
    intro f hf
    by_cases hr : f ∈ (p.kind b).releases
    · exact r3 f hr
    · rw [r4 b f fun hh => hr hh.2]
      exact hrest f hf hr
  refine ⟨q, (if_pos hb).trans r1, hemp, ?_, r4 b _ fun hh => hout hh.2, fun b' f hne => r4 b' f fun hh => hne hh.1, ?_, ?_⟩
  · unfold CbHeap.cleanup at r1
    split at r1
    · simp at r1
    · obtain rfl := Option.some.inj r1
      simp
  · intro a
    rw [r5]
    refine and_congr_right fun _ => ⟨fun hh f hf => ?_, fun hh f hf => hh f fun h => hout (h ▸ hf)⟩
    by_cases hr : f ∈ (p.kind b).releases
    · exact hh f hr
    · rw [hrest f hf hr]; simp
  · obtain ⟨q', s1, s2, -, -, s5, -⟩ := r2.cleanup b
    refine ⟨q', (if_pos (by rw [r7]; exact hb)).trans s1, ?_⟩
    refine (List.perm_ext_iff_of_nodup s2.owned.nodup r2.owned.nodup).mpr fun a => ?_
    rw [s5, r6]
    refine ⟨fun hh => hh.1, fun hh => ⟨hh, fun f hf => ?_⟩⟩
    rw [r3 f hf]
    simp

/-- A training run on `bs`, whatever is done with the initialised blocks, leaves exactly one more live array per block: its
clause outputs. Everything else is released, and the blocks are ready for the next run. -/
theorem C72_run_leaks_partial (p : CbHeap) (h : Reached p) (bs : List Nat) (hbs : bs.Nodup) (seed : Nat → Nat) (o : Nat → Bool)
    (hb : ∀ b ∈ bs, b < p.count ∧ Accepted p b (seed b) (o b) ∧ Empty p b)
    (uses : List (Nat × Use)) (hu : ∀ x ∈ uses, x.1 ∈ bs) :
    ∃ q, p.calls (trainingRun bs seed o uses) = some q ∧ Reached q ∧ q.live.length = p.live.length + bs.length ∧
      q.count = p.count ∧ q.kind = p.kind ∧ q.nPatches = p.nPatches ∧
      ∀ b ∈ bs, Empty q b := by
  have hs := reached_sound h
  have hout : ∀ b, ∀ f ∈ (p.kind b).releases, f ≠ .outputs := by
    intro b
    obtain ⟨f, b⟩ := p.kind b
    cases f <;> cases b <;> decide
  obtain ⟨q1, i1, i2, i3, i4, i5, i6, -, -, i8⟩ := initAll hs bs hbs seed o (by
    intro b hbb
    obtain ⟨h1, ⟨h2, h3, h4⟩, h5⟩ := hb b hbb
    exact ⟨h1, h2, h3, h4, fun f hf => h5 f (hout b f hf)⟩)
  have hus : q1.calls (uses.map fun x => .use x.1 x.2) = some q1 := by
    refine uses_defined i2 _ ?_
    intro c hc
    obtain ⟨x, hx, rfl⟩ := List.mem_map.mp hc
    exact ⟨x.1, x.2, rfl, (i6 x.1 (hu x hx)).1⟩
  obtain ⟨q2, c1, c2, c3, c4, c5, c6, -, c8⟩ := cleanAll i2 bs hbs (by
    intro b hbb
    rw [i4, i3]
    exact ⟨(hb b hbb).1, (i6 b hbb).2⟩)
  have hrun : p.calls (trainingRun bs seed o uses) = some q2 := by
    unfold trainingRun
    rw [calls_append, calls_append, i1, Option.bind_some, hus, Option.bind_some, c1]
  refine ⟨q2, hrun, ?_, ?_, c4.trans i4, c3.trans i3, c5.trans i5, ?_⟩
  · obtain ⟨cs, hcs⟩ := h
    exact ⟨cs ++ trainingRun bs seed o uses, by rw [calls_append, hcs]; exact hrun⟩
  · rw [i3] at c8; omega
  · intro b hbb f hf
    by_contra hne
    have hr := allocated_released _ f hf (c2.only b f hne)
    rw [c3] at hr
    exact hne (c6 b hbb f hr)

/-- The same run again and again: every run loses another array per block. -/
theorem C72_runs_leak (p : CbHeap) (h : Reached p) (bs : List Nat) (hbs : bs.Nodup) (seed : Nat → Nat) (o : Nat → Bool)
    (hb : ∀ b ∈ bs, b < p.count ∧ Accepted p b (seed b) (o b) ∧ Empty p b)
    (uses : List (Nat × Use)) (hu : ∀ x ∈ uses, x.1 ∈ bs) (n : Nat) :
    ∃ q, p.calls (List.replicate n (trainingRun bs seed o uses)).flatten = some q ∧
      q.live.length = p.live.length + n * bs.length := by
  induction n generalizing p with
  | zero => exact ⟨p, rfl, by simp⟩
  | succ n ih =>
    obtain ⟨q, r1, r2, r3, r4, r5, r6, r7⟩ := C72_run_leaks_partial p h bs hbs seed o hb uses hu
    obtain ⟨q', s1, s2⟩ := ih q r2 (by
      intro b hbb
      obtain ⟨h1, h2, -⟩ := hb b hbb
      refine ⟨by rw [r4]; exact h1, ?_, r7 b hbb⟩
      unfold Accepted at h2 ⊢
      rw [r5, r6]
      exact h2)
    refine ⟨q', ?_, ?_⟩
    · rw [List.replicate_succ, List.flatten_cons, calls_append, r1]
      exact s1
    · rw [s2, r3, Nat.succ_mul]; omega

/-- The claim that `cleanup()` releases all memory is false for every backend: one array stays, and deleting the object does
not release it. -/
theorem C72_cleanup_leaks (k : CbKind) :
    (CbHeap.start.calls [.new k, .setPatches 0 4, .initialize 0 1 true, .cleanup 0, .drop 0]).map (fun p => p.live.length) =
      some 1 := by
  obtain ⟨fam, b⟩ := k
  cases fam <;> cases b <;> decide

/-- Using a block after `cleanup()`, as `save_state` does when no state was stored, touches released memory. -/
theorem C72_use_after_cleanup (k : CbKind) :
    (CbHeap.start.calls [.new k, .setPatches 0 4, .initialize 0 1 true, .cleanup 0, .use 0 .getState]).isNone = true := by
  obtain ⟨fam, b⟩ := k
  cases fam <;> cases b <;> decide

/-- Using a block that was never initialised, or whose initialisation was refused, is no better. -/
theorem C72_use_before_initialize (k : CbKind) (u : Use) :
    (CbHeap.start.calls [.new k, .setPatches 0 4, .initialize 0 0 true, .use 0 u]).isNone = true := by
  obtain ⟨fam, b⟩ := k
  cases fam <;> cases b <;> cases u <;> decide

/-- Initialising twice without `cleanup()` between loses all arrays of the first time (the vectors of the sparse backend are
kept). -/
theorem C72_initialize_twice (k : CbKind) :
    (CbHeap.start.calls [.new k, .setPatches 0 4, .initialize 0 1 true, .initialize 0 2 true, .cleanup 0]).map
      (fun p => p.live.length) =
      some (k.allocates.length + (if k.hasPatches then 1 else 0) + 1 - (if k.fam = .sparse then 1 else 0)) := by
  obtain ⟨fam, b⟩ := k
  cases fam <;> cases b <;> decide

/-- The convolutional backends refuse to be initialised without the number of patches, and `cleanup()` then still releases
what the refused initialisation allocated, but for the clause outputs. -/
theorem C72_refused_convolution (b : Bool) (fam : Fam) (hf : fam = .conv ∨ fam = .convAvx2) :
    (CbHeap.start.calls [.new ⟨fam, b⟩, .initialize 0 1 true]).map (fun p => (p.isInit 0, p.ptr 0 .outputs)) =
      some (false, some (if fam = .conv then 1 else if b then 3 else 2)) ∧
    (CbHeap.start.calls [.new ⟨fam, b⟩, .initialize 0 1 true, .cleanup 0]).map (fun p => p.live) =
      some [if fam = .conv then 1 else if b then 3 else 2] := by
  rcases hf with rfl | rfl <;> cases b <;> decide

/-- Non-vacuity: two blocks of different backends, used between, leave two arrays. -/
example : (CbHeap.start.calls ([.new ⟨.avx2, true⟩, .new ⟨.conv, false⟩, .setPatches 1 9] ++
    trainingRun [0, 1] (fun b => b + 5) (fun _ => true) [(0, .trainOutput), (1, .trainOutput), (0, .trainUpdate), (1, .getState)])).map
      (fun p => (p.live.length, p.isInit 0)) = some (2, false) := by decide

/-- Non-vacuity of `C72_run_leaks_partial`: two new blocks meet its hypotheses. -/
example : ∃ p, CbHeap.start.calls [.new ⟨.avx2, true⟩, .new ⟨.conv, false⟩, .setPatches 1 9] = some p ∧
    ∀ b ∈ [0, 1], b < p.count ∧ Accepted p b (b + 5) true ∧ Empty p b := by
  refine ⟨_, rfl, ?_⟩
  intro b hb
  fin_cases hb
  · exact ⟨by decide, ⟨by decide, by decide, by decide⟩, fun f _ => rfl⟩
  · exact ⟨by decide, ⟨by decide, by decide, by decide⟩, fun f _ => rfl⟩

end GT

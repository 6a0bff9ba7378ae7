import Verif.Lemmas.OnePatch

/-! # C99: a convolutional machine whose examples are one patch is a dense machine -/

namespace GT
open Spec OnePatch

/-- C99 (portable). For every history of training and prediction calls there are number streams for the dense machine, made of the
numbers of the convolutional machine's generators with some left out, such that after every call the two machines have given the same
predictions and hold the same votes, feedback, states, weights and clause outputs. -/
theorem C99_one_patch (smp : List Rat → Rat → Nat) (calls : List (List Nat × Option Nat)) (e : Exec ConvBlock)
    (hok : ∀ b ∈ e.blocks, b.nPatches = 1 ∧ ∀ c ∈ calls, c.1.length = b.nLits) :
    ∃ gs : List Rng, List.Forall₂ (fun (b : ConvBlock) g => Thinned b.rng g) e.blocks gs ∧ ∀ k,
      (runCalls denseBackend smp (calls.take k) (denseExec e gs)).2 = (runCalls convBackend smp (calls.take k) e).2 ∧
      (runCalls denseBackend smp (calls.take k) (denseExec e gs)).1.fb = (runCalls convBackend smp (calls.take k) e).1.fb ∧
      List.Forall₂ SameBlock (runCalls convBackend smp (calls.take k) e).1.blocks
        (runCalls denseBackend smp (calls.take k) (denseExec e gs)).1.blocks :=
  onePatch smp calls e hok

/-- Without training no numbers are involved: for every generator the dense machine predicts the same. -/
theorem C99_predictions (xs : List (List Nat)) (e : Exec ConvBlock) (gs : List Rng) (hl : gs.length = e.blocks.length)
    (hok : ∀ b ∈ e.blocks, b.nPatches = 1 ∧ ∀ x ∈ xs, x.length = b.nLits) :
    (runCalls denseBackend (fun _ _ => 0) (xs.map fun x => (x, none)) (denseExec e gs)).2 =
      (runCalls convBackend (fun _ _ => 0) (xs.map fun x => (x, none)) e).2 := by
  induction xs generalizing e gs with
  | nil => rfl
  | cons x xs ih =>
    have hgs : List.Forall₂ (fun (_ : ConvBlock) (_ : Rng) => True) e.blocks gs :=
      List.forall₂_iff_get.2 ⟨hl.symm, fun _ _ _ => trivial⟩
    have hx : ∀ b ∈ e.blocks, Fit b x := fun b hb => ⟨(hok b hb).1, (hok b hb).2 _ (List.mem_cons_self ..)⟩
    have hfb := evalOne_fb convBackend denseBackend e (denseExec e gs) x rfl
      (zipWith_rel denseOf hgs hx fun b g hb => (conv_eval b hb.1 x hb.2 g).votes.symm)
    have hlike : List.Forall₂ Like (denseExec (e.evalOne convBackend x).1 gs).blocks ((denseExec e gs).evalOne denseBackend x).1.blocks := by
      rw [evalOne_blocks]
      simp only [denseExec, evalOne_blocks, List.map_zipWith, List.zipWith_map_left]
      have : ∀ bs : List ConvBlock, (∀ b ∈ bs, Fit b x) → ∀ gs : List Rng,
          List.Forall₂ Like (List.zipWith (fun b g => denseOf (convBackend.evalExample b x) g) bs gs)
            (List.zipWith (fun b g => denseBackend.evalExample (denseOf b g) x) bs gs) := by
        intro bs
        induction bs with
        | nil => intro _ gs; simp
        | cons b bs ihb =>
          intro hb gs
          cases gs with
          | nil => simp
          | cons g gs =>
            exact .cons (conv_eval b (hb b (List.mem_cons_self ..)).1 x (hb b (List.mem_cons_self ..)).2 g)
              (ihb (fun b' h' => hb b' (List.mem_cons_of_mem _ h')) gs)
      exact this _ hx gs
    obtain ⟨s1, _, _⟩ := run_sim like_sim (fun _ _ => 0) (xs.map fun x => (x, none)) (denseExec (e.evalOne convBackend x).1 gs) _ hfb.1 hlike
      (fun _ _ _ _ => trivial)
    have r1 := ih (e.evalOne convBackend x).1 gs (by rw [evalOne_blocks, List.length_map]; exact hl) (by
      intro b hb
      rw [evalOne_blocks] at hb
      obtain ⟨b', hb', rfl⟩ := List.mem_map.1 hb
      exact ⟨(hok b' hb').1, fun c hc => (hok b' hb').2 c (List.mem_cons_of_mem _ hc)⟩)
    simp only [List.map_cons, runCalls]
    rw [hfb.2, s1, r1]

/-- C99 (AVX2). The AVX2 blocks pick the patch with a generator of its own, so the dense machine with the same generators takes exactly the
same steps. -/
theorem C99_avx2 (smp : List Rat → Rat → Nat) (calls : List (Mem × Option Nat)) (e : Exec VConvBlock)
    (hok : ∀ b ∈ e.blocks, b.nPatches = 1) :
    (runCalls avxBackend smp calls (avxDenseExec e)).2 = (runCalls avxConvBackend smp calls e).2 ∧
    (runCalls avxBackend smp calls (avxDenseExec e)).1.fb = (runCalls avxConvBackend smp calls e).1.fb ∧
    List.Forall₂ SameAvxBlock (runCalls avxConvBackend smp calls e).1.blocks (runCalls avxBackend smp calls (avxDenseExec e)).1.blocks := by
  have h0 : List.Forall₂ VLike e.blocks (avxDenseExec e).blocks := by
    simp only [avxDenseExec, List.forall₂_map_right_iff]
    refine List.forall₂_same.2 fun b hb => ⟨hok b hb, rfl, rfl, ?_, rfl, rfl, rfl⟩
    simp only [avxDenseOf, List.map_map]
    rfl
  obtain ⟨h1, h2, h3⟩ := run_sim vsim smp calls e (avxDenseExec e) rfl h0 (fun _ _ _ _ => trivial)
  exact ⟨h1, h2, h3.imp fun b d h => ⟨h.faces, h.votes⟩⟩

/-- The two machines start equal: with the same seed, a convolutional block for one patch is allocated as the dense block is. -/
theorem C99_start (nLits nClauses nClasses : Nat) (nPatches : Int) (cfg : Cfg) (fastOf rngOf : Nat → Rng)
    (junk junkPatch junkCounts : Nat → Nat) (seed : Nat) (b : ConvBlock)
    (h : initConv nLits nClauses nClasses nPatches cfg fastOf rngOf junk junkPatch junkCounts seed = some b) :
    initTM nLits nClauses nClasses cfg fastOf rngOf junk seed = some (denseOf b b.rng) := by
  unfold initConv at h
  cases hd : initTM nLits nClauses nClasses cfg fastOf rngOf junk seed with
  | none => rw [hd] at h; simp at h
  | some d =>
    rw [hd] at h
    simp only at h
    split at h
    · obtain rfl := Option.some.inj h
      congr 1
      have : d.nLits = nLits ∧ d.nClasses = nClasses ∧ d.cfg = cfg := by
        unfold initTM at hd
        split at hd
        · simp at hd
        · obtain rfl := Option.some.inj hd; exact ⟨rfl, rfl, rfl⟩
      obtain ⟨h1, h2, h3⟩ := this
      have hm : (d.clauses.mapIdx fun i c => (⟨c, junkPatch i⟩ : ConvClause)).map (·.base) = d.clauses := by
        apply List.ext_getElem <;> simp
      simp only [denseOf, hm]
      cases d; simp_all
    · simp at h

/-- A machine of one convolutional block over one patch of two literals, with a literal budget, boosting off, and a clause that fires. -/
def onePatchMachine : Exec ConvBlock :=
  ⟨FB.new 2 10 ⟨fun _ => 1 / 2, 0⟩,
    [⟨2, 2, 1, ⟨some 4, false, 1 / 3, 2 / 3⟩, [⟨⟨[1, -3], [-2, 0], [1, -1], 0, 0⟩, 7⟩], fun _ => 9, [0, 0],
      ⟨fun _ => 1 / 4, 0⟩, ⟨fun i => if i = 0 then 9 / 10 else 1 / 5, 0⟩⟩], []⟩

/-- The hypotheses are met, and training on the clause's own example changes it: the states move and the prediction is given. -/
example : (∀ b ∈ onePatchMachine.blocks, b.nPatches = 1 ∧ ∀ c ∈ [([1, 0], some 0), ([1, 0], none)], c.1.length = b.nLits) ∧
    (runCalls convBackend (fun _ _ => 1) [([1, 0], some 0), ([1, 0], none)] onePatchMachine).2 = [0] ∧
    ((runCalls convBackend (fun _ _ => 1) [([1, 0], some 0), ([1, 0], none)] onePatchMachine).1.blocks.map fun b =>
      b.clauses.map fun c => face c.base) ≠ onePatchMachine.blocks.map fun b => b.clauses.map fun c => face c.base := by
  decide +kernel

/-- The generator has moved by more than the dense machine's: one number was spent on choosing the only patch. -/
example : ((runCalls convBackend (fun _ _ => 1) [([1, 0], some 0)] onePatchMachine).1.blocks.map fun b => b.rng.pos) =
    ((runCalls denseBackend (fun _ _ => 1) [([1, 0], some 0)] (denseExec onePatchMachine [⟨fun _ => 1 / 5, 0⟩])).1.blocks.map
      fun b => b.rng.pos + 1) := by
  decide +kernel

/-- With the very same numbers the dense machine learns something else, so some numbers do have to be left out. -/
example : ((runCalls convBackend (fun _ _ => 1) [([1, 0], some 0)] onePatchMachine).1.blocks.map fun b =>
      b.clauses.map fun c => face c.base) ≠
    ((runCalls denseBackend (fun _ _ => 1) [([1, 0], some 0)]
      (denseExec onePatchMachine (onePatchMachine.blocks.map (·.rng)))).1.blocks.map fun b => b.clauses.map face) := by
  decide +kernel

/-- An AVX2 machine of one block over one patch. -/
def onePatchAvx : Exec VConvBlock :=
  ⟨FB.new 2 10 ⟨fun _ => 1 / 2, 0⟩,
    [⟨2, 1, ⟨2, some 4, false, 40#8⟩, [⟨⟨fun a => if a = 0 then 1#8 else 0xF0#8, [1, -1], 0, 0⟩, 7⟩], fun _ => 9, [0, 0],
      ⟨fun _ => 1 / 4, 0⟩, ⟨fun i => if i = 0 then 9 / 10 else 1 / 5, 0⟩, ⟨fun i l => BitVec.ofNat 8 (i * 37 + l), 0⟩⟩], []⟩

example : (∀ b ∈ onePatchAvx.blocks, b.nPatches = 1) ∧
    (runCalls avxConvBackend (fun _ _ => 1) [(fun a => if a = 0 then 1#8 else 0#8, some 0), (fun a => if a = 0 then 1#8 else 0#8, none)]
      onePatchAvx).2 = [0] ∧
    ((runCalls avxConvBackend (fun _ _ => 1) [(fun a => if a = 0 then 1#8 else 0#8, some 0)] onePatchAvx).1.blocks.map fun b =>
      b.clauses.map fun c => c.base.w) = [[[2, -2]]] := by
  decide +kernel

example : (initConv 2 1 2 1 ⟨none, false, 1 / 3, 2 / 3⟩ (fun _ => ⟨fun _ => 1 / 4, 0⟩) (fun _ => ⟨fun _ => 1 / 4, 0⟩) (fun _ => 3)
    (fun _ => 5) (fun _ => 6) 42).isSome = true := by
  decide +kernel

end GT
